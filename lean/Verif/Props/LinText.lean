import Verif.Lemmas.LinText
import Mathlib.Data.List.Forall2

/-! Property C98: the text of a linear expression tells its terms. -/

namespace Verif.Props
open Verif

theorem strForCoeff_eq (fmt : Num → String) (q : ℚ) [Decidable (near q 1)] [Decidable (near q (-1))] :
    strForCoeff fmt (.fin q) = if near q 1 then "+" else if near q (-1) then "-" else fmt (.fin q) := by
  unfold strForCoeff
  simp only [isOne_iff, isMinusOne_iff]

theorem strForCoeff_same (fmt : Num → String) (hf : NumberFormat fmt) {a b : ℚ} (h : strForCoeff fmt (.fin a) = strForCoeff fmt (.fin b)) :
    SameCoefficient fmt a b := by
  classical
  rw [strForCoeff_eq, strForCoeff_eq] at h
  have hp : ∀ q : ℚ, fmt (.fin q) ≠ "+" ∧ fmt (.fin q) ≠ "-" := by
    intro q
    obtain ⟨s, ds, f, e, hs, hd, -, -, h⟩ := (hf q).parts
    constructor <;> intro h' <;> rw [h'] at h <;> cases ds <;> simp_all [Digits]
  unfold SameCoefficient
  have ha := @near_one_minus a
  have hb := @near_one_minus b
  by_cases h1 : near a 1 <;> by_cases h2 : near b 1 <;> by_cases h3 : near a (-1) <;> by_cases h4 : near b (-1) <;>
    simp_all
  all_goals first | exact absurd rfl (hp b).1 | exact absurd rfl (hp b).2

theorem strForCoeff_of_same (fmt : Num → String) {a b : ℚ} (h : SameCoefficient fmt a b) :
    strForCoeff fmt (.fin a) = strForCoeff fmt (.fin b) := by
  classical
  rw [strForCoeff_eq, strForCoeff_eq]
  have ha := @near_one_minus a
  have hb := @near_one_minus b
  rcases h with ⟨h1, h2⟩ | ⟨h1, h2⟩ | ⟨h1, h2, h3, h4, h5⟩
  · simp [h1, h2]
  · have h3 : ¬ near a 1 := fun h => ha h h1
    have h4 : ¬ near b 1 := fun h => hb h h2
    simp [h1, h2, h3, h4]
  · simp [h1, h2, h3, h4, h5]

/-- a coefficient as it is written, a sign or a number -/
def CoefText (n : List Char) : Prop := n = ['+'] ∨ n = ['-'] ∨ SignedNumber n

theorem strForCoeff_text (fmt : Num → String) (hf : NumberFormat fmt) (q : ℚ) : CoefText (strForCoeff fmt (.fin q)).toList := by
  unfold strForCoeff
  split
  · exact .inl rfl
  split
  · exact .inr (.inl rfl)
  · exact .inr (.inr (hf q))

theorem coefText_unique {n n' r r' : List Char} (hn : CoefText n) (hn' : CoefText n') (hr : Stops r) (hr' : Stops r')
    (h : n ++ r = n' ++ r') : n = n' ∧ r = r' := by
  rcases hn with rfl | rfl | hn <;> rcases hn' with rfl | rfl | hn'
  · simpa using h
  · simp at h
  · exact (sign_not_number hn' hr h).elim
  · simp at h
  · simpa using h
  · exact (sign_not_number hn' hr h).elim
  · exact (sign_not_number hn hr' h.symm).elim
  · exact (sign_not_number hn hr' h.symm).elim
  · exact number_unique hn hn' hr hr' h

theorem stops_nil : Stops [] := by intro x r h; cases h

theorem stops_component {c : String} (hc : ReadableComponent c) (r : List Char) : Stops (c.toList ++ '.' :: r) := by
  obtain ⟨hp, x, y, hxy, hd, he⟩ := hc
  rw [hxy] at hp ⊢
  intro x' r' h
  simp only [List.cons_append, List.cons.injEq] at h
  obtain ⟨rfl, rfl⟩ := h
  refine ⟨hd, fun h => hp (by simp [h]), ?_⟩
  intro z r'' hx hr
  cases y with
  | nil =>
    simp only [List.nil_append, List.cons.injEq] at hr
    rw [← hr.1]; decide
  | cons z' y =>
    simp only [List.cons_append, List.cons.injEq] at hr
    rw [← hr.1]
    exact he _ _ hx rfl

/-- the text of a term, followed by another -/
theorem repr_toList (fmt : Num → String) (t : Term) (r : List Char) : (t.repr fmt).toList ++ r =
    (strForCoeff fmt t.coefficient).toList ++ (t.key.component.toList ++ '.' :: (t.key.var.toList ++ '[' ::
      ((strIndex t.key.time).toList ++ ',' :: ((strIndex t.key.scenario).toList ++ ']' :: r)))) := by
  unfold Term.repr
  simp only [String.toList_append, List.append_assoc]
  rfl

theorem term_unique (fmt : Num → String) (hf : NumberFormat fmt) {t u : Term} {a b : ℚ} (ht : ReadableTerm t a) (hu : ReadableTerm u b)
    {r r' : List Char} (h : (t.repr fmt).toList ++ r = (u.repr fmt).toList ++ r') :
    t.key = u.key ∧ SameCoefficient fmt a b ∧ r = r' := by
  rw [repr_toList, repr_toList, ht.coefficient, hu.coefficient] at h
  obtain ⟨h1, h⟩ := coefText_unique (strForCoeff_text fmt hf a) (strForCoeff_text fmt hf b) (stops_component ht.component _)
    (stops_component hu.component _) h
  obtain ⟨h2, h⟩ := until_unique ht.component.1 hu.component.1 h
  obtain ⟨h3, h⟩ := until_unique ht.var hu.var h
  obtain ⟨h4, h⟩ := until_unique (strIndex_no _ (.inl rfl)) (strIndex_no _ (.inl rfl)) h
  obtain ⟨h5, h⟩ := until_unique (strIndex_no _ (.inr rfl)) (strIndex_no _ (.inr rfl)) h
  refine ⟨?_, strForCoeff_same fmt hf (String.toList_inj.1 h1), h⟩
  rcases t with ⟨_, c, v, i, j⟩
  rcases u with ⟨_, c', v', i', j'⟩
  simp only at h2 h3 h4 h5
  rw [String.toList_inj.1 h2, String.toList_inj.1 h3, strIndex_inj (String.toList_inj.1 h4), strIndex_inj (String.toList_inj.1 h5)]

/-- the text of terms, then of a constant -/
def body (fmt : Num → String) (ts : List Term) (c : Num) : List Char :=
  ts.flatMap (fun t => (t.repr fmt).toList) ++ (if isZero c then "" else fmt c).toList

theorem const_not_term (fmt : Num → String) (hf : NumberFormat fmt) {t : Term} {a c : ℚ} (ht : ReadableTerm t a) {r : List Char}
    (h : (if isZero (.fin c) then "" else fmt (.fin c)).toList = (t.repr fmt).toList ++ r) : False := by
  rw [repr_toList, ht.coefficient] at h
  have hs := stops_component ht.component (t.key.var.toList ++ '[' ::
      ((strIndex t.key.time).toList ++ ',' :: ((strIndex t.key.scenario).toList ++ ']' :: r)))
  split at h
  · have := congrArg List.length h
    simp at this
  · have h' := (List.append_nil _).trans h
    obtain ⟨-, h2⟩ := coefText_unique (.inr (.inr (hf c))) (strForCoeff_text fmt hf a) stops_nil hs h'
    have := congrArg List.length h2
    simp at this

theorem body_unique (fmt : Num → String) (hf : NumberFormat fmt) (ts us : List Term) (c d : ℚ) (ht : ∀ t ∈ ts, ∃ q, ReadableTerm t q)
    (hu : ∀ t ∈ us, ∃ q, ReadableTerm t q) (h : body fmt ts (.fin c) = body fmt us (.fin d)) :
    List.Forall₂ (fun t u => t.key = u.key ∧ ∃ a b, t.coefficient = .fin a ∧ u.coefficient = .fin b ∧ SameCoefficient fmt a b) ts us ∧
      SameConstant fmt c d := by
  induction ts generalizing us with
  | nil =>
    cases us with
    | nil =>
      refine ⟨.nil, ?_⟩
      simp only [body, List.flatMap_nil, List.nil_append, String.toList_inj] at h
      have hne : ∀ q : ℚ, fmt (.fin q) ≠ "" := by
        intro q
        obtain ⟨s, ds, f, e, -, -, -, -, h⟩ := (hf q).parts
        intro h'
        simp [h'] at h
      unfold SameConstant
      simp only [← isZero_near]
      split at h <;> split at h
      · simp_all
      · exact absurd h.symm (hne _)
      · exact absurd h (hne _)
      · simp_all
    | cons u us =>
      obtain ⟨q, hq⟩ := hu u (by simp)
      simp only [body, List.flatMap_nil, List.nil_append, List.flatMap_cons, List.append_assoc] at h
      exact (const_not_term fmt hf hq h).elim
  | cons t ts ih =>
    obtain ⟨p, hp⟩ := ht t (by simp)
    cases us with
    | nil =>
      simp only [body, List.flatMap_nil, List.nil_append, List.flatMap_cons, List.append_assoc] at h
      exact (const_not_term fmt hf hp h.symm).elim
    | cons u us =>
      obtain ⟨q, hq⟩ := hu u (by simp)
      simp only [body, List.flatMap_cons, List.append_assoc] at h
      obtain ⟨h1, h2, h3⟩ := term_unique fmt hf hp hq h
      obtain ⟨h4, h5⟩ := ih us (fun t h => ht t (by simp [h])) (fun t h => hu t (by simp [h])) h3
      exact ⟨.cons ⟨h1, _, _, hp.coefficient, hq.coefficient, h2⟩ h4, h5⟩

theorem foldl_text (fmt : Num → String) (ts : List Term) (s : String) :
    (ts.foldl (fun result t => result ++ t.repr fmt) s).toList = s.toList ++ ts.flatMap (fun t => (t.repr fmt).toList) := by
  induction ts generalizing s with
  | nil => simp
  | cons t ts ih => simp [ih, List.append_assoc]

theorem repr_body (fmt : Num → String) (e : LinExpr) (h : e.allZero = false) :
    (e.repr fmt).toList = body fmt e.terms.values e.constant := by
  unfold LinExpr.repr LinExpr.strForConstant body
  rw [h]
  simp only [Bool.false_eq_true, if_false, String.toList_append, foldl_text, String.toList_empty, List.nil_append]

theorem allZero_iff (e : LinExpr) (q : ℚ) (hq : e.constant = .fin q) : e.allZero = true ↔ e.terms.values = [] ∧ near q 0 := by
  unfold LinExpr.allZero
  rw [hq, Bool.and_eq_true, isZero_near, beq_iff_eq, List.length_eq_zero_iff]
  simp [Dict.values]

/-- what an expression that is not zero starts with -/
theorem body_sign (fmt : Num → String) (hf : NumberFormat fmt) (ts : List Term) (c : ℚ) (ht : ∀ t ∈ ts, ∃ q, ReadableTerm t q)
    (h : ts ≠ [] ∨ ¬ near c 0) : ∃ r, body fmt ts (.fin c) = '+' :: r ∨ body fmt ts (.fin c) = '-' :: r := by
  have hn : ∀ {n : List Char} (r : List Char), CoefText n → ∃ r', n ++ r = '+' :: r' ∨ n ++ r = '-' :: r' := by
    rintro n r (rfl | rfl | h)
    · exact ⟨r, .inl rfl⟩
    · exact ⟨r, .inr rfl⟩
    · obtain ⟨s, ds, f, e, hs, -, -, -, rfl⟩ := h.parts
      rcases hs with rfl | rfl
      · exact ⟨_, .inl rfl⟩
      · exact ⟨_, .inr rfl⟩
  cases ts with
  | nil =>
    have h : ¬ near c 0 := by simpa using h
    have hz : isZero (.fin c) = false := by
      rw [← Bool.not_eq_true, isZero_near]; exact h
    have := hn [] (.inr (.inr (hf c)))
    simpa [body, hz] using this
  | cons t ts =>
    obtain ⟨q, hq⟩ := ht t (by simp)
    unfold body
    rw [List.flatMap_cons, List.append_assoc, repr_toList, hq.coefficient]
    exact hn _ (strForCoeff_text fmt hf q)

/-- **C98**: two linear expressions with finite numbers and readable names have the same text exactly when they have the same terms in the
same order, with coefficients and constants that are written alike. -/
theorem c98_same_text_partial (fmt : Num → String) (hf : NumberFormat fmt) (e g : LinExpr) (he : Readable e) (hg : Readable g) :
    e.repr fmt = g.repr fmt ↔
      List.Forall₂ (fun t u => t.key = u.key ∧ ∃ a b, t.coefficient = .fin a ∧ u.coefficient = .fin b ∧ SameCoefficient fmt a b)
        e.terms.values g.terms.values ∧
      ∃ a b, e.constant = .fin a ∧ g.constant = .fin b ∧ SameConstant fmt a b := by
  classical
  obtain ⟨a, ha⟩ := he.constant
  obtain ⟨b, hb⟩ := hg.constant
  have hz : ∀ g : LinExpr, g.allZero = true → g.repr fmt = "0" := by
    intro g h
    unfold LinExpr.repr
    rw [if_pos h]; rfl
  have hnz : ∀ (e : LinExpr) (a : ℚ), Readable e → e.constant = .fin a → e.allZero = false → e.repr fmt ≠ "0" := by
    intro e a he ha h h'
    have h1 := repr_body fmt e h
    have h2 : e.terms.values ≠ [] ∨ ¬ near a 0 := by
      by_contra hc
      push Not at hc
      rw [(allZero_iff e a ha).2 hc] at h
      cases h
    obtain ⟨r, hr⟩ := body_sign fmt hf e.terms.values a he.terms h2
    rw [← ha, ← h1, h'] at hr
    rcases hr with hr | hr <;> simp at hr
  constructor
  · intro h
    suffices hs : List.Forall₂ (fun t u => t.key = u.key ∧ ∃ a b, t.coefficient = .fin a ∧ u.coefficient = .fin b ∧
        SameCoefficient fmt a b) e.terms.values g.terms.values ∧ SameConstant fmt a b from ⟨hs.1, a, b, ha, hb, hs.2⟩
    cases h1 : e.allZero <;> cases h2 : g.allZero
    · have := congrArg String.toList h
      rw [repr_body fmt e h1, repr_body fmt g h2, ha, hb] at this
      exact body_unique fmt hf _ _ a b he.terms hg.terms this
    · rw [hz g h2] at h
      exact absurd h (hnz e a he ha h1)
    · rw [hz e h1] at h
      exact absurd h.symm (hnz g b hg hb h2)
    · rw [allZero_iff e a ha] at h1
      rw [allZero_iff g b hb] at h2
      rw [h1.1, h2.1]
      exact ⟨.nil, .inl ⟨h1.2, h2.2⟩⟩
  · rintro ⟨h, a', b', ha', hb', hs⟩
    have ea : a' = a := by rw [ha] at ha'; exact (Num.fin.inj ha').symm
    have eb : b' = b := by rw [hb] at hb'; exact (Num.fin.inj hb').symm
    subst ea eb
    have flat : ∀ {ts us : List Term}, List.Forall₂ (fun t u => t.key = u.key ∧ ∃ a b, t.coefficient = .fin a ∧ u.coefficient = .fin b ∧
        SameCoefficient fmt a b) ts us → ts.flatMap (fun t => (t.repr fmt).toList) = us.flatMap (fun t => (t.repr fmt).toList) := by
      intro ts us h
      induction h with
      | nil => rfl
      | cons hx _ ih =>
        obtain ⟨hk, p, q, hp, hq, hc⟩ := hx
        rw [List.flatMap_cons, List.flatMap_cons, ih]
        congr 2
        unfold Term.repr
        rw [hp, hq, hk, strForCoeff_of_same fmt hc]
    have hbody : body fmt e.terms.values e.constant = body fmt g.terms.values g.constant := by
      unfold body
      have h1 := flat h
      have h2 : (if isZero e.constant then "" else fmt e.constant) = if isZero g.constant then "" else fmt g.constant := by
        rw [ha, hb]
        have hi : ∀ q : ℚ, (if isZero (.fin q) then "" else fmt (.fin q)) = if near q 0 then "" else fmt (.fin q) := by
          intro q
          simp only [isZero_near]
        rw [hi, hi]
        rcases hs with ⟨h1, h2⟩ | ⟨h1, h2, h3⟩
        · rw [if_pos h1, if_pos h2]
        · rw [if_neg h1, if_neg h2, h3]
      rw [h1, h2]
    have hzero : e.allZero = true ↔ g.allZero = true := by
      rw [allZero_iff e _ ha, allZero_iff g _ hb]
      have h1 : e.terms.values = [] ↔ g.terms.values = [] := by
        rw [← List.length_eq_zero_iff, h.length_eq, List.length_eq_zero_iff]
      have h2 : near a' 0 ↔ near b' 0 := by
        rcases hs with ⟨h1, h2⟩ | ⟨h1, h2, -⟩ <;> simp [h1, h2]
      rw [h1, h2]
    cases h1 : e.allZero
    · have h2 : g.allZero = false := by
        rw [← Bool.not_eq_true, ← hzero, h1]; simp
      apply String.toList_inj.1
      rw [repr_body fmt e h1, repr_body fmt g h2, hbody]
    · rw [hz e h1, hz g (hzero.1 h1)]

/-- **C98**, layout: an expression without terms whose constant is 0 is written `0`; otherwise its terms are written one after the other,
each as said in `saidTerm`, then the constant, unless it is 0. -/
theorem c98_layout (fmt : Num → String) (e : LinExpr) (hc : ∀ t ∈ e.terms.values, ∃ q, t.coefficient = .fin q) (q : ℚ)
    (hq : e.constant = .fin q) :
    (e.terms.values = [] ∧ near q 0 → e.repr fmt = "0") ∧
    (¬ (e.terms.values = [] ∧ near q 0) → ∃ texts, SaidTerms fmt e.terms.values texts ∧
      (near q 0 → e.repr fmt = String.join texts) ∧ (¬ near q 0 → e.repr fmt = String.join texts ++ fmt (.fin q))) := by
  classical
  constructor
  · intro h
    unfold LinExpr.repr
    rw [if_pos ((allZero_iff e q hq).2 h)]; rfl
  · intro h
    have hz : e.allZero = false := by
      rw [← Bool.not_eq_true, allZero_iff e q hq]; exact h
    have hj : ∀ l : List String, (String.join l).toList = l.flatMap String.toList := by
      intro l
      simp [String.toList_join]
    have hterm : ∀ (t : Term) (p : ℚ), t.coefficient = .fin p → t.repr fmt = saidTerm fmt t p := by
      intro t p hp
      unfold Term.repr saidTerm
      rw [hp, strForCoeff_eq]
      apply String.toList_inj.1
      have hi : ∀ i, strIndex i = saidIndex i := by intro i; cases i <;> rfl
      rw [hj]
      simp only [String.toList_append, List.flatMap_cons, List.flatMap_nil, List.append_assoc, List.append_nil, hi]
    refine ⟨e.terms.values.map (fun t => t.repr fmt), ?_, ?_⟩
    · unfold SaidTerms
      have : ∀ ts : List Term, (∀ t ∈ ts, ∃ q, t.coefficient = .fin q) →
          List.Forall₂ (fun t s => ∃ q, t.coefficient = .fin q ∧ s = saidTerm fmt t q) ts (ts.map (fun t => t.repr fmt)) := by
        intro ts h
        induction ts with
        | nil => exact .nil
        | cons t ts ih =>
          obtain ⟨p, hp⟩ := h t (by simp)
          exact .cons ⟨p, hp, hterm t p hp⟩ (ih fun t ht => h t (by simp [ht]))
      exact this _ hc
    · have hb := repr_body fmt e hz
      unfold body at hb
      rw [hq] at hb
      constructor <;> intro hn <;> apply String.toList_inj.1 <;> rw [hb]
      · rw [if_pos ((isZero_near q).2 hn), hj, List.flatMap_map]; simp
      · rw [if_neg (by rw [isZero_near]; exact hn), String.toList_append, hj, List.flatMap_map]

end Verif.Props
