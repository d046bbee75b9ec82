import Verif.Lemmas.LinExpr
import Verif.Lemmas.ExpandDegree
import Verif.Lemmas.Indexing
import Mathlib.Algebra.BigOperators.Group.List.Lemmas

/-! Lemmas on linearization. -/

namespace Verif
open Expr

/-- total coefficient of a key in a list of terms -/
def coefSum (k : TermKey) (ts : List Term) : Num := ((ts.filter fun t => t.key = k).map Term.coefficient).sum

theorem aggregate_append (ts : List Term) (t : Term) :
    aggregate (ts ++ [t]) =
      match (aggregate ts).get? t.key with
      | some cur => (aggregate ts).set t.key { cur with coefficient := cur.coefficient + t.coefficient }
      | none => (aggregate ts).set t.key t := by
  unfold aggregate
  rw [List.foldl_append]
  rfl

theorem coefSum_append (k : TermKey) (ts : List Term) (t : Term) :
    coefSum k (ts ++ [t]) = if t.key = k then coefSum k ts + t.coefficient else coefSum k ts := by
  unfold coefSum
  rw [List.filter_append, List.map_append, List.sum_append]
  by_cases h : t.key = k <;> simp [h]

theorem coefSum_eq_zero {k : TermKey} {ts : List Term} (h : ∀ t ∈ ts, t.key ≠ k) : coefSum k ts = 0 := by
  unfold coefSum
  rw [List.filter_eq_nil_iff.2 (by simpa using h)]
  rfl

theorem aggregate_spec (ts : List Term) :
    (aggregate ts).keys.Nodup ∧ ∀ k, (aggregate ts).get? k =
      if (∃ t ∈ ts, t.key = k) then some ⟨coefSum k ts, k⟩ else none := by
  induction ts using List.reverseRecOn with
  | nil => exact ⟨by simp [aggregate, Dict.keys], fun k => by simp [aggregate]⟩
  | append_singleton ts t ih =>
    obtain ⟨nd, hg⟩ := ih
    rw [aggregate_append]
    have hex : ∀ k, (∃ t' ∈ ts ++ [t], t'.key = k) ↔ (∃ t' ∈ ts, t'.key = k) ∨ t.key = k := by
      intro k
      simp only [List.mem_append, List.mem_singleton, or_and_right, exists_or, exists_eq_left]
    constructor
    · split <;> exact Dict.nodup_set nd _ _
    · intro k
      rw [coefSum_append]
      simp only [hex]
      by_cases hk : t.key = k
      · subst hk
        simp only [or_true, if_true]
        by_cases h : ∃ t' ∈ ts, t'.key = t.key
        · rw [hg, if_pos h]
          simp only [Dict.get?_set_self]
        · rw [hg, if_neg h]
          simp only [Dict.get?_set_self]
          rw [coefSum_eq_zero (fun t' ht' e => h ⟨t', ht', e⟩), Num.zero_add]
      · simp only [hk, or_false, if_false]
        split
        · rw [Dict.get?_set_ne _ _ hk, hg]
        · rw [Dict.get?_set_ne _ _ hk, hg]

/-- the linear expression built from the collected terms -/
theorem build_spec (d : LinData) :
    d.build.Canonical ∧ d.build.NoSmall ∧ (∀ k, d.build.terms.get? k =
      if isZero (coefSum k d.terms) then none else some ⟨coefSum k d.terms, k⟩) ∧ d.build.constant = d.constant := by
  obtain ⟨nd, hg⟩ := aggregate_spec d.terms
  have own : ∀ k t, (k, t) ∈ aggregate d.terms → t.key = k := by
    intro k t hm
    have := Dict.get?_of_mem nd hm
    rw [hg] at this
    split at this
    · cases this; rfl
    · cases this
  obtain ⟨h1, h2, h3⟩ := LinExpr.ofDict_spec (aggregate d.terms) nd own d.constant
  have hc : ∀ k, (⟨aggregate d.terms, d.constant⟩ : LinExpr).coef k = coefSum k d.terms := by
    intro k
    unfold LinExpr.coef
    rw [hg]
    by_cases h : ∃ t ∈ d.terms, t.key = k
    · simp [h]
    · simp only [h, if_false]
      rw [coefSum_eq_zero fun t ht e => h ⟨t, ht, e⟩]
  refine ⟨h1, h2, fun k => ?_, rfl⟩
  have h3 := h3 k
  rw [hc] at h3
  change LinExpr.coef d.build k = _ at h3
  rw [dropSmall_eq] at h3
  unfold LinExpr.coef at h3
  cases hk : d.build.terms.get? k with
  | none =>
    rw [hk] at h3
    by_cases hz : isZero (coefSum k d.terms) = true
    · rw [if_pos hz]
    · rw [if_neg hz] at h3
      simp only at h3
      rw [← h3] at hz
      exact absurd ((isZero_iff 0).2 small_zero) hz
  | some t =>
    rw [hk] at h3
    have own' : t.key = k := LinExpr.own_get h1 hk
    have hns := h2 k t (Dict.mem_of_get? hk)
    by_cases hz : isZero (coefSum k d.terms) = true
    · rw [if_pos hz] at h3
      simp only at h3
      rw [h3] at hns
      exact absurd small_zero hns
    · rw [if_neg hz] at h3 ⊢
      simp only at h3
      obtain ⟨c, k'⟩ := t
      simp_all

/-! ### the collected terms represent the expression -/

/-- a list of rational terms as the model stores it -/
def qTerms (qs : List (ℚ × TermKey)) : List Term := qs.map fun a => ⟨.fin a.1, a.2⟩

/-- value of a list of rational terms -/
def qVal (qs : List (ℚ × TermKey)) (var : String → String → Option Int → Option Int → ℚ) : ℚ :=
  (qs.map fun a => a.1 * var a.2.component a.2.var a.2.time a.2.scenario).sum

theorem qVal_append (a b : List (ℚ × TermKey)) (var) : qVal (a ++ b) var = qVal a var + qVal b var := by
  simp [qVal]

theorem qVal_scale (f : ℚ → ℚ) (c : ℚ) (hf : ∀ q, f q = q * c) (qs : List (ℚ × TermKey)) (var) :
    qVal (qs.map fun a => (f a.1, a.2)) var = qVal qs var * c := by
  unfold qVal
  rw [← List.sum_map_mul_right, List.map_map]
  congr 1
  refine List.map_congr_left fun a _ => ?_
  simp only [Function.comp, hf]
  ring

theorem scaleTerms_qTerms (f : Num → Num) (g : ℚ → ℚ) (h : ∀ q, f (.fin q) = .fin (g q)) (qs : List (ℚ × TermKey)) :
    scaleTerms f (qTerms qs) = qTerms (qs.map fun a => (g a.1, a.2)) := by
  simp [scaleTerms, qTerms, List.map_map, Function.comp_def, h]

theorem divTerms_qTerms (b : ℚ) (hb : b ≠ 0) (qs : List (ℚ × TermKey)) :
    divTerms (.fin b) (qTerms qs) = .ok (qTerms (qs.map fun a => (a.1 / b, a.2))) := by
  induction qs with
  | nil => rfl
  | cons a qs ih =>
    simp only [qTerms, List.map_cons] at ih ⊢
    simp only [divTerms, Num.div_fin _ _ hb, ok_bind, ih]

theorem qTerms_nil {qs : List (ℚ × TermKey)} (h : qTerms qs = []) : qs = [] := by
  simpa [qTerms] using h

/-- `d` represents `e` at `(t, s)` -/
def Represents (D : DenCtx) (t s : Int) (e : Expr) (d : LinData) : Prop :=
  ∃ qs q0, d.terms = qTerms qs ∧ d.constant = .fin q0 ∧
    ∀ var, den (D.withVar var) e t s = q0 + qVal qs var

theorem getTimestep_at {t : Int} {ti : TIdx} {r : Option Int} (h : getTimestep (some t) ti = .ok r) : r = ti.at t := by
  cases ti <;> simp [getTimestep, TIdx.at] at h ⊢ <;> exact h.symm

theorem getScenario_at (s : Int) (si : SIdx) : getScenario (some s) si = si.at s := by
  cases si <;> rfl

theorem represents_sum {D : DenCtx} {t s : Int} {es : List Expr} {ds : List LinData}
    (h : List.Forall₂ (Represents D t s) es ds) :
    Represents D t s (add es) ⟨(ds.map LinData.terms).flatten, (ds.map LinData.constant).sum⟩ := by
  induction h with
  | nil =>
    refine ⟨[], 0, rfl, rfl, fun var => ?_⟩
    simp [den, denSum, qVal]
  | cons h1 _ ih =>
    obtain ⟨qs, q0, ht, hc, hv⟩ := h1
    obtain ⟨qs', q0', ht', hc', hv'⟩ := ih
    simp only at ht' hc'
    refine ⟨qs ++ qs', q0 + q0', ?_, ?_, fun var => ?_⟩
    · simp [ht, ht', qTerms]
    · simp [hc, hc']
    · have := hv' var
      rw [den_add] at this ⊢
      rw [List.map_cons, List.sum_cons, this, hv var, qVal_append]
      ring

theorem linData_represents {D : DenCtx} {t s : Int} {p : ParamGetter}
    (hp : ∀ c n t s v, p c n t s = .ok v → v = .fin (D.env.par c n t s)) (e : Expr) :
    FinLits e → ∀ d, linData ⟨some t, some s, some p⟩ e = .ok d → Represents D t s e d := by
  induction e using Expr.ind with
  | lit v =>
    intro hf d h
    cases h
    obtain ⟨q, rfl⟩ := hf _ (mem_subs_self _)
    exact ⟨[], q, rfl, rfl, fun var => by simp [den, qVal]⟩
  | pvar c n ti si =>
    intro hf d h
    simp only [linData, bind_ok_iff, Except.ok.injEq] at h
    obtain ⟨r, hr, rfl⟩ := h
    rw [getTimestep_at hr, getScenario_at]
    exact ⟨[(1, ⟨c, n, ti.at t, si.at s⟩)], 0, rfl, rfl, fun var => by simp [den, qVal, DenCtx.withVar]⟩
  | ppar c n ti si =>
    intro hf d h
    simp only [linData, bind_ok_iff, Except.ok.injEq] at h
    obtain ⟨r, hr, v, hv, rfl⟩ := h
    rw [getTimestep_at hr, getScenario_at] at hv
    rw [hp _ _ _ _ _ hv]
    exact ⟨[], _, rfl, rfl, fun var => by simp [den, qVal, DenCtx.withVar]⟩
  | neg e ih =>
    intro hf d h
    simp only [linData, bind_ok_iff, Except.ok.injEq] at h
    obtain ⟨a, ha, rfl⟩ := h
    obtain ⟨qs, q0, ht, hc, hv⟩ := ih (finLits_of_subs hf (by simp +contextual [subs])) a ha
    refine ⟨qs.map fun a => (-a.1, a.2), -q0, ?_, ?_, fun var => ?_⟩
    · rw [ht]; exact scaleTerms_qTerms _ (fun q => -q) (fun _ => rfl) qs
    · rw [hc]; rfl
    · simp only [den]
      rw [hv var, qVal_scale (fun q => -q) (-1) (fun q => by ring)]
      ring
  | add es ih =>
    intro hf d h
    rw [linData_add, bind_ok_iff] at h
    obtain ⟨ds, hds, h⟩ := h
    simp only [Except.ok.injEq] at h
    have hsum : ds.foldl (fun c d => c + d.constant) (0 : Num) = (ds.map LinData.constant).sum := by
      rw [← List.foldl_map (f := LinData.constant) (g := fun c d => c + d), foldl_add_eq]
      exact Num.zero_add _
    rw [hsum] at h
    subst h
    refine represents_sum ?_
    have := appendAll_ok_iff.1 hds
    refine forall₂_and_mem this ?_
    intro x hx d hd
    exact ih x hx (finLits_of_subs hf fun y hy => mem_subs_add.2 (.inr ⟨x, hx, hy⟩)) d hd
  | mul l r ihl ihr =>
    intro hf d h
    simp only [linData, bind_ok_iff] at h
    obtain ⟨a, ha, b, hb, h⟩ := h
    obtain ⟨qs, q0, ht, hc, hv⟩ := ihl (finLits_of_subs hf (by simp +contextual [subs])) a ha
    obtain ⟨qs', q0', ht', hc', hv'⟩ := ihr (finLits_of_subs hf (by simp +contextual [subs])) b hb
    split at h
    · next he =>
      have : qs = [] := qTerms_nil (by rw [← ht]; simpa using he)
      subst this
      cases h
      refine ⟨qs'.map fun a => (a.1 * q0, a.2), q0' * q0, ?_, ?_, fun var => ?_⟩
      · rw [ht', hc]; exact scaleTerms_qTerms (· * Num.fin q0) (fun q => q * q0) (fun _ => rfl) qs'
      · rw [hc, hc']; rfl
      · simp only [den]
        rw [hv var, hv' var, qVal_scale (fun q => q * q0) q0 (fun q => rfl)]
        simp only [qVal, List.map_nil, List.sum_nil]
        ring
    · split at h
      · next he =>
        have : qs' = [] := qTerms_nil (by rw [← ht']; simpa using he)
        subst this
        cases h
        refine ⟨qs.map fun a => (a.1 * q0', a.2), q0 * q0', ?_, ?_, fun var => ?_⟩
        · rw [ht, hc']; exact scaleTerms_qTerms (· * Num.fin q0') (fun q => q * q0') (fun _ => rfl) qs
        · rw [hc, hc']; rfl
        · simp only [den]
          rw [hv var, hv' var, qVal_scale (fun q => q * q0') q0' (fun q => rfl)]
          simp only [qVal, List.map_nil, List.sum_nil]
          ring
      · cases h
  | div l r ihl ihr =>
    intro hf d h
    simp only [linData, bind_ok_iff] at h
    obtain ⟨a, ha, b, hb, h⟩ := h
    obtain ⟨qs, q0, ht, hc, hv⟩ := ihl (finLits_of_subs hf (by simp +contextual [subs])) a ha
    obtain ⟨qs', q0', ht', hc', hv'⟩ := ihr (finLits_of_subs hf (by simp +contextual [subs])) b hb
    split at h
    · cases h
    · next he =>
      have : qs' = [] := qTerms_nil (by rw [← ht']; simpa using he)
      subst this
      by_cases hq : q0' = 0
      · subst hq
        rw [hc', Num.div_zero'] at h
        simp at h
      · rw [hc, hc', Num.div_fin _ _ hq, ht, divTerms_qTerms _ hq] at h
        simp only [ok_bind, Except.ok.injEq] at h
        subst h
        refine ⟨_, _, rfl, rfl, fun var => ?_⟩
        simp only [den]
        rw [hv var, hv' var, qVal_scale (fun q => q / q0') (q0'⁻¹) (fun q => div_eq_mul_inv q q0')]
        simp only [qVal, List.map_nil, List.sum_nil, add_zero]
        rw [div_eq_mul_inv, div_eq_mul_inv]
        ring
  | _ => intro hf d h; simp [linData] at h

/-- coefficient of a key in a list of rational terms -/
def qCoef (k : TermKey) (qs : List (ℚ × TermKey)) : ℚ := ((qs.filter fun a => a.2 = k).map Prod.fst).sum

theorem coefSum_qTerms (k : TermKey) (qs : List (ℚ × TermKey)) : coefSum k (qTerms qs) = .fin (qCoef k qs) := by
  induction qs with
  | nil => rfl
  | cons a qs ih =>
    simp only [coefSum, qTerms, qCoef, List.map_cons, List.filter_cons] at ih ⊢
    by_cases h : a.2 = k
    · simp only [h, decide_true, if_true, List.map_cons, List.sum_cons, ih]
      rfl
    · simpa only [h, decide_false, Bool.false_eq_true, if_false] using ih

theorem qVal_finset (qs : List (ℚ × TermKey)) (var : String → String → Option Int → Option Int → ℚ) :
    qVal qs var = ∑ k ∈ (qs.map Prod.snd).toFinset, qCoef k qs * var k.component k.var k.time k.scenario := by
  have key : ∀ K : Finset TermKey, (∀ a ∈ qs, a.2 ∈ K) →
      qVal qs var = ∑ k ∈ K, qCoef k qs * var k.component k.var k.time k.scenario := by
    intro K
    induction qs with
    | nil => intro _; simp [qVal, qCoef]
    | cons a qs ih =>
      intro hK
      have h1 := ih fun b hb => hK b (List.mem_cons_of_mem _ hb)
      have h2 : ∀ k, qCoef k (a :: qs) = (if a.2 = k then a.1 else 0) + qCoef k qs := by
        intro k
        by_cases h : a.2 = k <;> simp [qCoef, h]
      simp only [h2, add_mul, Finset.sum_add_distrib, ← h1, ite_mul, zero_mul]
      rw [Finset.sum_ite_eq, if_pos (hK a (by simp))]
      simp [qVal]
  exact key _ fun a ha => by simpa using ⟨a.1, ha⟩

theorem qCoef_not_mem {k : TermKey} {qs : List (ℚ × TermKey)} (h : k ∉ (qs.map Prod.snd).toFinset) :
    qCoef k qs = 0 := by
  unfold qCoef
  rw [List.filter_eq_nil_iff.2]
  · rfl
  · intro a ha he
    apply h
    simp only [List.mem_toFinset, List.mem_map]
    exact ⟨a, ha, by simpa using he⟩

/-! ### errors on expanded expressions -/

/-- nodes of an expanded expression without model-level node -/
theorem outP_problemLevel {A : TIdx → SIdx → Prop} {e : Expr} (h : OutP A False e) : e.isProblemLevel = true := by
  cases e <;> first | rfl | exact h.elim

theorem linData_error {t : Int} {s : Option Int} {p : ParamGetter} (e : Expr) :
    (∀ y ∈ e.subs, y.isProblemLevel = true) → ∀ err, linData ⟨some t, s, some p⟩ e = .error err →
      err = .nonLinearMul ∨ err = .nonLinearDiv ∨ err = .zeroDivision ∨ ∃ c n u w, p c n u w = .error err := by
  have ts : ∀ ti, ∃ r, getTimestep (some t) ti = .ok r := by
    intro ti; cases ti <;> exact ⟨_, rfl⟩
  induction e using Expr.ind with
  | lit v => intro _ err h; simp [linData] at h
  | pvar c n ti si =>
    intro _ err h
    obtain ⟨r, hr⟩ := ts ti
    simp [linData, hr] at h
  | ppar c n ti si =>
    intro _ err h
    obtain ⟨r, hr⟩ := ts ti
    simp only [linData, hr, ok_bind] at h
    cases hp : p c n r (getScenario s si) with
    | error e' => rw [hp] at h; cases h; exact .inr (.inr (.inr ⟨c, n, r, _, hp⟩))
    | ok v => rw [hp] at h; cases h
  | neg e ih =>
    intro hs err h
    simp only [linData] at h
    cases he : linData ⟨some t, s, some p⟩ e with
    | error e' => rw [he] at h; cases h; exact ih (fun y hy => hs y (by simp [subs, hy])) _ he
    | ok d => rw [he] at h; cases h
  | add es ih =>
    intro hs err h
    rw [linData_add] at h
    cases he : appendAll (linData ⟨some t, s, some p⟩) es with
    | error e' =>
      rw [he] at h
      cases h
      obtain ⟨x, hx, hxe⟩ := appendAll_error he
      exact ih x hx (fun y hy => hs y (mem_subs_add.2 (.inr ⟨x, hx, hy⟩))) _ hxe
    | ok ds => rw [he] at h; cases h
  | mul l r ihl ihr =>
    intro hs err h
    simp only [linData] at h
    cases hl : linData ⟨some t, s, some p⟩ l with
    | error e' => rw [hl] at h; cases h; exact ihl (fun y hy => hs y (by simp [subs, hy])) _ hl
    | ok a =>
      cases hr : linData ⟨some t, s, some p⟩ r with
      | error e' => rw [hl, hr] at h; cases h; exact ihr (fun y hy => hs y (by simp [subs, hy])) _ hr
      | ok b =>
        simp only [hl, hr, ok_bind] at h
        split at h
        · cases h
        · split at h
          · cases h
          · cases h; exact .inl rfl
  | div l r ihl ihr =>
    intro hs err h
    simp only [linData] at h
    cases hl : linData ⟨some t, s, some p⟩ l with
    | error e' => rw [hl] at h; cases h; exact ihl (fun y hy => hs y (by simp [subs, hy])) _ hl
    | ok a =>
      cases hr : linData ⟨some t, s, some p⟩ r with
      | error e' => rw [hl, hr] at h; cases h; exact ihr (fun y hy => hs y (by simp [subs, hy])) _ hr
      | ok b =>
        simp only [hl, hr, ok_bind] at h
        split at h
        · cases h; exact .inr (.inl rfl)
        · cases hc : Num.div a.constant b.constant with
          | error e' => rw [hc] at h; cases h; exact .inr (.inr (.inl (num_div_error hc)))
          | ok c =>
            rw [hc] at h
            simp only [ok_bind] at h
            cases hd : divTerms b.constant a.terms with
            | error e' => rw [hd] at h; cases h; exact .inr (.inr (.inl (divTerms_error hd)))
            | ok ts => rw [hd] at h; cases h
  | _ => intro hs; exact absurd (hs _ (mem_subs_self _)) (by simp [isProblemLevel])

theorem linearize_ok {e : Expr} {t s : Option Int} {p : Option ParamGetter} {l : LinExpr}
    (h : linearizeExpression e t s p = .ok l) : ∃ d, linData ⟨t, s, p⟩ e = .ok d ∧ l = d.build := by
  simp only [linearizeExpression, bind_ok_iff, Except.ok.injEq] at h
  obtain ⟨d, hd, rfl⟩ := h
  exact ⟨d, hd, rfl⟩

theorem linearize_error {e : Expr} {t s : Option Int} {p : Option ParamGetter} {err : Err}
    (h : linearizeExpression e t s p = .error err) : linData ⟨t, s, p⟩ e = .error err := by
  unfold linearizeExpression at h
  cases hd : linData ⟨t, s, p⟩ e with
  | error e' => rw [hd] at h; cases h; rfl
  | ok d => rw [hd] at h; cases h

end Verif
