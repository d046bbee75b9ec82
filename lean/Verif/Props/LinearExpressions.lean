import Verif.Lemmas.LinExpr
import Verif.Lemmas.Basic
import Verif.Lemmas.Equality
import Mathlib.Data.List.Perm.Subperm

/-!
# C12-C13: linear expressions

`coef` is the coefficient of a variable instance, `dropSmall` replaces numbers below `1e-16` by 0, `Canonical` says one
term per variable instance, stored under its own key (file `Spec/Lin.lean`).
-/

namespace Verif.Props
open Verif LinExpr

/-! ## C12 -/

/-- Linear expressions obtained by any sequence of constructions and operations.  A dictionary given to the constructor
is a Python dictionary (distinct keys) whose terms are stored under their own keys. -/
inductive Built : LinExpr → Prop
  | ofList (ts : List Term) (c : Num) : Built (LinExpr.ofList ts c)
  | ofDict (d : Dict TermKey Term) (c : Num) : (d.map Prod.fst).Nodup → (∀ k t, (k, t) ∈ d → t.key = k) →
      Built (LinExpr.ofDict d c)
  | add {a b} : Built a → Built b → Built (a.add b)
  | iadd {a b} : Built a → Built b → Built (a.iadd b)
  | sub {a b} : Built a → Built b → Built (a.sub b)
  | isub {a b} : Built a → Built b → Built (a.isub b)
  | neg {a} : Built a → Built a.neg
  | mul {a b r} : Built a → Built b → a.mul b = .ok r → Built r
  | imul {a b r} : Built a → Built b → a.imul b = .ok r → Built r
  | truediv {a b r} : Built a → Built b → a.truediv b = .ok r → Built r
  | itruediv {a b r} : Built a → Built b → a.itruediv b = .ok r → Built r

theorem imul_canonical {a b r : LinExpr} (ha : a.Canonical) (hb : b.Canonical) (h : a.imul b = .ok r) :
    r.Canonical := by
  unfold LinExpr.imul at h
  split at h
  · cases h
  · have key : ∀ (l : LinExpr) (c : Num), l.Canonical →
        (if isZero c then (.ok empty : R LinExpr) else if isOne c then .ok l
          else .ok ⟨mapCoef (· * c) l.terms, l.constant * c⟩) = .ok r → r.Canonical := by
      intro l c hl h
      split at h
      · cases h; exact canonical_empty
      · split at h
        · cases h; exact hl
        · cases h
          refine ⟨?_, ?_⟩
          · have : (mapCoef (· * c) l.terms).map Prod.fst = l.terms.map Prod.fst := by
              simp [mapCoef, List.map_map, Function.comp_def]
            rw [this]; exact hl.nodup
          · intro k t hm
            simp only [mapCoef, List.mem_map] at hm
            obtain ⟨⟨k', t'⟩, hm, he⟩ := hm
            cases he
            exact hl.own k' t' hm
    by_cases he : a.terms.isEmpty
    · simp only [he, Bool.not_true, Bool.false_eq_true, if_false] at h
      exact key b a.constant hb h
    · simp only [he, Bool.not_false, if_true] at h
      exact key a b.constant ha h

theorem itruediv_canonical {a b r : LinExpr} (ha : a.Canonical) (h : a.itruediv b = .ok r) : r.Canonical := by
  unfold LinExpr.itruediv at h
  split at h
  · cases h
  · split at h
    · cases h
    · split at h
      · cases h; exact ha
      · cases h
        refine ⟨?_, ?_⟩
        · have : (mapCoef (numDiv · b.constant) a.terms).map Prod.fst = a.terms.map Prod.fst := by
            simp [mapCoef, List.map_map, Function.comp_def]
          rw [this]; exact ha.nodup
        · intro k t hm
          simp only [mapCoef, List.mem_map] at hm
          obtain ⟨⟨k', t'⟩, hm, he⟩ := hm
          cases he
          exact ha.own k' t' hm

/-- **C12**, form: every linear expression obtained by any sequence of constructions and operations has at most one
term per variable instance, stored under its own key. -/
theorem c12_canonical (l : LinExpr) (h : Built l) : l.Canonical := by
  induction h with
  | ofList ts c => exact (ofList_spec ts c).1
  | ofDict d c nd own => exact (ofDict_spec d nd own c).1
  | add _ _ ha hb => exact (iadd_spec (copy_spec ha).1 hb).1
  | iadd _ _ ha hb => exact (iadd_spec ha hb).1
  | sub _ _ ha hb => exact (isub_spec (copy_spec ha).1 hb).1
  | isub _ _ ha hb => exact (isub_spec ha hb).1
  | neg _ ha => exact (isub_spec canonical_empty ha).1
  | mul _ _ h ha hb => exact imul_canonical (copy_spec ha).1 hb h
  | imul _ _ h ha hb => exact imul_canonical ha hb h
  | truediv _ _ h ha hb => exact itruediv_canonical (copy_spec ha).1 h
  | itruediv _ _ h ha hb => exact itruediv_canonical ha h

/-- **C12**, zeros: constructors, sums, differences and negations of such expressions store no coefficient below
`1e-16` in absolute value, whatever their operands store. -/
theorem c12_no_small (a b : LinExpr) (ha : Built a) (hb : Built b) (ts : List Term) (d : Dict TermKey Term) (c : Num)
    (nd : (d.map Prod.fst).Nodup) (own : ∀ k t, (k, t) ∈ d → t.key = k) :
    (LinExpr.ofList ts c).NoSmall ∧ (LinExpr.ofDict d c).NoSmall ∧ (a.add b).NoSmall ∧ (a.iadd b).NoSmall ∧
      (a.sub b).NoSmall ∧ (a.isub b).NoSmall ∧ a.neg.NoSmall := by
  have ca := c12_canonical a ha
  have cb := c12_canonical b hb
  exact ⟨(ofList_spec ts c).2, (ofDict_spec d nd own c).2.1, (iadd_spec (copy_spec ca).1 cb).2.1,
    (iadd_spec ca cb).2.1, (isub_spec (copy_spec ca).1 cb).2.1, (isub_spec ca cb).2.1,
    (isub_spec canonical_empty ca).2.1⟩

def keyX : TermKey := ⟨"c", "x", some 0, none⟩
def keyY : TermKey := ⟨"c", "y", none, none⟩

/-- products and quotients, on the contrary, may store small coefficients: `(1e-10 x) * 1e-10` stores `1e-20 x` -/
theorem c12_product_stores_small : ∃ a b r : LinExpr, Built a ∧ Built b ∧ a.mul b = .ok r ∧ ¬ r.NoSmall := by
  refine ⟨LinExpr.ofList [⟨.fin (1 / 10 ^ 10), keyX⟩] 0, LinExpr.ofList [] (.fin (1 / 10 ^ 10)),
    ⟨[(keyX, ⟨.fin (1 / 10 ^ 20), keyX⟩)], .fin 0⟩, .ofList _ _, .ofList _ _, by decide +kernel, fun h => ?_⟩
  refine h keyX _ (List.mem_singleton.2 rfl) ⟨1 / 10 ^ 20, rfl, ?_⟩
  rw [abs_of_nonneg] <;> norm_num

/-- `Built` covers non-trivial histories, with cancellation and duplicate terms -/
example : ∃ l, Built l ∧ l = ⟨[(keyX, ⟨.fin 4, keyX⟩)], .fin 3⟩ :=
  ⟨((LinExpr.ofList [⟨.fin 1, keyX⟩, ⟨.fin 4, keyX⟩, ⟨.fin 2, keyY⟩] (.fin 1)).add
      (LinExpr.ofList [] (.fin 2))).sub (LinExpr.ofList [⟨.fin 2, keyY⟩] 0),
    .sub (.add (.ofList _ _) (.ofList _ _)) (.ofList _ _), by decide +kernel⟩

/-! ## C13 -/

/-- **C13**, sum: coefficient-wise, small coefficients of the left operand and of the result being dropped. -/
theorem c13_add (a b : LinExpr) (ha : a.Canonical) (hb : b.Canonical) :
    (a.add b).constant = a.constant + b.constant ∧
      ∀ k, (a.add b).coef k = dropSmall (dropSmall (a.coef k) + b.coef k) := by
  obtain ⟨h1, _, h3, h4⟩ := copy_spec ha
  refine ⟨?_, fun k => ?_⟩
  · show (empty.iadd a).constant + _ = _
    rw [h4]
  · rw [← h3 k]; exact (iadd_spec h1 hb).2.2 k

/-- **C13**, difference. -/
theorem c13_sub (a b : LinExpr) (ha : a.Canonical) (hb : b.Canonical) :
    (a.sub b).constant = a.constant - b.constant ∧
      ∀ k, (a.sub b).coef k = dropSmall (dropSmall (a.coef k) - b.coef k) := by
  obtain ⟨h1, _, h3, h4⟩ := copy_spec ha
  refine ⟨?_, fun k => ?_⟩
  · show (empty.iadd a).constant - _ = _
    rw [h4]
  · rw [← h3 k]; exact (isub_spec h1 hb).2.2 k

/-- **C13**, negation. -/
theorem c13_neg (a : LinExpr) (ha : a.Canonical) :
    a.neg.constant = -a.constant ∧ ∀ k, a.neg.coef k = dropSmall (-(a.coef k)) := by
  refine ⟨Num_zero_sub _, fun k => ?_⟩
  rw [← Num_zero_sub]
  exact (isub_spec canonical_empty ha).2.2 k

/-- **C13**, in-place sum and difference. -/
theorem c13_inplace (a b : LinExpr) (ha : a.Canonical) (hb : b.Canonical) :
    (a.iadd b).constant = a.constant + b.constant ∧ (a.isub b).constant = a.constant - b.constant ∧
      ∀ k, (a.iadd b).coef k = dropSmall (a.coef k + b.coef k) ∧ (a.isub b).coef k = dropSmall (a.coef k - b.coef k) :=
  ⟨rfl, rfl, fun k => ⟨(iadd_spec ha hb).2.2 k, (isub_spec ha hb).2.2 k⟩⟩

/-- `r` is the expression with coefficients `src` and constant `k0`, multiplied by `c`: exactly, except that a factor
within `1e-16` of 0 counts as 0 and a factor within `1e-16` of 1 counts as 1 -/
def ScaledBy (src : TermKey → Num) (k0 : Num) (c : ℚ) (r : LinExpr) : Prop :=
  if |c| < 1 / 10 ^ 16 then r.constant = 0 ∧ ∀ k, r.coef k = 0
  else if |c - 1| < 1 / 10 ^ 16 then r.constant = k0 ∧ ∀ k, r.coef k = src k
  else r.constant = k0 * .fin c ∧ ∀ k, r.coef k = src k * .fin c

theorem isOne_fin (c : ℚ) : isOne (.fin c) = decide (|c - 1| < 1 / 10 ^ 16) := isCloseAbs_fin c 1

theorem scaled_of (l : LinExpr) (hl : l.Canonical) (c : ℚ) :
    ∃ r, (if isZero (.fin c) then (.ok empty : R LinExpr) else if isOne (.fin c) then .ok l
      else .ok ⟨mapCoef (· * .fin c) l.terms, l.constant * .fin c⟩) = .ok r ∧ ScaledBy l.coef l.constant c r := by
  unfold ScaledBy
  rw [isZero_fin, isOne_fin]
  by_cases h0 : |c| < 1 / 10 ^ 16
  · simp only [h0, decide_true, if_true]
    exact ⟨_, rfl, rfl, fun k => rfl⟩
  · simp only [h0, decide_false, Bool.false_eq_true, if_false]
    by_cases h1 : |c - 1| < 1 / 10 ^ 16
    · simp only [h1, decide_true, if_true]
      exact ⟨_, rfl, rfl, fun k => rfl⟩
    · simp only [h1, decide_false, Bool.false_eq_true, if_false]
      refine ⟨_, rfl, rfl, fun k => ?_⟩
      have f0 : (0 : Num) * .fin c = 0 := by show Num.fin (0 * c) = Num.fin 0; rw [zero_mul]
      exact (mapCoef_spec (d := l.terms) (c := l.constant) (· * .fin c) f0 hl _).2 k

theorem copy_nil_iff {a : LinExpr} (ha : a.Canonical) :
    (empty.iadd a).terms = [] ↔ ∀ k, dropSmall (a.coef k) = 0 := by
  obtain ⟨h1, h2, h3, _⟩ := copy_spec ha
  constructor
  · intro h k
    rw [← h3 k]; exact coef_of_nil h k
  · intro h
    cases ht : (empty.iadd a).terms with
    | nil => rfl
    | cons kv d =>
      obtain ⟨k, t⟩ := kv
      have hm : (k, t) ∈ (empty.iadd a).terms := by rw [ht]; simp
      have hg := Dict.get?_of_mem h1.nodup hm
      have : (empty.iadd a).coef k = t.coefficient := by unfold coef; rw [hg]
      rw [h3 k, h k] at this
      exact absurd (this ▸ small_zero) (h2 k t hm)

/-- **C13**, product, rejection: the product of two expressions that both have variable terms is rejected. -/
theorem c13_mul_rejected (a b : LinExpr) (ha : a.Canonical) (k : TermKey) (hk : dropSmall (a.coef k) ≠ 0)
    (hb : b.terms ≠ []) : ∃ msg, a.mul b = .error (.valueError msg) := by
  have h1 : (empty.iadd a).terms ≠ [] := fun h => hk ((copy_nil_iff ha).1 h k)
  refine ⟨"Cannot multiply two non constant expression", ?_⟩
  unfold LinExpr.mul LinExpr.imul
  rw [if_pos]
  simp [h1, hb]

/-- **C13 (partial)**, product by a constant on the right: every coefficient and the constant are multiplied.
Partial: a factor within `1e-16` of 0 or 1 is replaced by 0 or 1, so that the product may be far from the exact one,
see `c13_mul_tiny_factor`. -/
theorem c13_mul_const_right_partial (a b : LinExpr) (ha : a.Canonical) (k : TermKey)
    (hk : dropSmall (a.coef k) ≠ 0) (hb : b.terms = []) (c : ℚ) (hc : b.constant = .fin c) :
    ∃ r, a.mul b = .ok r ∧ ScaledBy (fun k => dropSmall (a.coef k)) a.constant c r := by
  have h1 : (empty.iadd a).terms ≠ [] := fun h => hk ((copy_nil_iff ha).1 h k)
  obtain ⟨hcan, _, h3, h4⟩ := copy_spec ha
  obtain ⟨r, hr, hs⟩ := scaled_of (empty.iadd a) hcan c
  refine ⟨r, ?_, ?_⟩
  · rw [← hr]
    unfold LinExpr.mul LinExpr.imul
    simp [h1, hb, hc]
  · rw [h4] at hs
    have : (empty.iadd a).coef = fun k => dropSmall (a.coef k) := funext h3
    rwa [this] at hs

/-- **C13 (partial)**, product by a constant on the left. -/
theorem c13_mul_const_left_partial (a b : LinExpr) (ha : a.Canonical) (hb : b.Canonical)
    (hk : ∀ k, dropSmall (a.coef k) = 0) (c : ℚ) (hc : a.constant = .fin c) :
    ∃ r, a.mul b = .ok r ∧ ScaledBy b.coef b.constant c r := by
  have h1 : (empty.iadd a).terms = [] := (copy_nil_iff ha).2 hk
  obtain ⟨hcan, _, h3, h4⟩ := copy_spec ha
  obtain ⟨r, hr, hs⟩ := scaled_of b hb c
  refine ⟨r, ?_, hs⟩
  rw [← hr]
  unfold LinExpr.mul LinExpr.imul
  simp [h1, h4, hc]

/-- **C13**, products are not exact for tiny factors: `(1e20 x) * 1e-17` should be `1000 x` and is `0`. -/
theorem c13_mul_tiny_factor : ∃ a b r : LinExpr, Built a ∧ Built b ∧ a.coef keyX = .fin (10 ^ 20) ∧
    b = ⟨[], .fin (1 / 10 ^ 17)⟩ ∧ a.mul b = .ok r ∧ r.coef keyX = 0 :=
  ⟨LinExpr.ofList [⟨.fin (10 ^ 20), keyX⟩] 0, LinExpr.ofList [] (.fin (1 / 10 ^ 17)), empty,
    .ofList _ _, .ofList _ _, by decide +kernel, by decide +kernel, by decide +kernel, by decide +kernel⟩

/-- **C13**, division, rejections: by an expression with variable terms, and by a constant within `1e-16` of 0. -/
theorem c13_div_rejected (a b : LinExpr) :
    (b.terms ≠ [] → ∃ msg, a.truediv b = .error (.valueError msg)) ∧
      ∀ c : ℚ, b.terms = [] → b.constant = .fin c → |c| < 1 / 10 ^ 16 → a.truediv b = .error .zeroDivision := by
  refine ⟨fun h => ⟨"Cannot divide by a non constant expression", ?_⟩, fun c h hc hz => ?_⟩
  · unfold LinExpr.truediv LinExpr.itruediv
    rw [if_pos]; simpa using h
  · unfold LinExpr.truediv LinExpr.itruediv
    rw [if_neg (by simp [h]), if_pos]
    rw [hc, isZero_fin]; simpa using hz

/-- **C13**, division by any other finite constant: every coefficient and the constant of a finite expression are
divided (a divisor within `1e-16` of 1 counts as 1). -/
theorem c13_div (a b : LinExpr) (ha : a.Canonical) (c : ℚ) (hb : b.terms = []) (hc : b.constant = .fin c)
    (h0 : ¬ |c| < 1 / 10 ^ 16) :
    ∃ r, a.truediv b = .ok r ∧
      if |c - 1| < 1 / 10 ^ 16 then r.constant = a.constant ∧ ∀ k, r.coef k = dropSmall (a.coef k)
      else (∀ q, a.constant = .fin q → r.constant = .fin (q / c)) ∧
        ∀ k q, dropSmall (a.coef k) = .fin q → r.coef k = .fin (q / c) := by
  obtain ⟨hcan, _, h3, h4⟩ := copy_spec ha
  have hne : c ≠ 0 := by rintro rfl; exact h0 (by norm_num)
  have hd : ∀ q : ℚ, numDiv (.fin q) (.fin c) = .fin (q / c) := by
    intro q; unfold numDiv; rw [Num.div_fin _ _ hne]
  unfold LinExpr.truediv LinExpr.itruediv
  simp only [hb, List.isEmpty_nil, Bool.not_true, Bool.false_eq_true, if_false, hc, isZero_fin, h0, decide_false,
    isOne_fin]
  by_cases h1 : |c - 1| < 1 / 10 ^ 16
  · simp only [h1, decide_true, if_true]
    exact ⟨_, rfl, h4, h3⟩
  · simp only [h1, decide_false, Bool.false_eq_true, if_false]
    refine ⟨_, rfl, fun q hq => ?_, fun k q hq => ?_⟩
    · show numDiv (empty.iadd a).constant _ = _
      rw [h4, hq, hd]
    · have f0 : numDiv 0 (.fin c) = 0 := by
        have := hd 0; rw [zero_div] at this; exact this
      rw [(mapCoef_spec (d := (empty.iadd a).terms) (c := (empty.iadd a).constant) (numDiv · (.fin c)) f0 hcan _).2 k]
      have : LinExpr.coef ⟨(empty.iadd a).terms, (empty.iadd a).constant⟩ k = .fin q := by rw [← hq]; exact h3 k
      simp only [this, hd]

/-- the hypotheses of C13 are met by `3 x + 1`, `2` and `-3 x + 4`; sum, product and quotient are as expected -/
example : (LinExpr.ofList [⟨.fin 3, keyX⟩] 1).Canonical ∧
    dropSmall ((LinExpr.ofList [⟨.fin 3, keyX⟩] 1).coef keyX) ≠ 0 ∧
    (LinExpr.ofList [⟨.fin 3, keyX⟩] 1).add (LinExpr.ofList [⟨.fin (-3), keyX⟩] 4) = ⟨[], .fin 5⟩ ∧
    (LinExpr.ofList [⟨.fin 3, keyX⟩] 1).mul ⟨[], .fin 2⟩ = .ok ⟨[(keyX, ⟨.fin 6, keyX⟩)], .fin 2⟩ ∧
    (LinExpr.ofList [⟨.fin 3, keyX⟩] 1).truediv ⟨[], .fin 2⟩ = .ok ⟨[(keyX, ⟨.fin (3 / 2), keyX⟩)], .fin (1 / 2)⟩ :=
  ⟨(ofList_spec _ _).1, by decide +kernel, by decide +kernel, by decide +kernel, by decide +kernel⟩

/-! ## C55: comparing linear expressions -/

theorem isCloseAbs_iff (a b : Num) : isCloseAbs a b = true ↔ ∃ p q : ℚ, a = .fin p ∧ b = .fin q ∧ |p - q| < 1 / 10 ^ 16 := by
  cases a <;> cases b
  case fin.fin p q =>
    rw [isCloseAbs_fin, decide_eq_true_eq]
    exact ⟨fun h => ⟨p, q, rfl, rfl, h⟩, fun ⟨_, _, h1, h2, h⟩ => by cases h1; cases h2; exact h⟩
  all_goals
    constructor
    · intro h; revert h; simp only [isCloseAbs]; intro h; cases h
    · rintro ⟨p, q, h1, h2, -⟩; first | (cases h2; done) | (cases h1; done)

theorem dictEq_iff {a b : LinExpr} (ha : a.Canonical) (hb : b.Canonical) :
    dictEq a.terms b.terms = true ↔ ∀ k, a.terms.get? k = b.terms.get? k ∧ ∀ t, a.terms.get? k = some t → t.coefficient ≠ .nan := by
  have na : (Dict.keys a.terms).Nodup := ha.nodup
  have nb : (Dict.keys b.terms).Nodup := hb.nodup
  have hlen : ∀ (d : Dict TermKey Term), d.length = (Dict.keys d).length := fun d => by simp [Dict.keys]
  unfold dictEq
  rw [Bool.and_eq_true, beq_iff_eq, List.all_eq_true]
  have step : (∀ x ∈ a.terms, (match b.terms.get? x.1 with | some t => termEq x.2 t | none => false) = true) ↔
      ∀ k t, a.terms.get? k = some t → b.terms.get? k = some t ∧ t.coefficient ≠ .nan := by
    constructor
    · intro h k t hk
      have := h (k, t) (Dict.mem_of_get? hk)
      simp only at this
      split at this
      · rename_i u hu
        simp only [termEq, Bool.and_eq_true, decide_eq_true_eq, Num.eqb_iff] at this
        obtain ⟨⟨h1, h2⟩, h3⟩ := this
        rw [hu]
        refine ⟨congrArg some ?_, h2⟩
        cases t; cases u; simp_all
      · cases this
    · rintro h ⟨k, t⟩ hm
      obtain ⟨h1, h2⟩ := h k t (Dict.get?_of_mem na hm)
      simp only [h1, termEq, Bool.and_eq_true, decide_eq_true_eq, Num.eqb_iff]
      exact ⟨⟨trivial, h2⟩, trivial⟩
  refine (and_congr_right fun _ => step).trans ?_
  constructor
  · rintro ⟨hl, h⟩ k
    refine ⟨?_, fun t ht => (h k t ht).2⟩
    cases hk : a.terms.get? k with
    | some t => exact (h k t hk).1.symm
    | none =>
      have hsub : (Dict.keys a.terms) ⊆ Dict.keys b.terms := by
        intro k hk
        obtain ⟨t, ht⟩ := Dict.mem_keys_iff.1 hk
        exact Dict.mem_keys_iff.2 ⟨t, (h k t ht).1⟩
      have hp := (List.subperm_of_subset na hsub).perm_of_length_le (by rw [← hlen, ← hlen, hl])
      have := Dict.get?_eq_none_iff.1 hk
      exact (Dict.get?_eq_none_iff.2 fun hm => this (hp.mem_iff.2 hm)).symm
  · intro h
    refine ⟨?_, fun k t hk => ⟨(h k).1 ▸ hk, (h k).2 t hk⟩⟩
    rw [hlen, hlen]
    refine ((List.perm_ext_iff_of_nodup na nb).2 fun k => ?_).length_eq
    rw [Dict.mem_keys_iff, Dict.mem_keys_iff, (h k).1]

/-- **C55.** Linear expressions without negligible terms are equal exactly when their constants are finite and differ by less
than `1e-16`, and every variable instance has the same coefficient (a NaN coefficient differs from itself). -/
theorem c55_equal {a b : LinExpr} (ha : a.Canonical) (hb : b.Canonical) (na : a.NoSmall) (nb : b.NoSmall) :
    a.eq b = true ↔ (∃ p q : ℚ, a.constant = .fin p ∧ b.constant = .fin q ∧ |p - q| < 1 / 10 ^ 16) ∧
      ∀ k, a.coef k = b.coef k ∧ a.coef k ≠ .nan := by
  unfold LinExpr.eq
  rw [Bool.and_eq_true, isCloseAbs_iff, dictEq_iff ha hb]
  refine and_congr_right fun _ => forall_congr' fun k => ?_
  have own : ∀ {l : LinExpr}, l.Canonical → l.NoSmall → ∀ t, l.terms.get? k = some t → t.key = k ∧ t.coefficient ≠ 0 := by
    intro l hl nl t ht
    refine ⟨hl.own k t (Dict.mem_of_get? ht), fun h0 => nl k t (Dict.mem_of_get? ht) ⟨0, h0, by norm_num⟩⟩
  have h1 := own ha na
  have h2 := own hb nb
  unfold LinExpr.coef
  cases hk : a.terms.get? k with
  | none =>
    cases hk' : b.terms.get? k with
    | none => simp [Num.zero_def]
    | some u =>
      obtain ⟨-, h0⟩ := h2 u hk'
      simp [Ne.symm h0]
  | some t =>
    obtain ⟨e1, h0⟩ := h1 t hk
    cases hk' : b.terms.get? k with
    | none => simp [h0]
    | some u =>
      obtain ⟨e2, -⟩ := h2 u hk'
      cases t
      cases u
      simp only [Option.some.injEq, Term.mk.injEq, forall_eq'] at *
      subst e1
      subst e2
      simp

/-- **C55**: an expression is zero when it has no term and a constant less than `1e-16`. -/
theorem c55_is_zero {a : LinExpr} : a.isZeroExpr = true ↔ a.terms = [] ∧ ∃ p : ℚ, a.constant = .fin p ∧ |p| < 1 / 10 ^ 16 := by
  unfold LinExpr.isZeroExpr isZero
  rw [Bool.and_eq_true, isCloseAbs_iff, List.isEmpty_iff]
  refine and_congr_right fun _ => ⟨?_, ?_⟩
  · rintro ⟨p, q, h1, h2, h⟩
    cases h2
    exact ⟨p, h1, by simpa using h⟩
  · rintro ⟨p, h1, h⟩
    exact ⟨p, 0, h1, rfl, by simpa using h⟩

/-- Violation of the full claim: products keep negligible terms, so two expressions whose coefficients are equal up to negligible
ones may differ; and equality is not transitive. -/
theorem c55_limits : (∃ a b r : LinExpr, Built a ∧ Built b ∧ a.mul b = .ok r ∧ (∀ k, dropSmall (r.coef k) = 0) ∧ r.constant = 0 ∧ r.eq empty = false) ∧
    ∃ a b c : LinExpr, Built a ∧ Built b ∧ Built c ∧ a.eq b = true ∧ b.eq c = true ∧ a.eq c = false := by
  constructor
  · refine ⟨LinExpr.ofList [⟨.fin (1 / 10 ^ 10), keyX⟩] 0, LinExpr.ofList [] (.fin (1 / 10 ^ 10)),
      ⟨[(keyX, ⟨.fin (1 / 10 ^ 20), keyX⟩)], .fin 0⟩, .ofList _ _, .ofList _ _, by decide +kernel, fun k => ?_, rfl, by decide +kernel⟩
    unfold LinExpr.coef
    simp only [Dict.get?_cons, Dict.get?_nil]
    split_ifs
    · simp only [dropSmall]
      rw [if_pos (by rw [abs_of_nonneg] <;> norm_num)]
      rfl
    · show dropSmall (.fin 0) = .fin 0
      simp [dropSmall]
  · exact ⟨LinExpr.ofList [] 0, LinExpr.ofList [] (.fin (6 / 10 ^ 17)), LinExpr.ofList [] (.fin (12 / 10 ^ 17)), .ofList _ _, .ofList _ _, .ofList _ _,
      by decide +kernel, by decide +kernel, by decide +kernel⟩

/-- equal and different expressions -/
example : (LinExpr.ofList [⟨.fin 3, keyX⟩, ⟨.fin 1, keyY⟩] 1).eq (LinExpr.ofList [⟨.fin 1, keyY⟩, ⟨.fin 3, keyX⟩] 1) = true ∧
    (LinExpr.ofList [⟨.fin 3, keyX⟩] 1).eq (LinExpr.ofList [⟨.fin 1, keyY⟩, ⟨.fin 3, keyX⟩] 1) = false ∧
    (LinExpr.ofList [⟨.fin 3, keyX⟩] 1).eq (LinExpr.ofList [⟨.fin 3, keyX⟩] 2) = false ∧
    (LinExpr.ofList [⟨.fin 3, keyX⟩, ⟨.fin 1, keyY⟩] 1).Canonical ∧ (LinExpr.ofList [⟨.fin 3, keyX⟩, ⟨.fin 1, keyY⟩] 1).NoSmall :=
  ⟨by decide +kernel, by decide +kernel, by decide +kernel, (ofList_spec _ _).1, (ofList_spec _ _).2⟩

end Verif.Props
