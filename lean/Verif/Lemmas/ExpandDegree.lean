import Verif.Lemmas.Expand
import Verif.Lemmas.Degree

/-! Degrees through expansion, and degrees versus linearization. -/

namespace Verif
open Expr

/-- the reported degree exists and is at most `d` -/
def DegLE (e : Expr) (d : Nat) : Prop := ∃ k, computeDegree e = .ok k ∧ k ≤ d

theorem degLE_mono {e : Expr} {d d' : Nat} (h : DegLE e d) (hd : d ≤ d') : DegLE e d' := by
  obtain ⟨k, hk, hle⟩ := h; exact ⟨k, hk, hle.trans hd⟩

theorem foldl_max_le (d m : Nat) (ds : List Nat) (h : d ≤ m) (hs : ∀ x ∈ ds, x ≤ m) : ds.foldl max d ≤ m := by
  induction ds generalizing d with
  | nil => simpa
  | cons a ds ih =>
    exact ih _ (by have := hs a (by simp); omega) fun x hx => hs x (by simp [hx])

theorem degLE_add {es : List Expr} {d : Nat} : DegLE (add es) d ↔ es ≠ [] ∧ ∀ e ∈ es, DegLE e d := by
  constructor
  · rintro ⟨k, hk, hle⟩
    refine ⟨by rintro rfl; simp [computeDegree, computeDegreeList, pyMax] at hk, fun e he => ?_⟩
    obtain ⟨j, hj, hjk⟩ := degree_add_operands hk e he
    exact ⟨j, hj, hjk.trans hle⟩
  · rintro ⟨hne, h⟩
    have : ∃ ds, appendAll computeDegree es = .ok ds ∧ ∀ x ∈ ds, x ≤ d := by
      clear hne
      induction es with
      | nil => exact ⟨[], rfl, by simp⟩
      | cons e es ih =>
        obtain ⟨k, hk, hle⟩ := h e (by simp)
        obtain ⟨ds, hds, hle'⟩ := ih fun x hx => h x (by simp [hx])
        exact ⟨k :: ds, by simp [hk, hds], by simpa using ⟨hle, hle'⟩⟩
    obtain ⟨ds, hds, hle⟩ := this
    cases ds with
    | nil =>
      have := appendAll_length hds
      exact absurd (List.length_eq_zero_iff.1 (by simpa using this.symm)) hne
    | cons a ds =>
      refine ⟨ds.foldl max a, by rw [computeDegree_add, hds]; rfl, ?_⟩
      exact foldl_max_le a d ds (hle a (by simp)) fun x hx => hle x (by simp [hx])

theorem degLE_operands {e : Expr} {d : Nat} (h : DegLE e d) : e.operands ≠ [] ∧ ∀ o ∈ e.operands, DegLE o d := by
  cases e
  case add es => exact degLE_add.1 h
  all_goals simpa [operands] using h

theorem degLE_addOp {a b : Expr} {d : Nat} (ha : DegLE a d) (hb : DegLE b d) : DegLE (a.addOp b) d := by
  refine degLE_add.2 ⟨by simp [(degLE_operands ha).1], fun e he => ?_⟩
  rcases List.mem_append.1 he with h | h
  · exact (degLE_operands ha).2 e h
  · exact (degLE_operands hb).2 e h

theorem degLE_foldAdd {es : List Expr} {e : Expr} {d : Nat} (h : foldAdd addOp es = .ok e)
    (hes : ∀ o ∈ es, DegLE o d) : DegLE e d := by
  cases es with
  | nil => simp [foldAdd] at h
  | cons o os =>
    simp only [foldAdd, Except.ok.injEq] at h
    subst h
    have ho := hes o (by simp)
    have hos : ∀ x ∈ os, DegLE x d := fun x hx => hes x (by simp [hx])
    clear hes
    induction os generalizing o with
    | nil => exact ho
    | cons a os ih => exact ih _ (degLE_addOp ho (hos a (by simp))) fun x hx => hos x (by simp [hx])

theorem degLE_sumExpressions {es : List Expr} {d : Nat} (h : ∀ o ∈ es, DegLE o d) : DegLE (sumExpressions es) d := by
  match es with
  | [] => exact ⟨0, rfl, by omega⟩
  | [e] => exact h e (by simp)
  | a :: b :: os => exact degLE_add.2 ⟨by simp, h⟩

theorem degLE_mul {l r : Expr} {d : Nat} :
    DegLE (mul l r) d ↔ ∃ a b, computeDegree l = .ok a ∧ computeDegree r = .ok b ∧ a + b ≤ d := by
  constructor
  · rintro ⟨k, hk, hle⟩
    simp only [computeDegree, bind_ok_iff, Except.ok.injEq] at hk
    obtain ⟨a, ha, b, hb, rfl⟩ := hk
    exact ⟨a, b, ha, hb, hle⟩
  · rintro ⟨a, b, ha, hb, hle⟩
    exact ⟨a + b, by simp [computeDegree, ha, hb], hle⟩

theorem degLE_div {l r : Expr} {d : Nat} : DegLE (div l r) d ↔ DegLE r 0 ∧ DegLE l d := by
  constructor
  · rintro ⟨k, hk, hle⟩
    simp only [computeDegree, bind_ok_iff] at hk
    obtain ⟨b, hb, hl⟩ := hk
    by_cases h0 : b = 0
    · subst h0; simp only [ne_eq, not_true_eq_false, if_false] at hl
      exact ⟨⟨0, hb, le_refl _⟩, ⟨k, hl, hle⟩⟩
    · simp [h0] at hl
  · rintro ⟨⟨b, hb, hb0⟩, ⟨k, hk, hle⟩⟩
    obtain rfl : b = 0 := by omega
    exact ⟨k, by simp [computeDegree, hb, hk], hle⟩

theorem degLE_cmp {l r : Expr} {c} {d : Nat} : DegLE (.cmp l r c) d ↔ DegLE l d ∧ DegLE r d := by
  constructor
  · rintro ⟨k, hk, hle⟩
    simp only [computeDegree, bind_ok_iff, Except.ok.injEq] at hk
    obtain ⟨a, ha, b, hb, rfl⟩ := hk
    exact ⟨⟨a, ha, by omega⟩, ⟨b, hb, by omega⟩⟩
  · rintro ⟨⟨a, ha, hla⟩, ⟨b, hb, hlb⟩⟩
    exact ⟨max a b, by simp [computeDegree, ha, hb], by omega⟩

theorem degLE_neg {e : Expr} {d : Nat} : DegLE (neg e) d ↔ DegLE e d := Iff.rfl
theorem degLE_shift {e k : Expr} {d : Nat} : DegLE (shift e k) d ↔ DegLE e d := Iff.rfl
theorem degLE_evalT {e k : Expr} {d : Nat} : DegLE (evalT e k) d ↔ DegLE e d := Iff.rfl
theorem degLE_tsum {e a b : Expr} {d : Nat} : DegLE (tsum e a b) d ↔ DegLE e d := Iff.rfl
theorem degLE_allsum {e : Expr} {d : Nat} : DegLE (allsum e) d ↔ DegLE e d := Iff.rfl
theorem degLE_agg {e : Expr} {o} {d : Nat} : DegLE (agg e o) d ↔ DegLE e d := Iff.rfl

/-- a copy whose leaf hooks do not raise the degree -/
theorem copyWith_degLE {h : Hooks} (hagg : h.agg = none)
    (hvar : ∀ n e, h.var n = .ok e → DegLE e 1) (hpar : ∀ n e, h.par n = .ok e → DegLE e 0)
    (hcvar : ∀ c n e, h.cvar c n = .ok e → DegLE e 1) (hcpar : ∀ c n e, h.cpar c n = .ok e → DegLE e 0)
    (hpvar : ∀ c n ti si e, h.pvar c n ti si = .ok e → DegLE e 1)
    (hppar : ∀ c n ti si e, h.ppar c n ti si = .ok e → DegLE e 0)
    (hport : ∀ p f e, h.portField p f = .ok e → DegLE e 1) (e : Expr) :
    ∀ d, DegLE e d → ∀ e', copyWith h e = .ok e' → DegLE e' d := by
  have leaf1 : ∀ {e : Expr} {d : Nat}, computeDegree e = .ok 1 → DegLE e d → 1 ≤ d := by
    rintro e d he ⟨k, hk, hle⟩
    rw [he] at hk
    cases hk
    exact hle
  induction e using Expr.ind with
  | lit v => intro d hd e' h'; cases h'; exact hd
  | var n => intro d hd e' h'; exact degLE_mono (hvar n e' h') (leaf1 rfl hd)
  | par n => intro d hd e' h'; exact degLE_mono (hpar n e' h') (Nat.zero_le _)
  | cvar c n => intro d hd e' h'; exact degLE_mono (hcvar c n e' h') (leaf1 rfl hd)
  | cpar c n => intro d hd e' h'; exact degLE_mono (hcpar c n e' h') (Nat.zero_le _)
  | pvar c n ti si => intro d hd e' h'; exact degLE_mono (hpvar c n ti si e' h') (leaf1 rfl hd)
  | ppar c n ti si => intro d hd e' h'; exact degLE_mono (hppar c n ti si e' h') (Nat.zero_le _)
  | portField p f => intro d hd e' h'; exact degLE_mono (hport p f e' h') (leaf1 rfl hd)
  | neg e ih =>
    intro d hd e' h'
    simp only [copyWith, bind_ok_iff, Except.ok.injEq] at h'
    obtain ⟨a, ha, rfl⟩ := h'
    exact ih d hd a ha
  | add es ih =>
    intro d hd e' h'
    rw [copyWith_add, bind_ok_iff] at h'
    obtain ⟨es', hes, hf⟩ := h'
    refine degLE_foldAdd hf fun o ho => ?_
    obtain ⟨x, hx, hxo⟩ := forall₂_mem_right (appendAll_ok_iff.1 hes) ho
    exact ih x hx d ((degLE_add.1 hd).2 x hx) o hxo
  | mul l r ihl ihr =>
    intro d hd e' h'
    simp only [copyWith, bind_ok_iff, Except.ok.injEq] at h'
    obtain ⟨a, ha, b, hb, rfl⟩ := h'
    obtain ⟨da, db, hda, hdb, hle⟩ := degLE_mul.1 hd
    obtain ⟨ka, hka, hla⟩ := ihl da ⟨da, hda, le_refl _⟩ a ha
    obtain ⟨kb, hkb, hlb⟩ := ihr db ⟨db, hdb, le_refl _⟩ b hb
    exact degLE_mul.2 ⟨ka, kb, hka, hkb, by omega⟩
  | div l r ihl ihr =>
    intro d hd e' h'
    simp only [copyWith, bind_ok_iff, Except.ok.injEq] at h'
    obtain ⟨a, ha, b, hb, rfl⟩ := h'
    obtain ⟨h1, h2⟩ := degLE_div.1 hd
    exact degLE_div.2 ⟨ihr 0 h1 b hb, ihl d h2 a ha⟩
  | cmp l r c ihl ihr =>
    intro d hd e' h'
    simp only [copyWith, bind_ok_iff, Except.ok.injEq] at h'
    obtain ⟨a, ha, b, hb, rfl⟩ := h'
    obtain ⟨h1, h2⟩ := degLE_cmp.1 hd
    exact degLE_cmp.2 ⟨ihl d h1 a ha, ihr d h2 b hb⟩
  | shift l r ihl ihr =>
    intro d hd e' h'
    simp only [copyWith, bind_ok_iff, Except.ok.injEq] at h'
    obtain ⟨a, ha, b, hb, rfl⟩ := h'
    exact ihl d hd a ha
  | evalT l r ihl ihr =>
    intro d hd e' h'
    simp only [copyWith, bind_ok_iff, Except.ok.injEq] at h'
    obtain ⟨a, ha, b, hb, rfl⟩ := h'
    exact ihl d hd a ha
  | tsum e a b ihe iha ihb =>
    intro d hd e' h'
    simp only [copyWith, bind_ok_iff, Except.ok.injEq] at h'
    obtain ⟨x, hx, y, hy, z, hz, rfl⟩ := h'
    exact ihe d hd x hx
  | allsum e ih =>
    intro d hd e' h'
    simp only [copyWith, bind_ok_iff, Except.ok.injEq] at h'
    obtain ⟨a, ha, rfl⟩ := h'
    exact ih d hd a ha
  | scen e o ih =>
    intro d hd e' h'
    simp only [copyWith, bind_ok_iff, Except.ok.injEq] at h'
    obtain ⟨a, ha, rfl⟩ := h'
    obtain ⟨k, hk, hle⟩ := hd
    simp only [computeDegree, bind_ok_iff, Except.ok.injEq] at hk
    obtain ⟨m, hm, j, hj, rfl⟩ := hk
    obtain ⟨j', hj', hjj⟩ := ih j ⟨j, hj, le_refl _⟩ a ha
    exact ⟨m * j', by simp [computeDegree, hm, hj'], (Nat.mul_le_mul_left m hjj).trans hle⟩
  | agg e o ih =>
    intro d hd e' h'
    simp only [copyWith, hagg, bind_ok_iff, Except.ok.injEq] at h'
    obtain ⟨a, ha, rfl⟩ := h'
    exact ih d hd a ha

theorem applyTimeshift_degLE {e e' : Expr} {k : Int} {d : Nat} (hd : DegLE e d) (h : applyTimeshift e k = .ok e') :
    DegLE e' d := by
  refine copyWith_degLE (h := shiftHooks k) rfl ?_ ?_ ?_ ?_ ?_ ?_ ?_ e d hd e' h
  all_goals
    intros
    rename_i hh
    simp only [shiftHooks, copyHooks, Except.ok.injEq] at hh
    subst hh
    exact ⟨_, rfl, le_refl _⟩

theorem applyScenario_degLE {e e' : Expr} {k : Int} {d : Nat} (hd : DegLE e d) (h : applyScenario e k = .ok e') :
    DegLE e' d := by
  refine copyWith_degLE (h := scenarioHooks k) rfl ?_ ?_ ?_ ?_ ?_ ?_ ?_ e d hd e' h
  all_goals
    intros
    rename_i hh
    simp only [scenarioHooks, copyHooks, Except.ok.injEq] at hh
    subst hh
    exact ⟨_, rfl, le_refl _⟩

theorem applyTimestep_degLE {e e' : Expr} {k : Int} {b : Bool} {d : Nat} (hd : DegLE e d)
    (h : applyTimestep e k b = .ok e') : DegLE e' d := by
  refine copyWith_degLE (h := stepHooks k b) rfl ?_ ?_ ?_ ?_ ?_ ?_ ?_ e d hd e' h
  all_goals
    intros
    rename_i hh
    simp only [stepHooks, copyHooks, bind_ok_iff, Except.ok.injEq] at hh
    first
      | (subst hh; exact ⟨_, rfl, le_refl _⟩)
      | (obtain ⟨_, _, rfl⟩ := hh; exact ⟨_, rfl, le_refl _⟩)

/-- expansion does not raise the degree -/
theorem expand_degLE {x : ExpandCtx} (e : Expr) :
    ∀ d, DegLE e d → ∀ e', expand x e = .ok e' → DegLE e' d := by
  have leaf1 : ∀ {e : Expr} {d : Nat}, computeDegree e = .ok 1 → DegLE e d → 1 ≤ d := by
    rintro e d he ⟨k, hk, hle⟩
    rw [he] at hk
    cases hk
    exact hle
  induction e using Expr.ind with
  | lit v => intro d hd e' h'; cases h'; exact hd
  | var n => intro d hd e' h'; cases h'; exact hd
  | par n => intro d hd e' h'; cases h'; exact hd
  | portField p f => intro d hd e' h'; cases h'; exact hd
  | cvar c n =>
    intro d hd e' h'
    simp only [expand, bind_ok_iff, Except.ok.injEq] at h'
    obtain ⟨i, _, rfl⟩ := h'
    exact ⟨1, rfl, leaf1 rfl hd⟩
  | cpar c n =>
    intro d hd e' h'
    simp only [expand, bind_ok_iff, Except.ok.injEq] at h'
    obtain ⟨i, _, rfl⟩ := h'
    exact ⟨0, rfl, Nat.zero_le _⟩
  | pvar c n ti si => intro d hd e' h'; simp [expand] at h'
  | ppar c n ti si => intro d hd e' h'; simp [expand] at h'
  | neg e ih =>
    intro d hd e' h'
    simp only [expand, bind_ok_iff, Except.ok.injEq] at h'
    obtain ⟨a, ha, rfl⟩ := h'
    exact ih d hd a ha
  | add es ih =>
    intro d hd e' h'
    rw [expand_add, bind_ok_iff] at h'
    obtain ⟨es', hes, hf⟩ := h'
    refine degLE_foldAdd hf fun o ho => ?_
    obtain ⟨x, hx, hxo⟩ := forall₂_mem_right (appendAll_ok_iff.1 hes) ho
    exact ih x hx d ((degLE_add.1 hd).2 x hx) o hxo
  | mul l r ihl ihr =>
    intro d hd e' h'
    simp only [expand, bind_ok_iff, Except.ok.injEq] at h'
    obtain ⟨a, ha, b, hb, rfl⟩ := h'
    obtain ⟨da, db, hda, hdb, hle⟩ := degLE_mul.1 hd
    obtain ⟨ka, hka, hla⟩ := ihl da ⟨da, hda, le_refl _⟩ a ha
    obtain ⟨kb, hkb, hlb⟩ := ihr db ⟨db, hdb, le_refl _⟩ b hb
    exact degLE_mul.2 ⟨ka, kb, hka, hkb, by omega⟩
  | div l r ihl ihr =>
    intro d hd e' h'
    simp only [expand, bind_ok_iff, Except.ok.injEq] at h'
    obtain ⟨a, ha, b, hb, rfl⟩ := h'
    obtain ⟨h1, h2⟩ := degLE_div.1 hd
    exact degLE_div.2 ⟨ihr 0 h1 b hb, ihl d h2 a ha⟩
  | cmp l r c ihl ihr =>
    intro d hd e' h'
    simp only [expand, bind_ok_iff, Except.ok.injEq] at h'
    obtain ⟨a, ha, b, hb, rfl⟩ := h'
    obtain ⟨h1, h2⟩ := degLE_cmp.1 hd
    exact degLE_cmp.2 ⟨ihl d h1 a ha, ihr d h2 b hb⟩
  | shift e k ihe _ =>
    intro d hd e' h'
    simp only [expand, bind_ok_iff] at h'
    obtain ⟨n, hn, a, ha, hs⟩ := h'
    exact applyTimeshift_degLE (ihe d hd a ha) hs
  | evalT e k ihe _ =>
    intro d hd e' h'
    simp only [expand, bind_ok_iff] at h'
    obtain ⟨n, hn, a, ha, hs⟩ := h'
    exact applyTimestep_degLE (ihe d hd a ha) hs
  | tsum e m n ihe _ _ =>
    intro d hd e' h'
    simp only [expand, bind_ok_iff, Except.ok.injEq] at h'
    obtain ⟨p, hp, q, hq, a, ha, nodes, hnodes, rfl⟩ := h'
    refine degLE_sumExpressions fun o ho => ?_
    obtain ⟨k, _, hk⟩ := forall₂_mem_right (appendAll_ok_iff.1 hnodes) ho
    exact applyTimeshift_degLE (ihe d hd a ha) hk
  | allsum e ihe =>
    intro d hd e' h'
    simp only [expand, bind_ok_iff, Except.ok.injEq] at h'
    obtain ⟨a, ha, nodes, hnodes, rfl⟩ := h'
    refine degLE_sumExpressions fun o ho => ?_
    obtain ⟨k, _, hk⟩ := forall₂_mem_right (appendAll_ok_iff.1 hnodes) ho
    exact applyTimestep_degLE (ihe d hd a ha) hk
  | scen e o ihe =>
    intro d hd e' h'
    simp only [expand] at h'
    split at h'
    · simp at h'
    next ho =>
    have ho : o = .expectation := by simpa using ho
    subst ho
    simp only [bind_ok_iff, Except.ok.injEq] at h'
    obtain ⟨a, ha, nodes, hnodes, rfl⟩ := h'
    have hd' : DegLE e d := by
      obtain ⟨k, hk, hle⟩ := hd
      simp only [computeDegree, ScenOp.degree, ok_bind, bind_ok_iff, Except.ok.injEq] at hk
      obtain ⟨j, hj, rfl⟩ := hk
      exact ⟨j, hj, by omega⟩
    refine degLE_div.2 ⟨⟨0, rfl, le_refl _⟩, degLE_sumExpressions fun o ho => ?_⟩
    obtain ⟨k, _, hk⟩ := forall₂_mem_right (appendAll_ok_iff.1 hnodes) ho
    exact applyScenario_degLE (ihe d hd' a ha) hk
  | agg e o ih =>
    intro d hd e' h'
    simp only [expand, bind_ok_iff, Except.ok.injEq] at h'
    obtain ⟨a, ha, rfl⟩ := h'
    exact ih d hd a ha

/-! ### Degree and linearization -/

/-- degree 0: no term -/
theorem linData_degree_zero {x : LinCtx} (e : Expr) :
    DegLE e 0 → ∀ d, linData x e = .ok d → d.terms = [] := by
  have no1 : ∀ {e : Expr}, computeDegree e = .ok 1 → ¬ DegLE e 0 := by
    rintro e he ⟨k, hk, hle⟩
    rw [he] at hk
    cases hk
    omega
  induction e using Expr.ind with
  | lit v => intro _ d h; cases h; rfl
  | pvar c n ti si => intro hd; exact absurd hd (no1 rfl)
  | ppar c n ti si =>
    intro _ d h
    simp only [linData, bind_ok_iff] at h
    obtain ⟨t, _, h⟩ := h
    cases hp : x.provider with
    | none => simp [hp] at h
    | some p =>
      simp only [hp, bind_ok_iff, Except.ok.injEq] at h
      obtain ⟨v, _, rfl⟩ := h
      rfl
  | neg e ih =>
    intro hd d h
    simp only [linData, bind_ok_iff, Except.ok.injEq] at h
    obtain ⟨a, ha, rfl⟩ := h
    simp [ih hd a ha, scaleTerms]
  | add es ih =>
    intro hd d h
    simp only [linData_add, bind_ok_iff, Except.ok.injEq] at h
    obtain ⟨ds, hds, rfl⟩ := h
    simp only [List.flatten_eq_nil_iff, List.mem_map, forall_exists_index, and_imp]
    rintro l d hd' rfl
    obtain ⟨e, he, hed⟩ := forall₂_mem_right (appendAll_ok_iff.1 hds) hd'
    exact ih e he ((degLE_add.1 hd).2 e he) d hed
  | mul l r ihl ihr =>
    intro hd d h
    obtain ⟨da, db, hda, hdb, hle⟩ := degLE_mul.1 hd
    simp only [linData, bind_ok_iff] at h
    obtain ⟨a, ha, b, hb, h⟩ := h
    have h1 := ihl ⟨da, hda, by omega⟩ a ha
    have h2 := ihr ⟨db, hdb, by omega⟩ b hb
    simp only [h1, h2, List.isEmpty_nil, if_true, Except.ok.injEq] at h
    subst h
    rfl
  | div l r ihl ihr =>
    intro hd d h
    obtain ⟨h1, h2⟩ := degLE_div.1 hd
    simp only [linData, bind_ok_iff] at h
    obtain ⟨a, ha, b, hb, h⟩ := h
    have e1 := ihl h2 a ha
    have e2 := ihr h1 b hb
    simp only [e1, e2, List.isEmpty_nil, Bool.not_true, Bool.false_eq_true, if_false, divTerms, ok_bind, bind_ok_iff,
      Except.ok.injEq] at h
    obtain ⟨c, _, rfl⟩ := h
    rfl
  | _ => intro _ d h; simp [linData] at h

/-- errors that are not about non-linearity -/
def NotNonLinear (err : Err) : Prop := err ≠ .nonLinearMul ∧ err ≠ .nonLinearDiv

theorem appendAll_error {α β} {f : α → R β} {xs : List α} {err : Err} (h : appendAll f xs = .error err) :
    ∃ x ∈ xs, f x = .error err := by
  induction xs with
  | nil => simp at h
  | cons x xs ih =>
    rw [appendAll_cons] at h
    cases hx : f x with
    | error e => rw [hx, error_bind] at h; exact ⟨x, by simp, by rw [hx, Except.error.inj h]⟩
    | ok y =>
      rw [hx, ok_bind] at h
      cases hxs : appendAll f xs with
      | error e =>
        rw [hxs, error_bind] at h
        obtain ⟨z, hz, hze⟩ := ih (by rw [hxs, Except.error.inj h])
        exact ⟨z, by simp [hz], hze⟩
      | ok ys => simp [hxs] at h

theorem num_div_error {a b : Num} {err : Err} (h : Num.div a b = .error err) : err = .zeroDivision := by
  cases a <;> cases b <;> simp [Num.div] at h <;> (try split at h) <;> simp_all

theorem divTerms_error {d : Num} {ts : List Term} {err : Err} (h : divTerms d ts = .error err) :
    err = .zeroDivision := by
  induction ts with
  | nil => simp [divTerms] at h
  | cons t ts ih =>
    simp only [divTerms] at h
    cases h1 : Num.div t.coefficient d with
    | error e =>
      rw [h1, error_bind] at h
      cases h
      exact num_div_error h1
    | ok c =>
      rw [h1, ok_bind] at h
      cases h2 : divTerms d ts with
      | error e => rw [h2, error_bind] at h; cases h; exact ih h2
      | ok ts' => simp [h2] at h

theorem linData_degree_one {x : LinCtx} (hp : ∀ p, x.provider = some p → ∀ c n t s err, p c n t s = .error err →
    NotNonLinear err) (e : Expr) : DegLE e 1 → ∀ err, linData x e = .error err → NotNonLinear err := by
  induction e using Expr.ind with
  | lit v => intro _ err h; simp [linData] at h
  | pvar c n ti si =>
    intro _ err h
    simp only [linData] at h
    cases ht : getTimestep x.timestep ti with
    | ok t => simp [ht] at h
    | error z =>
      rw [ht, error_bind] at h
      cases h
      unfold getTimestep at ht
      cases ti <;> simp at ht
      split at ht <;> simp [Err.cannotShift] at ht
      subst ht; simp [NotNonLinear, Err.nonLinearMul, Err.nonLinearDiv]
  | ppar c n ti si =>
    intro _ err h
    simp only [linData] at h
    cases ht : getTimestep x.timestep ti with
    | error z =>
      rw [ht, error_bind] at h
      cases h
      unfold getTimestep at ht
      cases ti <;> simp at ht
      split at ht <;> simp [Err.cannotShift] at ht
      subst ht; simp [NotNonLinear, Err.nonLinearMul, Err.nonLinearDiv]
    | ok t =>
      rw [ht, ok_bind] at h
      cases hpr : x.provider with
      | none => simp only [hpr, Except.error.injEq] at h; subst h; simp [NotNonLinear, Err.nonLinearMul, Err.nonLinearDiv]
      | some p =>
        simp only [hpr] at h
        cases hv : p c n t (getScenario x.scenario si) with
        | ok v => simp [hv] at h
        | error z => rw [hv, error_bind] at h; cases h; exact hp p hpr c n _ _ _ hv
  | neg e ih =>
    intro hd err h
    simp only [linData] at h
    cases he : linData x e with
    | ok d => simp [he] at h
    | error z => rw [he, error_bind] at h; cases h; exact ih hd _ he
  | add es ih =>
    intro hd err h
    rw [linData_add] at h
    cases hes : appendAll (linData x) es with
    | ok ds => simp [hes] at h
    | error z =>
      rw [hes, error_bind] at h
      cases h
      obtain ⟨e, he, hee⟩ := appendAll_error hes
      exact ih e he ((degLE_add.1 hd).2 e he) _ hee
  | mul l r ihl ihr =>
    intro hd err h
    obtain ⟨da, db, hda, hdb, hle⟩ := degLE_mul.1 hd
    simp only [linData] at h
    cases hl : linData x l with
    | error z => rw [hl, error_bind] at h; cases h; exact ihl ⟨da, hda, by omega⟩ _ hl
    | ok a =>
      rw [hl, ok_bind] at h
      cases hr : linData x r with
      | error z => rw [hr, error_bind] at h; cases h; exact ihr ⟨db, hdb, by omega⟩ _ hr
      | ok b =>
        rw [hr, ok_bind] at h
        rcases Nat.eq_zero_or_pos da with h0 | h0
        · have := linData_degree_zero l ⟨da, hda, by omega⟩ a hl
          simp [this] at h
        · have := linData_degree_zero r ⟨db, hdb, by omega⟩ b hr
          simp only [this, List.isEmpty_nil, if_true] at h
          split at h <;> simp at h
  | div l r ihl ihr =>
    intro hd err h
    obtain ⟨h1, h2⟩ := degLE_div.1 hd
    simp only [linData] at h
    cases hl : linData x l with
    | error z => rw [hl, error_bind] at h; cases h; exact ihl h2 _ hl
    | ok a =>
      rw [hl, ok_bind] at h
      cases hr : linData x r with
      | error z => rw [hr, error_bind] at h; cases h; exact ihr (degLE_mono h1 (by omega)) _ hr
      | ok b =>
        rw [hr, ok_bind] at h
        have := linData_degree_zero r h1 b hr
        simp only [this, List.isEmpty_nil, Bool.not_true, Bool.false_eq_true, if_false] at h
        have hz : err = .zeroDivision := by
          cases hc : Num.div a.constant b.constant with
          | error z => rw [hc, error_bind] at h; cases h; exact num_div_error hc
          | ok c =>
            rw [hc, ok_bind] at h
            cases hts : divTerms b.constant a.terms with
            | error z => rw [hts, error_bind] at h; cases h; exact divTerms_error hts
            | ok ts => simp [hts] at h
        subst hz
        simp [NotNonLinear, Err.nonLinearMul, Err.nonLinearDiv]
  | _ =>
    intro _ err h
    simp only [linData, Except.error.injEq] at h
    subst h
    simp [NotNonLinear, Err.nonLinearMul, Err.nonLinearDiv]

end Verif
