import Verif.Lemmas.ExpandDegree
import Verif.Lemmas.Resolve

/-!
# Indexing structures and degrees are kept when a model expression gets its component
-/

namespace Verif
open Expr

/-- the state of the loop of `_combine`: the loop is left as soon as the structure varies in both dimensions -/
def comb (p : StructProvider) (res : Idx) (es : List Expr) : R Idx :=
  if res.isTimeScenarioVarying then .ok res else combineRest p res es

theorem comb_nil (p : StructProvider) (res : Idx) : comb p res [] = .ok res := by
  unfold comb; split <;> rfl

theorem comb_cons (p : StructProvider) (res : Idx) (e : Expr) (es : List Expr) :
    comb p res (e :: es) =
      if res.isTimeScenarioVarying then .ok res
      else computeIndexation p e >>= fun b => comb p (res.or b) es := by
  unfold comb
  split
  · rfl
  · simp only [combineRest]

theorem comb_varying (p : StructProvider) (res : Idx) (es : List Expr) (h : res.isTimeScenarioVarying = true) :
    comb p res es = .ok res := by
  unfold comb; rw [if_pos h]

theorem combineFirst_eq (p : StructProvider) (es : List Expr) : combineFirst p es = comb p ⟨false, false⟩ es := by
  cases es with
  | nil => rfl
  | cons e es =>
    rw [comb_cons]
    simp only [combineFirst, Idx.isTimeScenarioVarying, Bool.and_false, Bool.false_eq_true, if_false]
    congr 1

theorem idx_or_assoc (a b c : Idx) : (a.or b).or c = a.or (b.or c) := by
  simp [Idx.or, Bool.or_assoc]

theorem idx_varying_iff (a : Idx) : a.isTimeScenarioVarying = true ↔ a = ⟨true, true⟩ := by
  obtain ⟨x, y⟩ := a
  cases x <;> cases y <;> simp [Idx.isTimeScenarioVarying]

theorem comb_ge (p : StructProvider) (es : List Expr) (res j : Idx) (h : comb p res es = .ok j) : res.or j = j := by
  induction es generalizing res with
  | nil =>
    rw [comb_nil, Except.ok.injEq] at h
    subst h
    simp [Idx.or]
  | cons e es ih =>
    rw [comb_cons] at h
    split at h
    · rw [Except.ok.injEq] at h
      subst h
      simp [Idx.or]
    · rw [bind_ok_iff] at h
      obtain ⟨b, _, hb⟩ := h
      have := ih _ hb
      rw [← this]
      obtain ⟨x, y⟩ := res
      simp [Idx.or, ← Bool.or_assoc]

theorem or_varying (r a : Idx) (h : a.isTimeScenarioVarying = true) : r.or a = ⟨true, true⟩ := by
  rw [idx_varying_iff] at h
  subst h
  simp [Idx.or]

theorem varying_or (r a : Idx) (h : r.isTimeScenarioVarying = true) : r.or a = ⟨true, true⟩ := by
  rw [idx_varying_iff] at h
  subst h
  simp [Idx.or]

theorem comb_append (p : StructProvider) (inner rest : List Expr) (r res j : Idx) (h : comb p res inner = .ok j) :
    comb p (r.or res) (inner ++ rest) = comb p (r.or j) rest := by
  induction inner generalizing res with
  | nil => rw [comb_nil] at h; cases h; rfl
  | cons e es ih =>
    have hge := comb_ge p _ _ _ h
    by_cases hv : (r.or res).isTimeScenarioVarying = true
    · rw [comb_varying p _ _ hv]
      have h1 : r.or j = (r.or res).or j := by rw [idx_or_assoc, hge]
      have h2 := varying_or _ j hv
      rw [h1, h2, comb_varying _ _ _ rfl, (idx_varying_iff _).1 hv]
    · have hres : ¬ res.isTimeScenarioVarying = true := fun h => hv ((idx_varying_iff _).2 (or_varying r res h))
      rw [comb_cons, if_neg hres, bind_ok_iff] at h
      obtain ⟨b, hb, hrest⟩ := h
      rw [List.cons_append, comb_cons, if_neg hv, hb]
      simp only [ok_bind]
      rw [idx_or_assoc]
      exact ih _ hrest

theorem comb_operands (p : StructProvider) (e : Expr) (rest : List Expr) (r j : Idx)
    (h : computeIndexation p e = .ok j) : comb p r (e.operands ++ rest) = comb p (r.or j) rest := by
  by_cases hs : ∃ es, e = add es
  · obtain ⟨es, rfl⟩ := hs
    simp only [computeIndexation, combineFirst_eq] at h
    have := comb_append p es rest r _ _ h
    simpa [operands, Idx.or] using this
  · have ho : e.operands = [e] := by
      cases e <;> simp_all [operands]
    rw [ho, List.singleton_append, comb_cons]
    split
    · rename_i hv
      rw [varying_or r j hv, comb_varying _ _ _ rfl, (idx_varying_iff r).1 hv]
    · rw [h]; rfl

theorem comb_flatten (p q : StructProvider) (es es' : List Expr) (r i : Idx)
    (hf : List.Forall₂ (fun e e' => ∀ j, computeIndexation p e = .ok j → computeIndexation q e' = .ok j) es es')
    (h : comb p r es = .ok i) : comb q r (es'.flatMap operands) = .ok i := by
  induction hf generalizing r with
  | nil => simpa [comb_nil] using h
  | cons h1 _ ih =>
    rename_i e e' es es' _
    rw [comb_cons] at h
    split at h
    · rename_i hv
      rw [comb_varying _ _ _ hv]; exact h
    · rw [bind_ok_iff] at h
      obtain ⟨b, hb, hr⟩ := h
      rw [List.flatMap_cons, comb_operands q e' _ r b (h1 b hb)]
      exact ih _ hr

theorem foldAdd_operands {es : List Expr} {e : Expr} (h : foldAdd addOp es = .ok e) :
    (∃ o, es = [o] ∧ e = o) ∨ e = add (es.flatMap operands) := by
  cases es with
  | nil => simp [foldAdd] at h
  | cons o os =>
    simp only [foldAdd, Except.ok.injEq] at h
    subst h
    rcases os.eq_nil_or_concat with rfl | ⟨os, b, rfl⟩
    · exact .inl ⟨o, rfl, rfl⟩
    · right
      have key : ∀ (os : List Expr) (o : Expr), (os.foldl addOp o).operands = o.operands ++ os.flatMap operands := by
        intro os
        induction os with
        | nil => intro o; simp
        | cons a os ih => intro o; rw [List.foldl_cons, ih]; simp [addOp, operands]
      have : ∀ x : Expr, (os.foldl addOp x).addOp b = add ((os.foldl addOp x).operands ++ b.operands) := fun _ => rfl
      rw [List.concat_eq_append, List.foldl_append]
      simp only [List.foldl_cons, List.foldl_nil]
      rw [this, key]
      simp

/-- what a copy does to the indexing structures of the leaves -/
structure HookIdx (h : Hooks) (p q : StructProvider) : Prop where
  agg : h.agg = none
  var : ∀ n i e, p.var n = .ok i → h.var n = .ok e → computeIndexation q e = .ok i
  par : ∀ n i e, p.par n = .ok i → h.par n = .ok e → computeIndexation q e = .ok i
  cvar : ∀ c n i e, p.cvar c n = .ok i → h.cvar c n = .ok e → computeIndexation q e = .ok i
  cpar : ∀ c n i e, p.cpar c n = .ok i → h.cpar c n = .ok e → computeIndexation q e = .ok i

theorem copyWith_idx {h : Hooks} {p q : StructProvider} (hh : HookIdx h p q) (e : Expr) :
    ∀ i, computeIndexation p e = .ok i → ∀ e', copyWith h e = .ok e' → computeIndexation q e' = .ok i := by
  induction e using Expr.ind with
  | lit v => intro i hi e' h'; cases h'; exact hi
  | var n => intro i hi e' h'; exact hh.var n i e' hi h'
  | par n => intro i hi e' h'; exact hh.par n i e' hi h'
  | cvar c n => intro i hi e' h'; exact hh.cvar c n i e' hi h'
  | cpar c n => intro i hi e' h'; exact hh.cpar c n i e' hi h'
  | pvar c n ti si => intro i hi; simp [computeIndexation] at hi
  | ppar c n ti si => intro i hi; simp [computeIndexation] at hi
  | portField p f => intro i hi; simp [computeIndexation] at hi
  | neg e ih =>
    intro i hi e' h'
    simp only [copyWith, bind_ok_iff, Except.ok.injEq] at h'
    obtain ⟨a, ha, rfl⟩ := h'
    exact ih i hi a ha
  | add es ih =>
    intro i hi e' h'
    rw [copyWith_add, bind_ok_iff] at h'
    obtain ⟨es', hes, hf⟩ := h'
    have hf2 : List.Forall₂ (fun e e' => ∀ j, computeIndexation p e = .ok j → computeIndexation q e' = .ok j) es es' := by
      have := appendAll_ok_iff.1 hes
      clear hes hf hi
      induction this with
      | nil => exact .nil
      | cons h1 _ ih2 =>
        exact .cons (fun j hj => ih _ (by simp) j hj _ h1) (ih2 fun x hx => ih x (by simp [hx]))
    simp only [computeIndexation, combineFirst_eq] at hi
    have key := comb_flatten p q es es' _ i hf2 hi
    rcases foldAdd_operands hf with ⟨o, rfl, rfl⟩ | rfl
    · cases hf2 with
      | cons h1 h2 =>
        cases h2
        rw [comb_cons, if_neg (by simp [Idx.isTimeScenarioVarying]), bind_ok_iff] at hi
        obtain ⟨b, hb, hr⟩ := hi
        rw [comb_nil] at hr
        cases hr
        have := h1 b hb
        rw [this]
        simp [Idx.or]
    · simp only [computeIndexation, combineFirst_eq]
      exact key
  | mul l r ihl ihr =>
    intro i hi e' h'
    simp only [copyWith, bind_ok_iff, Except.ok.injEq] at h'
    obtain ⟨a, ha, b, hb, rfl⟩ := h'
    change computeIndexation q (mul a b) = _
    simp only [computeIndexation, bind_ok_iff] at hi ⊢
    obtain ⟨j, hj, hi⟩ := hi
    refine ⟨j, ihl j hj a ha, ?_⟩
    split at hi
    · rename_i hv; rw [if_pos hv]; exact hi
    · rename_i hv
      rw [if_neg hv]
      rw [bind_ok_iff] at hi ⊢
      obtain ⟨k, hk, hi⟩ := hi
      exact ⟨k, ihr k hk b hb, hi⟩
  | div l r ihl ihr =>
    intro i hi e' h'
    simp only [copyWith, bind_ok_iff, Except.ok.injEq] at h'
    obtain ⟨a, ha, b, hb, rfl⟩ := h'
    change computeIndexation q (div a b) = _
    simp only [computeIndexation, bind_ok_iff] at hi ⊢
    obtain ⟨j, hj, hi⟩ := hi
    refine ⟨j, ihl j hj a ha, ?_⟩
    split at hi
    · rename_i hv; rw [if_pos hv]; exact hi
    · rename_i hv
      rw [if_neg hv]
      rw [bind_ok_iff] at hi ⊢
      obtain ⟨k, hk, hi⟩ := hi
      exact ⟨k, ihr k hk b hb, hi⟩
  | cmp l r c ihl ihr =>
    intro i hi e' h'
    simp only [copyWith, bind_ok_iff, Except.ok.injEq] at h'
    obtain ⟨a, ha, b, hb, rfl⟩ := h'
    simp only [computeIndexation, bind_ok_iff] at hi ⊢
    obtain ⟨j, hj, hi⟩ := hi
    refine ⟨j, ihl j hj a ha, ?_⟩
    split at hi
    · rename_i hv; rw [if_pos hv]; exact hi
    · rename_i hv
      rw [if_neg hv]
      rw [bind_ok_iff] at hi ⊢
      obtain ⟨k, hk, hi⟩ := hi
      exact ⟨k, ihr k hk b hb, hi⟩
  | shift l r ihl ihr =>
    intro i hi e' h'
    simp only [copyWith, bind_ok_iff, Except.ok.injEq] at h'
    obtain ⟨a, ha, b, hb, rfl⟩ := h'
    exact ihl i hi a ha
  | evalT l r ihl ihr =>
    intro i hi e' h'
    simp only [copyWith, bind_ok_iff, Except.ok.injEq] at h'
    obtain ⟨a, ha, b, hb, rfl⟩ := h'
    simp only [computeIndexation, bind_ok_iff] at hi ⊢
    obtain ⟨j, hj, hi⟩ := hi
    exact ⟨j, ihl j hj a ha, hi⟩
  | tsum e a b ihe iha ihb =>
    intro i hi e' h'
    simp only [copyWith, bind_ok_iff, Except.ok.injEq] at h'
    obtain ⟨x, hx, y, hy, z, hz, rfl⟩ := h'
    exact ihe i hi x hx
  | allsum e ih =>
    intro i hi e' h'
    simp only [copyWith, bind_ok_iff, Except.ok.injEq] at h'
    obtain ⟨a, ha, rfl⟩ := h'
    simp only [computeIndexation, bind_ok_iff] at hi ⊢
    obtain ⟨j, hj, hi⟩ := hi
    exact ⟨j, ih j hj a ha, hi⟩
  | scen e o ih =>
    intro i hi e' h'
    simp only [copyWith, bind_ok_iff, Except.ok.injEq] at h'
    obtain ⟨a, ha, rfl⟩ := h'
    simp only [computeIndexation, bind_ok_iff] at hi ⊢
    obtain ⟨j, hj, hi⟩ := hi
    exact ⟨j, ih j hj a ha, hi⟩
  | agg e o ih => intro i hi; simp [computeIndexation] at hi

/-- giving a component to the symbols of a model expression keeps its indexing structure -/
theorem addComponentContext_idx {m q : StructProvider} {c : String} {e e' : Expr} {i : Idx}
    (hv : ∀ n i, m.var n = .ok i → q.cvar c n = .ok i) (hp : ∀ n i, m.par n = .ok i → q.cpar c n = .ok i)
    (hi : computeIndexation m e = .ok i) (h : addComponentContext c e = .ok e') :
    computeIndexation q e' = .ok i := by
  refine copyWith_idx (h := contextHooks c) (p := m) ⟨rfl, ?_, ?_, ?_, ?_⟩ e i hi e' h
  · intro n i e h1 h2; cases h2; exact hv n i h1
  · intro n i e h1 h2; cases h2; exact hp n i h1
  · intro c n i e h1 h2; cases h2
  · intro c n i e h1 h2; cases h2

/-- … and does not raise its degree -/
theorem addComponentContext_degLE {c : String} {e e' : Expr} {d : Nat} (hd : DegLE e d)
    (h : addComponentContext c e = .ok e') : DegLE e' d := by
  refine copyWith_degLE (h := contextHooks c) rfl ?_ ?_ ?_ ?_ ?_ ?_ ?_ e d hd e' h
  · intro n e h; cases h; exact ⟨1, rfl, le_refl _⟩
  · intro n e h; cases h; exact ⟨0, rfl, le_refl _⟩
  · intro c n e h; cases h
  · intro c n e h; cases h
  · intro c n ti si e h; cases h
  · intro c n ti si e h; cases h
  · intro p f e h; cases h; exact ⟨1, rfl, le_refl _⟩

/-- without port references the instantiation is the copy with the component -/
theorem instantiate_noPort {e e' : Expr} {c : String} {ports : PortExprs} (hp : ∀ y ∈ e.subs, y.isPortRef = false)
    (h : instantiate e c ports = .ok e') : addComponentContext c e = .ok e' ∧ ∀ y ∈ e'.subs, y.isPortRef = false := by
  unfold instantiate at h
  simp only [bind_ok_iff] at h
  obtain ⟨e1, h1, h2⟩ := h
  have hp1 : ∀ y ∈ e1.subs, y.isPortRef = false := by
    intro y hy
    by_cases hl : isHookLeaf y = true
    · obtain ⟨x, hx, rfl⟩ := addComponentContext_leaf c e e1 h1 y hy hl
      have := hp x hx
      cases x <;> simp_all [ofComponent, isPortRef]
    · have := addComponentContext_inner c (fun y => isHookLeaf y = true ∨ y.isPortRef = false)
        ⟨⟨fun _ => .inr rfl, fun _ _ _ => .inr rfl, fun _ _ _ _ _ => .inr rfl, fun _ _ _ _ _ => .inr rfl,
          fun _ _ _ _ _ _ => .inr rfl, fun _ _ _ _ _ => .inr rfl, fun _ _ _ _ _ => .inr rfl,
          fun _ _ _ _ _ _ _ => .inr rfl, fun _ _ _ => .inr rfl, fun _ _ _ _ => .inr rfl⟩,
          fun _ _ _ h => by simpa [isHookLeaf, isPortRef] using h⟩
        (fun y hy => .inl hy) e e1 (fun y hy => .inr (hp y hy)) h1 y hy
      exact this.resolve_left hl
  have hflat : e1.Flat := by
    refine copyWith_flat (h := contextHooks c) ?_ e e1 h1
    constructor
    · rfl
    all_goals
      intros
      rename_i h'
      simp only [contextHooks, copyHooks, Except.ok.injEq, reduceCtorEq] at h'
    all_goals
      subst h'
      exact flat_leaf rfl rfl
  rw [resolvePort_id e1 c ports hflat hp1] at h2
  cases h2
  exact ⟨h1, hp1⟩

end Verif
