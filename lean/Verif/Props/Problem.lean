import Verif.Lemmas.Accepted

/-! Properties C30 and C33 to C35: the whole optimization problem. -/

namespace Verif.Props
open Verif Verif.Expr Verif.OptCtx

theorem eq_fin_of_isBelow {v : Num} {m : ℚ} (h : ∀ q, v.isBelow q ↔ m ≤ q) : v = .fin m := by
  cases v with
  | fin a =>
    have h1 : a ≤ m := (h m).2 (le_refl _)
    have h2 : m ≤ a := (h a).1 (le_refl _)
    rw [le_antisymm h1 h2]
  | pinf => exact absurd ((h m).2 (le_refl _)) id
  | ninf => exact absurd ((h (m - 1)).1 trivial) (by linarith)
  | nan => exact absurd ((h m).2 (le_refl _)) id

theorem eq_fin_of_isAbove {v : Num} {m : ℚ} (h : ∀ q, v.isAbove q ↔ q ≤ m) : v = .fin m := by
  cases v with
  | fin a =>
    have h1 : m ≤ a := (h m).2 (le_refl _)
    have h2 : a ≤ m := (h a).1 (le_refl _)
    rw [le_antisymm h2 h1]
  | ninf => exact absurd ((h m).2 (le_refl _)) id
  | pinf => exact absurd ((h (m + 1)).1 trivial) (by linarith)
  | nan => exact absurd ((h m).2 (le_refl _)) id

/-! ## C30 -/

/-- **C30**, which instances: an instance is a component of the network, a selected variable of its model, a timestep of
the block exactly when the variable depends on time and a scenario exactly when it depends on the scenario; no two
instances are the same. -/
theorem c30_instances (x : OptCtx) (hn : x.NetworkOk) :
    (x.instances.map Inst.key).Nodup ∧ ∀ n : Inst, n ∈ x.instances ↔
      n.comp ∈ x.network.allComponents ∧ n.var ∈ x.strategy.getVariables n.comp.model ∧
      (if n.var.structure_.time then ∃ t : Nat, t < x.timesteps.length ∧ n.t = some (t : Int) else n.t = none) ∧
      (if n.var.structure_.scenario then ∃ s : Nat, s < x.scenarios ∧ n.s = some (s : Int) else n.s = none) := by
  refine ⟨instances_nodup hn, fun n => ?_⟩
  rw [mem_instances, mem_indexList, mem_indexList]
  rfl

/-- **C30.** In a built problem the solver variables are in bijection with the instances: there are as many, the column
registered for an instance is its rank, nothing else is registered; the solver variable of an instance is integer exactly when the variable is
not declared continuous, and unless it is a boolean its bounds are the mathematical values of the declared bounds at the
timestep and scenario of the instance (or no bound when none is declared).

Partial: booleans get the bounds 0 and 1 whatever is declared, see `c30_boolean_bounds_ignored`; the ids of components and
nodes are required to be distinct, see `c30_shared_id`. -/
theorem c30_columns_partial (x : OptCtx) (hn : x.NetworkOk) (hx : x.DataOk)
    (hb : ∀ c ∈ x.network.allComponents, ∀ v ∈ x.strategy.getVariables c.model, ∀ b,
      v.lowerBound = some b ∨ v.upperBound = some b → BoundOk b) (st : OptState) (h : x.buildProblem = .ok st) :
    st.solver.vars.length = x.instances.length ∧
    (∀ k i, st.columns.get? k = some i ↔ ∃ n, x.instances[i]? = some n ∧ n.key = k) ∧
    ∀ (i : Nat) (n : Inst), x.instances[i]? = some n → ∃ sv, st.solver.vars[i]? = some sv ∧
      (sv.integer = true ↔ n.var.dataType ≠ .continuous) ∧
      (n.var.dataType = .boolean → sv.lb = 0 ∧ sv.ub = 1) ∧
      (n.var.dataType ≠ .boolean → ∀ (t s : Int), (n.t = none ∨ n.t = some t) → (n.s = none ∨ n.s = some s) →
        ∀ (σ : TermKey → ℚ) (q : ℚ), (sv.lb.isBelow q ↔ aboveOpt (x.readIn σ n.comp) n.var.lowerBound q t s) ∧
          (sv.ub.isAbove q ↔ belowOpt (x.readIn σ n.comp) n.var.upperBound q t s)) := by
  obtain ⟨ports, hreg, hv, hc⟩ := build_columns hn h
  refine ⟨hv.length_eq.symm, hc, fun i n hi => ?_⟩
  obtain ⟨sv, hsv, hm⟩ := (forall₂_getElem hv).1 n hi
  refine ⟨sv, hsv, ?_⟩
  obtain ⟨lb, ub, lo, up, hlb, hub, hlo, hup, -, rfl⟩ := hm.made
  obtain ⟨hc, hvar, -, -⟩ := mem_instances.1 (List.mem_of_getElem? hi)
  have key : ∀ (t s : Int), (n.t = none ∨ n.t = some t) → (n.s = none ∨ n.s = some s) →
        ∀ (σ : TermKey → ℚ) (q : ℚ), (lo.isBelow q ↔ aboveOpt (x.readIn σ n.comp) n.var.lowerBound q t s) ∧
          (up.isAbove q ↔ belowOpt (x.readIn σ n.comp) n.var.upperBound q t s) := by
    intro t s ht hs σ q
    exact ⟨boundOpt_lower hn hx hreg n.comp (fun y hy => hb _ hc _ hvar y (.inl hy)) hlb hlo t s ht hs σ q,
      boundOpt_upper hn hx hreg n.comp (fun y hy => hb _ hc _ hvar y (.inr hy)) hub hup t s ht hs σ q⟩
  cases hty : n.var.dataType with
  | boolean => exact ⟨by simp [solverVar], fun _ => ⟨rfl, rfl⟩, fun h => absurd rfl h⟩
  | integer => exact ⟨by simp [solverVar], (by intro h; cases h), fun _ => key⟩
  | continuous => exact ⟨by simp [solverVar], (by intro h; cases h), fun _ => key⟩

/-- **C30**, crossed bounds: when for some instance the value of the declared upper bound is less than the value of the
declared lower bound, the problem is not built.  (Also for booleans.) -/
theorem c30_crossed_bounds_raise (x : OptCtx) (hn : x.NetworkOk) (hx : x.DataOk) (n : Inst) (hi : n ∈ x.instances)
    (b1 b2 : Expr) (h1 : n.var.lowerBound = some b1) (h2 : n.var.upperBound = some b2) (o1 : ExprOk b1) (o2 : ExprOk b2)
    (t s : Int) (ht : n.t = none ∨ n.t = some t) (hs : n.s = none ∨ n.s = some s) (σ : TermKey → ℚ)
    (hcross : mden (x.readIn σ n.comp) b2 t s < mden (x.readIn σ n.comp) b1 t s) : ∃ err, x.buildProblem = .error err := by
  cases h : x.buildProblem with
  | error err => exact ⟨err, rfl⟩
  | ok st =>
    exfalso
    obtain ⟨ports, hreg, hv, -⟩ := build_columns hn h
    obtain ⟨i, hlt, hget⟩ := List.getElem_of_mem hi
    obtain ⟨sv, hsv, hm⟩ := (forall₂_getElem hv (i := i)).1 n (by rw [List.getElem?_eq_getElem hlt, hget])
    obtain ⟨lb, ub, lo, up, hlb, hub, hlo, hup, hlt, -⟩ := hm.made
    have e1 : lo = .fin (mden (x.readIn σ n.comp) b1 t s) := by
      refine eq_fin_of_isBelow fun q => ?_
      rw [boundOpt_lower hn hx hreg n.comp (fun y hy => .inr (by rw [h1] at hy; cases hy; exact o1)) hlb hlo t s ht hs σ q, h1]
      exact aboveBound_fin o1.fin q t s
    have e2 : up = .fin (mden (x.readIn σ n.comp) b2 t s) := by
      refine eq_fin_of_isAbove fun q => ?_
      rw [boundOpt_upper hn hx hreg n.comp (fun y hy => .inr (by rw [h2] at hy; cases hy; exact o2)) hub hup t s ht hs σ q, h2]
      exact belowBound_fin o2.fin q t s
    rw [e1, e2] at hlt
    simp [Num.lt, Num.le, Num.eqb, hcross.le, hcross.ne] at hlt

/-! ## C33 -/

theorem aboveBound_congr {x : OptCtx} {c : Component} {σ : TermKey → ℚ} {b : Expr} (hb : BoundOk b) {t s t' s' : Int}
    (h : mden (x.readIn σ c) b t s = mden (x.readIn σ c) b t' s') (q : ℚ) :
    (aboveBound (x.readIn σ c) b q t s ↔ aboveBound (x.readIn σ c) b q t' s') ∧
    (belowBound (x.readIn σ c) b q t s ↔ belowBound (x.readIn σ c) b q t' s') := by
  rcases hb with (rfl | rfl) | hb
  · exact ⟨Iff.rfl, Iff.rfl⟩
  · exact ⟨Iff.rfl, Iff.rfl⟩
  · rw [aboveBound_fin hb.fin, aboveBound_fin hb.fin, belowBound_fin hb.fin, belowBound_fin hb.fin, h]
    exact ⟨Iff.rfl, Iff.rfl⟩

/-- The rows of the problem are about the values `V` of the expressions of the constraints, when the instances of the variables have the
values `σ`: the linear expressions have these values. -/
def RowsValue (x : OptCtx) (σ : TermKey → ℚ) (V : Component → Expr → Int → Int → ℚ) : Prop :=
  ∀ ports, registerConnections x.network.connections [] = .ok ports → ∀ c ∈ x.network.allComponents,
    ∀ k ∈ x.strategy.getConstraints c.model, ∀ t s : Nat, t < x.T → s < x.scenarios → ∀ e1 e2 l,
    instantiate k.expression c.id ports = .ok e1 → x.expandOperators e1 = .ok e2 → x.linearize e2 (some (t : Int)) (some (s : Int)) = .ok l →
    l.Finite ∧ l.value (fun k => σ (wrapKey x.T k)) = V c k.expression t s

/-- The same, and these values do not depend on time (scenario) when the program reports so. -/
structure RowsAbout (x : OptCtx) (σ : TermKey → ℚ) (V : Component → Expr → Int → Int → ℚ) : Prop where
  value : RowsValue x σ V
  time : ∀ ports, registerConnections x.network.connections [] = .ok ports → ∀ c ∈ x.network.allComponents,
    ∀ k ∈ x.strategy.getConstraints c.model, ∀ e i, instantiate k.expression c.id ports = .ok e → x.computeIndexing e = .ok i →
    i.time = false → ∀ t t' s, V c k.expression t s = V c k.expression t' s
  scenario : ∀ ports, registerConnections x.network.connections [] = .ok ports → ∀ c ∈ x.network.allComponents,
    ∀ k ∈ x.strategy.getConstraints c.model, ∀ e i, instantiate k.expression c.id ports = .ok e → x.computeIndexing e = .ok i →
    i.scenario = false → ∀ t s s', V c k.expression t s = V c k.expression t s'

/-- a row is satisfied exactly when its constraint holds at its timestep and scenario -/
theorem isRowFor_sat {x : OptCtx} (hn : x.NetworkOk) (hx : x.DataOk) {ports : PortExprs}
    (hreg : registerConnections x.network.connections [] = .ok ports) {c : Component} {k : Constraint}
    (he : ExprOk k.expression ∧ BoundOk k.lowerBound ∧ BoundOk k.upperBound) {cols : Dict TermKey Nat} {t s : Int} {r : Row}
    (pt : Nat → ℚ) (σ : TermKey → ℚ) {V : ℚ}
    (hV : ∀ e1 e2 l, instantiate k.expression c.id ports = .ok e1 → x.expandOperators e1 = .ok e2 → x.linearize e2 (some t) (some s) = .ok l →
      l.Finite ∧ l.value (fun k => σ (wrapKey x.T k)) = V) (h : IsRowFor x ports cols c k t s r)
    (hσ : ∀ k i, cols.get? k = some i → pt i = σ k) :
    r.Sat pt ↔ aboveBound (x.readIn σ c) k.lowerBound V t s ∧ belowBound (x.readIn σ c) k.upperBound V t s := by
  obtain ⟨e, lb, ub, e2, l, lo, up, h1, h2, h3, h4, h5, h6, h7, hsat⟩ := h.made
  obtain ⟨hfin, hval⟩ := hV e e2 l h1 h4 h5
  rw [hsat hfin pt σ hσ, hval,
    (bound_value hn hx hreg c he.2.1 h2 h6 t s (.inr rfl) (.inr rfl) σ _).1,
    (bound_value hn hx hreg c he.2.2 h3 h7 t s (.inr rfl) (.inr rfl) σ _).2]

/-- the program computes an indexing for the expression of every constraint of a built problem -/
theorem constraint_indexed {x : OptCtx} (hn : x.NetworkOk)
    (hex : ∀ c ∈ x.network.allComponents, ∀ k ∈ x.strategy.getConstraints c.model, ExprOk k.expression ∧ BoundOk k.lowerBound ∧ BoundOk k.upperBound)
    {ports : PortExprs} (hreg : registerConnections x.network.connections [] = .ok ports) {st1 st2 : OptState}
    (h2 : x.createConstraints ports st1 = .ok st2) {c : Component} (hc : c ∈ x.network.allComponents) {k : Constraint}
    (hkm : k ∈ x.strategy.getConstraints c.model) :
    ∃ e i, instantiate k.expression c.id ports = .ok e ∧ x.computeIndexing e = .ok i := by
  have hloop : ∀ (l : List Component) (s1 s2 : OptState), c ∈ l →
      loop (fun st c => loop (x.createConstraintOf ports c.id) (x.strategy.getConstraints c.model) st) l s1 = .ok s2 →
      ∃ s3 s4, loop (x.createConstraintOf ports c.id) (x.strategy.getConstraints c.model) s3 = .ok s4 := by
    intro l
    induction l with
    | nil => intro _ _ h; cases h
    | cons a l ih =>
      intro s1 s2 hm hl
      rw [loop_cons, bind_ok_iff] at hl
      obtain ⟨s3, h1, h2⟩ := hl
      rcases List.mem_cons.1 hm with rfl | hm
      · exact ⟨s1, s3, h1⟩
      · exact ih s3 s2 hm h2
  have hloop2 : ∀ (l : List Constraint) (s1 s2 : OptState), k ∈ l →
      loop (x.createConstraintOf ports c.id) l s1 = .ok s2 → ∃ s3 s4, x.createConstraintOf ports c.id s3 k = .ok s4 := by
    intro l
    induction l with
    | nil => intro _ _ h; cases h
    | cons a l ih =>
      intro s1 s2 hm hl
      rw [loop_cons, bind_ok_iff] at hl
      obtain ⟨s3, h1, h2⟩ := hl
      rcases List.mem_cons.1 hm with rfl | hm
      · exact ⟨s1, s3, h1⟩
      · exact ih s3 s2 hm h2
  obtain ⟨s3, s4, hl⟩ := hloop _ _ _ hc h2
  obtain ⟨s3, s4, hl⟩ := hloop2 _ _ _ hkm hl
  unfold OptCtx.createConstraintOf at hl
  simp only [bind_ok_iff] at hl
  obtain ⟨e, he, lb, hlb, ub, hub, k', hk', hl⟩ := hl
  have hek := (hex c hc k hkm).1
  have hml := (Props.c15_instantiate (x.unwrapped fun _ _ _ _ => 0) x.network.connections hn.accepted (networkOk_clean hn)
    ports hreg c.id _ e hek.agg hek.cmp he).1
  have hcmp : e.isCmp = false := by
    have := hml e (mem_subs_self _)
    cases e <;> simp_all [isModelLevel, isCmp]
  obtain rfl := make_nocmp hcmp hk'
  unfold OptCtx.createConstraint at hl
  simp only [bind_ok_iff] at hl
  obtain ⟨e2, he2, i, hi, hl⟩ := hl
  exact ⟨e, i, he, hi⟩

/-- In a built problem, the rows are satisfied exactly when every selected constraint of every component holds, at every index at which it is
written, for the values that the rows are about. -/
theorem rows_written (x : OptCtx) (hn : x.NetworkOk) (hx : x.DataOk) (hS : 0 < x.scenarios)
    (hex : ∀ c ∈ x.network.allComponents, ∀ k ∈ x.strategy.getConstraints c.model, ExprOk k.expression ∧ BoundOk k.lowerBound ∧ BoundOk k.upperBound)
    (st : OptState) (h : x.buildProblem = .ok st) (pt : Nat → ℚ) (σ : TermKey → ℚ) {V : Component → Expr → Int → Int → ℚ} (hV : RowsValue x σ V)
    (hσ : ∀ k i, st.columns.get? k = some i → pt i = σ k) :
    (∀ r ∈ st.solver.rows, r.Sat pt) ↔
      ∀ c ∈ x.network.allComponents, ∀ k ∈ x.strategy.getConstraints c.model, ∀ t s : Nat, x.WrittenAt c k.expression t s →
        aboveBound (x.readIn σ c) k.lowerBound (V c k.expression t s) t s ∧ belowBound (x.readIn σ c) k.upperBound (V c k.expression t s) t s := by
  obtain ⟨ports, st1, st2, hreg, h1, h2, h3⟩ := build_phases h
  have hv := createVariables_inv h1
  have hr := createConstraints_inv hn hex hreg hv.rows h2
  have hobj := createObjectives_inv (hr.objective.trans hv.objective) (hr.offset.trans hv.offset) h3
  have hcols : ∀ k i, st1.columns.get? k = some i → pt i = σ k := by
    intro k i hi
    refine hσ k i ?_
    rw [hobj.columns, hr.columns]
    exact hi
  rw [hobj.rows]
  have hT := T_pos hx
  have hwritten : ∀ {c k e i}, ExprOk (Constraint.expression k) → instantiate k.expression (Component.id c) ports = .ok e → x.computeIndexing e = .ok i →
      ∀ t s : Int, (t, s) ∈ rowIndices x ports c k ↔ ∃ t' s' : Nat, x.WrittenAt c k.expression t' s' ∧ t = t' ∧ s = s' := by
    intro c k e i hok he hi t s
    rw [mem_rowIndices he hi]
    have hdep := indexing_dependence hn hreg c hok.agg he hi
    have one : ∀ {n : Nat} {b : Bool} {u : Int}, 0 < n → (u ∈ (if b then pyRange 0 n else pyRange 0 1) ↔
        ∃ u' : Nat, u' < n ∧ (b = false → u' = 0) ∧ u = u') := by
      intro n b u hn
      split_ifs with hb
      · rw [pyRange_mem]
        constructor
        · rintro ⟨u', a, rfl⟩; exact ⟨u', a, by simp [hb], rfl⟩
        · rintro ⟨u', a, -, rfl⟩; exact ⟨u', a, rfl⟩
      · rw [show (1 : Int) = ((1 : Nat) : Int) from rfl, pyRange_mem]
        constructor
        · rintro ⟨u', a, rfl⟩; exact ⟨u', by omega, fun _ => by omega, rfl⟩
        · rintro ⟨u', a, b', rfl⟩; exact ⟨u', by have := b' (by simpa using hb); omega, rfl⟩
    unfold OptCtx.timeIndices OptCtx.scenarioIndices
    rw [show x.blockLength = ((x.T : Nat) : Int) from rfl, one hT, one hS]
    unfold OptCtx.WrittenAt
    rw [hdep]
    constructor
    · rintro ⟨⟨t', a, b, rfl⟩, s', c, d, rfl⟩; exact ⟨t', s', ⟨a, c, b, d⟩, rfl, rfl⟩
    · rintro ⟨t', s', ⟨a, c, b, d⟩, rfl, rfl⟩; exact ⟨⟨t', a, b, rfl⟩, s', c, d, rfl⟩
  have hmem : ∀ {c k t s}, (c, k, t, s) ∈ rowList x ports ↔ c ∈ x.network.allComponents ∧ k ∈ x.strategy.getConstraints c.model ∧
      (t, s) ∈ rowIndices x ports c k := by
    intro c k t s
    simp only [rowList, List.mem_flatMap, List.mem_map]
    constructor
    · rintro ⟨_, hc, _, hk, ⟨_, _⟩, ht, hh⟩
      cases hh
      exact ⟨hc, hk, ht⟩
    · rintro ⟨hc, hk, ht⟩
      exact ⟨c, hc, k, hk, (t, s), ht, rfl⟩
  constructor
  · intro hsat c hc k hkm t s hw
    obtain ⟨e, i, he, hi⟩ := constraint_indexed hn hex hreg h2 hc hkm
    have hin := (hwritten (hex c hc k hkm).1 he hi t s).2 ⟨t, s, hw, rfl, rfl⟩
    obtain ⟨r, hrm, hr⟩ := forall₂_mem_left hr.rows (hmem.2 ⟨hc, hkm, hin⟩)
    exact (isRowFor_sat hn hx hreg (hex c hc k hkm) pt σ (hV ports hreg c hc k hkm t s hw.1 hw.2.1) hr hcols).1 (hsat r hrm)
  · intro hall r hrm
    obtain ⟨⟨c, k, t, s⟩, hd, hr⟩ := forall₂_mem_right hr.rows hrm
    obtain ⟨hc, hkm, hin⟩ := hmem.1 hd
    obtain ⟨e, i, he, hi⟩ := constraint_indexed hn hex hreg h2 hc hkm
    obtain ⟨t', s', hw, rfl, rfl⟩ := (hwritten (hex c hc k hkm).1 he hi t s).1 hin
    exact (isRowFor_sat hn hx hreg (hex c hc k hkm) pt σ (hV ports hreg c hc k hkm t' s' hw.1 hw.2.1) hr hcols).2 (hall c hc k hkm t' s' hw)

/-- In a built problem, the rows are satisfied exactly when every selected constraint of every component holds, at every timestep of the
block and every scenario, for the values that the rows are about. -/
theorem rows_about (x : OptCtx) (hn : x.NetworkOk) (hx : x.DataOk) (hS : 0 < x.scenarios)
    (hex : ∀ c ∈ x.network.allComponents, ∀ k ∈ x.strategy.getConstraints c.model, ExprOk k.expression ∧ BoundOk k.lowerBound ∧ BoundOk k.upperBound)
    (hcov : ∀ ports, registerConnections x.network.connections [] = .ok ports →
      ∀ c ∈ x.network.allComponents, ∀ k ∈ x.strategy.getConstraints c.model, x.Covered ports c k) (st : OptState)
    (h : x.buildProblem = .ok st) (pt : Nat → ℚ) (σ : TermKey → ℚ) {V : Component → Expr → Int → Int → ℚ} (hV : RowsAbout x σ V)
    (hσ : ∀ k i, st.columns.get? k = some i → pt i = σ k) :
    (∀ r ∈ st.solver.rows, r.Sat pt) ↔
      ∀ c ∈ x.network.allComponents, ∀ k ∈ x.strategy.getConstraints c.model, ∀ t s : Nat,
        t < x.timesteps.length → s < x.scenarios → aboveBound (x.readIn σ c) k.lowerBound (V c k.expression t s) t s ∧
          belowBound (x.readIn σ c) k.upperBound (V c k.expression t s) t s := by
  rw [rows_written x hn hx hS hex st h pt σ hV.value hσ]
  constructor
  · intro hall c hc k hkm t s ht hs
    obtain ⟨ports, st1, st2, hreg, h1, h2, h3⟩ := build_phases h
    obtain ⟨e, i, he, hi⟩ := constraint_indexed hn hex hreg h2 hc hkm
    obtain ⟨ok, okl, oku⟩ := hex c hc k hkm
    have hT := T_pos hx
    have cov := hcov ports hreg c hc k hkm
    have hdep := indexing_dependence hn hreg c ok.agg he hi
    -- the row that enforces the constraint at `(t, s)`
    let t0 : Nat := if i.time then t else 0
    let s0 : Nat := if i.scenario then s else 0
    have ht0 : t0 < x.T := by unfold t0; split_ifs; exacts [ht, hT]
    have hs0 : s0 < x.scenarios := by unfold s0; split_ifs; exacts [hs, hS]
    have hholds := hall c hc k hkm t0 s0 ⟨ht0, hs0, by rw [hdep]; intro hd; unfold t0; simp [hd], by rw [hdep]; intro hd; unfold s0; simp [hd]⟩
    have heq : V c k.expression t s = V c k.expression t0 s0 := by
      have ht : V c k.expression t s = V c k.expression t0 s := by
        unfold t0; split_ifs with hd
        · rfl
        · exact hV.time ports hreg c hc k hkm e i he hi (by simpa using hd) _ _ _
      have hs : V c k.expression t0 s = V c k.expression t0 s0 := by
        unfold s0; split_ifs with hd
        · rfl
        · exact hV.scenario ports hreg c hc k hkm e i he hi (by simpa using hd) _ _ _
      exact ht.trans hs
    have hbd : ∀ b, b = k.lowerBound ∨ b = k.upperBound →
        mden (x.readIn σ c) b t s = mden (x.readIn σ c) b t0 s0 := by
      intro b hb
      have ht : mden (x.readIn σ c) b t s = mden (x.readIn σ c) b t0 s := by
        unfold t0; split_ifs with hd
        · rfl
        · exact cov.time e i he hi (by simpa using hd) b hb σ _ _ _
      have hs : mden (x.readIn σ c) b t0 s = mden (x.readIn σ c) b t0 s0 := by
        unfold s0; split_ifs with hd
        · rfl
        · exact cov.scenario e i he hi (by simpa using hd) b hb σ _ _ _
      exact ht.trans hs
    rw [heq, (aboveBound_congr okl (hbd _ (.inl rfl)) _).1, (aboveBound_congr oku (hbd _ (.inr rfl)) _).2]
    exact hholds
  · intro hall c hc k hkm t s hw
    exact hall c hc k hkm t s hw.1 hw.2.1

/-- without tiny coefficients, the rows are about the mathematical values -/
theorem rowsAbout_mden (x : OptCtx) (hn : x.NetworkOk) (hx : x.DataOk) (hk : x.ConstraintsOk) (σ : TermKey → ℚ) :
    RowsAbout x σ fun c e t s => mden (x.readIn σ c) e t s where
  value ports hreg c hc k hkm t s ht hs e1 e2 l h1 h2 h3 := by
    obtain ⟨a, b⟩ := linearize_value hn hx hreg c (hk.exprs c hc k hkm).1 h1 h2 h3 (hk.noTiny c hc k hkm t s ht hs)
    exact ⟨a, b σ⟩
  time ports hreg c hc k hkm e i he hi hd t t' s := by
    obtain ⟨ok, -, -⟩ := hk.exprs c hc k hkm
    exact mden_indep_time hn hreg c ok.agg ok.cmp he hi hd σ _ _ _
  scenario ports hreg c hc k hkm e i he hi hd t s s' := by
    obtain ⟨ok, -, -⟩ := hk.exprs c hc k hkm
    exact mden_indep_scenario hn hreg c ok.agg ok.cmp he hi hd σ _ _ _

/-- **C33.** In a built problem, the rows are satisfied exactly when every selected constraint of every component holds
at every timestep of the block and every scenario, all variables, parameters and port fields being read mathematically.

Partial: the bounds of a constraint must not depend on time (scenario) when its expression is reported independent of time
(scenario), because only the expression decides at which indices rows are written, see `c33_bound_not_enforced`; and
expressions with coefficients smaller than `1e-16` are excluded, see `c35_tiny_coefficient`. -/
theorem c33_rows_partial (x : OptCtx) (hn : x.NetworkOk) (hx : x.DataOk) (hk : x.ConstraintsOk) (st : OptState)
    (h : x.buildProblem = .ok st) (pt : Nat → ℚ) (σ : TermKey → ℚ)
    (hσ : ∀ k i, st.columns.get? k = some i → pt i = σ k) :
    (∀ r ∈ st.solver.rows, r.Sat pt) ↔
      ∀ c ∈ x.network.allComponents, ∀ k ∈ x.strategy.getConstraints c.model, ∀ t s : Nat,
        t < x.timesteps.length → s < x.scenarios → k.Holds (x.readIn σ c) t s := by
  exact rows_about x hn hx hk.scenarios hk.exprs hk.covered st h pt σ (rowsAbout_mden x hn hx hk σ) hσ

/-- **C33, for any bounds.** Without the hypothesis on bounds: the rows are satisfied exactly when every selected constraint of every component
holds at every timestep and scenario that its expression depends on, and at the first timestep (in the first scenario) if its expression
does not depend on time (on the scenario).

Partial: expressions with coefficients smaller than `1e-16` are excluded. -/
theorem c33_written_partial (x : OptCtx) (hn : x.NetworkOk) (hx : x.DataOk) (hS : 0 < x.scenarios)
    (hex : ∀ c ∈ x.network.allComponents, ∀ k ∈ x.strategy.getConstraints c.model, ExprOk k.expression ∧ BoundOk k.lowerBound ∧ BoundOk k.upperBound)
    (hno : ∀ c ∈ x.network.allComponents, ∀ k ∈ x.strategy.getConstraints c.model, ∀ t s : Nat, t < x.T → s < x.scenarios →
      x.NoTiny c k.expression t s) (st : OptState) (h : x.buildProblem = .ok st) (pt : Nat → ℚ) (σ : TermKey → ℚ)
    (hσ : ∀ k i, st.columns.get? k = some i → pt i = σ k) :
    (∀ r ∈ st.solver.rows, r.Sat pt) ↔
      ∀ c ∈ x.network.allComponents, ∀ k ∈ x.strategy.getConstraints c.model, ∀ t s : Nat,
        x.WrittenAt c k.expression t s → k.Holds (x.readIn σ c) t s := by
  refine rows_written x hn hx hS hex st h pt σ (V := fun c e t s => mden (x.readIn σ c) e t s) ?_ hσ
  intro ports hreg c hc k hkm t s ht hs e1 e2 l h1 h2 h3
  obtain ⟨a, b⟩ := linearize_value hn hx hreg c (hex c hc k hkm).1 h1 h2 h3 (hno c hc k hkm t s ht hs)
  exact ⟨a, b σ⟩

/-! ## C34 -/

theorem getComponent_of_mem {x : OptCtx} (hn : x.NetworkOk) {c : Component} (hc : c ∈ x.network.allComponents) :
    x.network.getComponent c.id = .ok c := by
  have hids := hn.ids
  unfold Network.allComponents at hids hc
  rw [List.map_append, List.nodup_append] at hids
  have hval : ∀ {d : Dict String Component}, (∀ k c, (k, c) ∈ d → c.id = k) → d.values.map (·.id) = d.keys := by
    intro d h
    unfold Dict.values Dict.keys
    rw [List.map_map]
    exact List.map_congr_left fun kv hkv => h kv.1 kv.2 hkv
  have hkn := hval fun k c h => hn.keyed k c (.inl h)
  have hkc := hval fun k c h => hn.keyed k c (.inr h)
  unfold Network.getComponent
  rcases List.mem_append.1 hc with hm | hm
  · have hnone : x.network.components.get? c.id = none := by
      rw [Dict.get?_eq_none_iff, ← hkc]
      intro hin
      exact hids.2.2 c.id (List.mem_map_of_mem hm) c.id hin rfl
    rw [hnone]
    obtain ⟨⟨k, c'⟩, hkc', rfl⟩ := List.mem_map.1 hm
    have := hn.keyed _ _ (.inl hkc')
    simp only at this ⊢
    rw [this]
    exact (get_ok_iff' _ _ _).2 (Dict.get?_of_mem (by rw [← hkn]; exact hids.1) hkc')
  · obtain ⟨⟨k, c'⟩, hkc', rfl⟩ := List.mem_map.1 hm
    have := hn.keyed _ _ (.inr hkc')
    simp only at this ⊢
    rw [this, Dict.get?_of_mem (by rw [← hkc]; exact hids.2.1) hkc']

/-- In a built problem the value of the solver objective at every point is the sum over all components of the values `V` that the linear
expressions of their selected contributions have. -/
theorem objective_about (x : OptCtx) (hn : x.NetworkOk)
    (hex : ∀ c ∈ x.network.allComponents, ∀ k ∈ x.strategy.getConstraints c.model, ExprOk k.expression ∧ BoundOk k.lowerBound ∧ BoundOk k.upperBound)
    (ho : ∀ c ∈ x.network.allComponents, ∀ e ∈ x.contributions c, ExprOk e ∧
      computeIndexation c.model.structures e = .ok ⟨false, false⟩)
    (st : OptState) (h : x.buildProblem = .ok st) (pt : Nat → ℚ) (σ : TermKey → ℚ) {V : Component → Expr → ℚ}
    (hV : ∀ ports, registerConnections x.network.connections [] = .ok ports → ∀ c ∈ x.network.allComponents, ∀ e ∈ x.contributions c,
      ∀ e1 e2 l, instantiate e c.id ports = .ok e1 → x.expandOperators e1 = .ok e2 → x.linearize e2 (some 0) (some 0) = .ok l →
      l.Finite ∧ l.value (fun k => σ (wrapKey x.T k)) = V c e)
    (hσ : ∀ k i, st.columns.get? k = some i → pt i = σ k) :
    st.solver.cost pt = (x.network.allComponents.map fun c => ((x.contributions c).map fun e => V c e).sum).sum := by
  obtain ⟨ports, st1, st2, hreg, h1, h2, h3⟩ := build_phases h
  have hv := createVariables_inv h1
  have hr := createConstraints_inv hn hex hreg hv.rows h2
  have hobj := createObjectives_inv (hr.objective.trans hv.objective) (hr.offset.trans hv.offset) h3
  rw [hobj.columns] at hσ
  obtain ⟨ls, hls, hcost⟩ := hobj.cost
  have key : ∀ (d : Component × Expr) (l : LinExpr), d ∈ (x.network.allComponents.flatMap fun c =>
      (x.contributions c).map fun e => (c, e)) → IsObjFor x ports d l →
      l.Finite ∧ l.value (fun k => σ (wrapKey x.T k)) = V d.1 d.2 := by
    rintro ⟨c, e⟩ l hd ⟨e1, e2, he1, he2, hl⟩
    simp only [List.mem_flatMap, List.mem_map, Prod.mk.injEq] at hd
    obtain ⟨_, hc, _, he, rfl, rfl⟩ := hd
    obtain ⟨hok, hidx⟩ := ho _ hc _ he
    rename_i c e
    have hi := accepted_indexed hn hreg (getComponent_of_mem hn hc) hok.agg he1 he2 hidx
    have hl' : x.linearize e2 (some 0) (some 0) = .ok l := by
      rw [← hl]
      unfold OptCtx.linearize
      exact ((c07_time_linear x.expandCtx e1 e2 _ hi rfl he2 none (some 0) none _).trans
        (c07_scenario_linear x.expandCtx e1 e2 _ hi rfl he2 (some 0) none (some 0) _)).symm
    exact hV ports hreg c hc e he e1 e2 l he1 he2 hl'
  obtain ⟨-, -, hval⟩ := hcost fun l hl => by
    obtain ⟨d, hd, hdl⟩ := forall₂_mem_right hls hl
    exact (key d l hd hdl).1
  rw [hval pt σ hσ]
  have hsum : ∀ {ds : List (Component × Expr)} {ls : List LinExpr}, List.Forall₂ (IsObjFor x ports) ds ls →
      (∀ d ∈ ds, d ∈ (x.network.allComponents.flatMap fun c => (x.contributions c).map fun e => (c, e))) →
      (ls.map fun l => l.value fun k => σ (wrapKey x.T k)).sum = (ds.map fun d => V d.1 d.2).sum := by
    intro ds ls hf
    induction hf with
    | nil => intro _; rfl
    | cons hab _ ih =>
      intro hd
      simp only [List.map_cons, List.sum_cons]
      rw [(key _ _ (hd _ (by simp)) hab).2, ih fun d h => hd d (by simp [h])]
  rw [hsum hls fun d h => h]
  generalize x.network.allComponents = cs
  induction cs with
  | nil => rfl
  | cons c cs ih =>
    rw [List.flatMap_cons, List.map_append, List.sum_append, List.map_cons, List.sum_cons, ← ih, List.map_map]
    rfl

/-- **C34.** In a built problem the value of the solver objective at every point is the sum over all components of the
mathematical values of all their selected contributions, as modified by the risk strategy.

Partial: contributions with coefficients smaller than `1e-16` are excluded, see `c35_tiny_coefficient`. -/
theorem c34_objective_partial (x : OptCtx) (hn : x.NetworkOk) (hx : x.DataOk) (hk : x.ConstraintsOk) (ho : x.ObjectivesOk)
    (st : OptState) (h : x.buildProblem = .ok st) (pt : Nat → ℚ) (σ : TermKey → ℚ)
    (hσ : ∀ k i, st.columns.get? k = some i → pt i = σ k) : st.solver.cost pt = x.mathCost σ := by
  refine objective_about x hn hk.exprs (fun c hc e he => ⟨(ho.exprs c hc e he).1, ho.index c hc e he⟩) st h pt σ (V := fun c e => mden (x.readIn σ c) e 0 0) ?_ hσ
  intro ports hreg c hc e he e1 e2 l h1 h2 h3
  obtain ⟨hok, hno⟩ := ho.exprs c hc e he
  obtain ⟨hf, hval⟩ := linearize_value hn hx hreg c hok h1 h2 h3 hno
  exact ⟨hf, hval σ⟩

/-! ## C35 -/

/-- In a built problem, the columns are satisfied exactly when the values of the instances satisfy the declared bounds and types, except the
bounds of booleans. -/
theorem columns_enforced (x : OptCtx) (hn : x.NetworkOk) (hx : x.DataOk) (hv : ∀ c ∈ x.network.allComponents, ∀ v ∈ x.strategy.getVariables c.model,
    ∀ b, v.lowerBound = some b ∨ v.upperBound = some b → BoundOk b) (hS : 0 < x.scenarios) (st : OptState)
    (h : x.buildProblem = .ok st) (pt : Nat → ℚ) (σ : TermKey → ℚ) (hσ : ∀ k i, st.columns.get? k = some i → pt i = σ k) :
    (∀ (i : Nat) (v : SolverVar), st.solver.vars[i]? = some v → v.Sat (pt i)) ↔
      ∀ c ∈ x.network.allComponents, ∀ v ∈ x.strategy.getVariables c.model, ∀ t s : Nat, t < x.T → s < x.scenarios →
        enforcedVar (x.readIn σ c) v (σ (instanceAt c v t s)) t s := by
  obtain ⟨ports, hreg, hvars, hcols⟩ := build_columns hn h
  constructor
  · intro hsat c hc v hvm t s ht hs
    have hin : (⟨c, v, atT v.structure_ t, atS v.structure_ s⟩ : Inst) ∈ x.instances := by
      rw [mem_instances, mem_indexList, mem_indexList]
      refine ⟨hc, hvm, ?_, ?_⟩
      · show if v.structure_.time = true then ∃ k : Nat, k < x.T ∧ atT v.structure_ t = some (k : Int) else atT v.structure_ t = none
        unfold atT
        split_ifs
        · exact ⟨t, ht, rfl⟩
        · rfl
      · show if v.structure_.scenario = true then ∃ k : Nat, k < x.scenarios ∧ atS v.structure_ s = some (k : Int) else atS v.structure_ s = none
        unfold atS
        split_ifs
        · exact ⟨s, hs, rfl⟩
        · rfl
    obtain ⟨i, hlt, hget⟩ := List.getElem_of_mem hin
    have hi : x.instances[i]? = some ⟨c, v, atT v.structure_ t, atS v.structure_ s⟩ := by
      rw [List.getElem?_eq_getElem hlt, hget]
    obtain ⟨sv, hsv, hm⟩ := (forall₂_getElem hvars).1 _ hi
    have hpt : pt i = σ (instanceAt c v t s) := hσ _ i ((hcols _ _).2 ⟨_, hi, rfl⟩)
    have := hsat i sv hsv
    rw [hpt] at this
    refine (isVarFor_enforced hn hx hv hreg hin hm t s ?_ ?_ σ _).1 this
    · simp only [atT]; split_ifs <;> simp
    · simp only [atS]; split_ifs <;> simp
  · intro hall i sv hsv
    obtain ⟨n, hi, hm⟩ := (forall₂_getElem hvars).2 _ hsv
    have hin := List.mem_of_getElem? hi
    have hpt : pt i = σ n.key := hσ _ i ((hcols _ _).2 ⟨_, hi, rfl⟩)
    obtain ⟨hc, hvm, ht, hs⟩ := mem_instances.1 hin
    rw [mem_indexList] at ht hs
    have h1 : ∃ t : Nat, t < x.T ∧ n.t = atT n.var.structure_ t := by
      unfold atT
      split_ifs at ht ⊢
      · obtain ⟨k, hk, e⟩ := ht; exact ⟨k, hk, e⟩
      · exact ⟨0, T_pos hx, ht⟩
    have h2 : ∃ s : Nat, s < x.scenarios ∧ n.s = atS n.var.structure_ s := by
      unfold atS
      split_ifs at hs ⊢
      · obtain ⟨k, hk, e⟩ := hs; exact ⟨k, hk, e⟩
      · exact ⟨0, hS, hs⟩
    obtain ⟨t, ht, et⟩ := h1
    obtain ⟨s, hs, es⟩ := h2
    have hkey : n.key = instanceAt n.comp n.var t s := by
      unfold Inst.key instanceAt
      rw [et, es]
    have := hall n.comp hc n.var hvm t s ht hs
    rw [hpt, hkey]
    refine (isVarFor_enforced hn hx hv hreg hin hm t s ?_ ?_ σ _).2 this
    · rw [et]; simp only [atT]; split_ifs <;> simp
    · rw [es]; simp only [atS]; split_ifs <;> simp

/-- In a built problem, the columns are satisfied exactly when the values of the instances satisfy the declared bounds and types. -/
theorem columns_sat (x : OptCtx) (hn : x.NetworkOk) (hx : x.DataOk) (hv : x.VarsOk) (hS : 0 < x.scenarios) (st : OptState)
    (h : x.buildProblem = .ok st) (pt : Nat → ℚ) (σ : TermKey → ℚ) (hσ : ∀ k i, st.columns.get? k = some i → pt i = σ k) :
    (∀ (i : Nat) (v : SolverVar), st.solver.vars[i]? = some v → v.Sat (pt i)) ↔
      ∀ c ∈ x.network.allComponents, ∀ v ∈ x.strategy.getVariables c.model, ∀ t s : Nat, t < x.T → s < x.scenarios →
        aboveOpt (x.readIn σ c) v.lowerBound (σ (instanceAt c v t s)) t s ∧
        belowOpt (x.readIn σ c) v.upperBound (σ (instanceAt c v t s)) t s ∧ ofType v.dataType (σ (instanceAt c v t s)) := by
  rw [columns_enforced x hn hx hv.bounds hS st h pt σ hσ]
  exact forall_congr' fun c => forall_congr' fun hc => forall_congr' fun v => forall_congr' fun hm => forall_congr' fun t => forall_congr' fun s =>
    forall_congr' fun _ => forall_congr' fun _ => enforcedVar_iff hv hc hm σ _ t s

/-- **C35.** A point of the built problem is feasible exactly when the values it gives to the instances of the variables
satisfy the bounds, types and constraints of the study read mathematically (cyclic block), and its objective value
is the mathematical cost.

Partial: the deviations excluded by the hypotheses are those of C30 (bounds of booleans), C33 (bounds that depend on
time when the expression does not), C09 (nested operators) and coefficients smaller than `1e-16`
(`c35_tiny_coefficient`). -/
theorem c35_build_partial (x : OptCtx) (hn : x.NetworkOk) (hx : x.DataOk) (hv : x.VarsOk) (hk : x.ConstraintsOk)
    (ho : x.ObjectivesOk) (st : OptState) (h : x.buildProblem = .ok st) (pt : Nat → ℚ) (σ : TermKey → ℚ)
    (hσ : ∀ k i, st.columns.get? k = some i → pt i = σ k) :
    (st.solver.Feasible pt ↔ x.MathFeasible σ) ∧ st.solver.cost pt = x.mathCost σ := by
  refine ⟨?_, c34_objective_partial x hn hx hk ho st h pt σ hσ⟩
  have hrows := c33_rows_partial x hn hx hk st h pt σ hσ
  have hvs := columns_sat x hn hx hv hk.scenarios st h pt σ hσ
  unfold Solver.Feasible
  rw [hvs, hrows]
  exact ⟨fun h => ⟨h.1, h.2⟩, fun h => ⟨h.vars, h.constraints⟩⟩

end Verif.Props
