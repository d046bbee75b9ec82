import Verif.Lemmas.Linearized
import Verif.Props.Models

/-! The problem of a study that fits is built without error. -/

namespace Verif
open Expr OptCtx

theorem loop_ok {σ α} {f : σ → α → R σ} (P : σ → Prop) (l : List α)
    (hstep : ∀ a ∈ l, ∀ st, P st → ∃ st', f st a = .ok st' ∧ P st') (st : σ) (h0 : P st) : ∃ st', loop f l st = .ok st' ∧ P st' := by
  induction l generalizing st with
  | nil => exact ⟨st, rfl, h0⟩
  | cons a l ih =>
    obtain ⟨s1, h1, h2⟩ := hstep a (by simp) st h0
    obtain ⟨s2, h3, h4⟩ := ih (fun a ha => hstep a (by simp [ha])) s1 h2
    exact ⟨s2, by rw [loop_cons, h1]; exact h3, h4⟩

/-! ### Bounds -/

theorem bound_ok {x : OptCtx} (hx : x.Buildable) {c : Component} (hc : c ∈ x.network.allComponents) {vary : Idx} {b : Expr}
    (ports : PortExprs) (h : b.IsInfinite ∨ x.Computable c vary b) :
    ∃ b', instantiate b c.id ports = .ok b' ∧ computeDegree b' = .ok 0 ∧ (b' = b ∨ ∃ q, ∀ v, b' = .lit v → v = .fin q) ∧
      ∀ (t? s? : Option Int) (t s : Int), (t? = some t ∨ (t? = none ∧ vary.time = false)) →
        (s? = some s ∨ (s? = none ∧ vary.scenario = false)) → 0 ≤ s → s < x.scenarios → ∃ v, x.expressionValue b' t? s? = .ok v ∧
          ∀ q, (v.isBelow q ↔ aboveBound (x.constants c) b q t s) ∧ (v.isAbove q ↔ belowBound (x.constants c) b q t s) := by
  rcases h with (rfl | rfl) | h
  · exact ⟨_, rfl, rfl, .inl rfl, fun t? s? t s _ _ _ _ => ⟨_, rfl, fun q => ⟨Iff.rfl, Iff.rfl⟩⟩⟩
  · exact ⟨_, rfl, rfl, .inl rfl, fun t? s? t s _ _ _ _ => ⟨_, rfl, fun q => ⟨Iff.rfl, Iff.rfl⟩⟩⟩
  · obtain ⟨b', h1, h2, h3⟩ := instantiate_arith hc ports h
    refine ⟨b', h1, arith_degree b' h2.fits h2.fixing h2.scen, .inr ⟨match b' with | .lit v => v.toQ | _ => 0, ?_⟩, ?_⟩
    · rintro v rfl
      have := h2.fits
      cases v with
      | fin q => rfl
      | _ => cases this
    · intro t? s? t s ht hs h0 h4
      refine ⟨_, expressionValue_arith hx h2 ht hs h0 h4, fun q => ?_⟩
      rw [h3, aboveBound_fin h.finite, belowBound_fin h.finite]
      exact ⟨Iff.rfl, Iff.rfl⟩

theorem boundOpt_ok {x : OptCtx} (hx : x.Buildable) {c : Component} (hc : c ∈ x.network.allComponents) {vary : Idx}
    {b : Option Expr} (ports : PortExprs) (h : x.BoundFits c vary b) :
    ∃ b', instantiateBound c.id ports b = .ok b' ∧ ∀ (t? s? : Option Int) (t s : Int), (t? = some t ∨ (t? = none ∧ vary.time = false)) →
      (s? = some s ∨ (s? = none ∧ vary.scenario = false)) → 0 ≤ s → s < x.scenarios →
      (∃ v, x.boundValue .ninf b' t? s? = .ok v ∧ ∀ q, v.isBelow q ↔ aboveOpt (x.constants c) b q t s) ∧
      ∃ v, x.boundValue .pinf b' t? s? = .ok v ∧ ∀ q, v.isAbove q ↔ belowOpt (x.constants c) b q t s := by
  cases b with
  | none => exact ⟨none, rfl, fun t? s? t s _ _ _ _ => ⟨⟨_, rfl, fun q => Iff.rfl⟩, _, rfl, fun q => Iff.rfl⟩⟩
  | some b =>
    obtain ⟨b', h1, -, -, h2⟩ := bound_ok hx hc ports (h b rfl)
    refine ⟨some b', by simp [instantiateBound, h1], fun t? s? t s ht hs h0 h3 => ?_⟩
    obtain ⟨v, hv, hq⟩ := h2 t? s? t s ht hs h0 h3
    exact ⟨⟨v, hv, fun q => (hq q).1⟩, v, hv, fun q => (hq q).2⟩

theorem not_crossed {lo up : Num} {q : ℚ} (h1 : lo.isBelow q) (h2 : up.isAbove q) : up.lt lo = false := by
  cases lo with
  | fin a =>
    cases up with
    | fin b =>
      have h1' : a ≤ q := h1
      have h2' : q ≤ b := h2
      simp only [Num.lt, Num.le, Num.eqb, Bool.and_eq_false_iff, Bool.not_eq_false', decide_eq_false_iff_not, decide_eq_true_eq]
      by_cases h : b ≤ a
      · exact .inr (by rw [le_antisymm h (h1'.trans h2')])
      · exact .inl h
    | pinf => rfl
    | ninf => exact h2.elim
    | nan => exact h2.elim
  | ninf => cases up <;> first | rfl | exact h2.elim
  | pinf => exact h1.elim
  | nan => exact h1.elim

/-! ### Columns -/

theorem createVariables_ok {x : OptCtx} (hx : x.Buildable) (ports : PortExprs) (st : OptState) :
    ∃ st', x.createVariables ports st = .ok st' := by
  have hT : 0 < x.T := T_pos hx.data
  obtain ⟨st', h, -⟩ := loop_ok (fun _ => True) x.network.allComponents (f := fun st c => loop (x.createVariablesOf ports c.id)
    (x.strategy.getVariables c.model) st) (fun c hc st _ => by
      refine loop_ok (fun _ => True) _ (fun v hv st _ => ?_) st trivial
      obtain ⟨f1, f2, f3⟩ := hx.variables_ c hc v hv
      obtain ⟨lb, l1, l2⟩ := boundOpt_ok hx hc ports f1
      obtain ⟨ub, u1, u2⟩ := boundOpt_ok hx hc ports f2
      simp only [createVariablesOf, l1, u1, ok_bind]
      refine loop_ok (fun _ => True) _ (fun ts hts st _ => ?_) st trivial
      obtain ⟨t?, s?⟩ := ts
      simp only [variableIndices, List.mem_flatMap, List.mem_map, Prod.mk.injEq, variableTimes_eq, variableScenarios_eq] at hts
      obtain ⟨_, ht, _, hs, rfl, rfl⟩ := hts
      rename_i t? s?
      have ht' : ∃ t : Nat, t < x.T ∧ (t? = some (t : Int) ∨ (t? = none ∧ v.structure_.time = false)) := by
        rw [mem_indexList] at ht
        split at ht
        · obtain ⟨k, hk, rfl⟩ := ht
          exact ⟨k, hk, .inl rfl⟩
        · next hi => exact ⟨0, hT, .inr ⟨ht, by simpa using hi⟩⟩
      have hs' : ∃ s : Nat, s < x.scenarios ∧ (s? = some (s : Int) ∨ (s? = none ∧ v.structure_.scenario = false)) := by
        rw [mem_indexList] at hs
        split at hs
        · obtain ⟨k, hk, rfl⟩ := hs
          exact ⟨k, hk, .inl rfl⟩
        · next hi => exact ⟨0, hx.scenarios, .inr ⟨hs, by simpa using hi⟩⟩
      obtain ⟨t, ht1, ht2⟩ := ht'
      obtain ⟨s, hs1, hs2⟩ := hs'
      obtain ⟨q, q1, q2⟩ := f3 t s ht1 hs1
      obtain ⟨⟨lo, b1, b2⟩, -⟩ := l2 t? s? t s ht2 hs2 (by omega) (by exact_mod_cast hs1)
      obtain ⟨-, up, b3, b4⟩ := u2 t? s? t s ht2 hs2 (by omega) (by exact_mod_cast hs1)
      simp only [createVariable, b1, b3, ok_bind, not_crossed ((b2 q).2 q1) ((b4 q).2 q2), Bool.false_eq_true, if_false]
      exact ⟨_, rfl, trivial⟩) st trivial
  exact ⟨st', h⟩

/-! ### Rows -/

/-- all instances have a column -/
def ColumnsOk (x : OptCtx) (cols : Dict TermKey Nat) : Prop := ∀ n ∈ x.instances, ∃ i, cols.get? n.key = some i

theorem componentVariable_of {x : OptCtx} (hx : x.DataOk) {cols : Dict TermKey Nat} (hc : ColumnsOk x cols) {k : TermKey}
    (h : x.KeyOk k) : ∃ i, x.componentVariable cols k = .ok i := by
  obtain ⟨n, hn, hk⟩ := h
  obtain ⟨i, hi⟩ := hc n hn
  refine ⟨i, ?_⟩
  rw [componentVariable_eq hx.cycle (by have := T_pos hx; omega), Props.get_ok_iff', ← hk]
  exact hi

theorem createConstraints_ok {x : OptCtx} (hx : x.Buildable) {ports : PortExprs}
    (hreg : registerConnections x.network.connections [] = .ok ports) (st : OptState) (hcol : ColumnsOk x st.columns) :
    ∃ st', x.createConstraints ports st = .ok st' := by
  obtain ⟨st', h, -⟩ := loop_ok (fun st => ColumnsOk x st.columns) x.network.allComponents
    (f := fun st c => loop (x.createConstraintOf ports c.id) (x.strategy.getConstraints c.model) st) (fun c hc st hcol => by
      refine loop_ok _ _ (fun k hk st hcol => ?_) st hcol
      obtain ⟨f1, f2, f3, f4, f5⟩ := hx.constraints c hc k hk
      obtain ⟨e, e1, e2, -⟩ := instantiate_usable hx hreg hc f1
      obtain ⟨lb, l1, l2, l3, l4⟩ := bound_ok hx hc ports (f2 _ rfl)
      obtain ⟨ub, u1, u2, u3, u4⟩ := bound_ok hx hc ports (f3 _ rfl)
      have hl : lb ≠ .lit .pinf := by
        rcases l3 with rfl | ⟨q, hq⟩
        · exact f4
        · intro he
          cases hq _ he
      have hu : ub ≠ .lit .ninf := by
        rcases u3 with rfl | ⟨q, hq⟩
        · exact f5
        · intro he
          cases hq _ he
      have hm := (((Props.c17_accepted_iff { name := c.id ++ "_" ++ k.name, expression := e, lowerBound := lb, upperBound := ub }).2
        (by rintro l r o rfl; simp [Fits] at e2)).1 _).2 ⟨rfl, l2, u2, hl, hu⟩
      obtain ⟨e', g1, g2, -⟩ := expand_pfits hx e e2
      obtain ⟨i, hi⟩ := indexation_ok hx.network e e2
      have g1' : x.expandOperators e = .ok e' := g1
      simp only [createConstraintOf, e1, l1, u1, hm, ok_bind, createConstraint, g1', constraintIndexing, computeIndexing, hi]
      refine loop_ok (fun st => ColumnsOk x st.columns) _ (fun t ht st hcol => ?_) st hcol
      refine loop_ok (fun st => ColumnsOk x st.columns) _ (fun s hs st hcol => ?_) st hcol
      have hs' : 0 ≤ s ∧ s < x.scenarios := by
        have hS := hx.scenarios
        unfold scenarioIndices at hs
        split at hs
        · obtain ⟨j, hj, rfl⟩ := pyRange_mem.1 hs
          exact ⟨by omega, by exact_mod_cast hj⟩
        · obtain ⟨j, hj, rfl⟩ := pyRange_mem.1 (show s ∈ pyRange 0 ((1 : Nat) : Int) from hs)
          exact ⟨by omega, by omega⟩
      obtain ⟨l, n1, n2⟩ := linearize_fits hx g2 t s hs'.1 hs'.2
      obtain ⟨lo, b1, -⟩ := l4 (some t) (some s) t s (.inl rfl) (.inl rfl) hs'.1 hs'.2
      obtain ⟨up, b2, -⟩ := u4 (some t) (some s) t s (.inl rfl) (.inl rfl) hs'.1 hs'.2
      obtain ⟨coefs, hcoefs, -⟩ := loop_ok (fun _ => True) l.terms.values (f := fun (coefs : Dict Nat Num) (term : Term) => do
          let i ← x.componentVariable st.columns term.key
          .ok (coefs.set i (term.coefficient + coefOf coefs i))) (fun u hu coefs _ => by
            obtain ⟨i, hi⟩ := componentVariable_of hx.data hcol (n2 u hu)
            exact ⟨_, by simp only [hi, ok_bind]; rfl, trivial⟩) [] trivial
      have hcoefs' : x.rowCoefs st.columns l.terms.values [] = .ok coefs := hcoefs
      simp only [createRow, n1, b1, b2, ok_bind, makeConstraint, hcoefs']
      exact ⟨_, rfl, hcol⟩) st hcol
  exact ⟨st', h⟩

/-! ### Objective -/

/-- state in which terms can be added to the objective -/
structure ObjReady (x : OptCtx) (st : OptState) : Prop where
  columns : ColumnsOk x st.columns
  range : ∀ k i, st.columns.get? k = some i → ∃ v, st.solver.vars[i]? = some v
  infos : ∀ v ∈ st.solver.vars, ∃ i, st.infos.get? v.name = some i

theorem objectiveTerm_ok {x : OptCtx} (hx : x.DataOk) {st : OptState} (h : ObjReady x st) {u : Term} (hu : x.KeyOk u.key) :
    ∃ st', x.objectiveTerm st u = .ok st' ∧ ObjReady x st' := by
  obtain ⟨i, hi⟩ := componentVariable_of hx h.columns hu
  obtain ⟨v, hv⟩ := h.range _ _ (componentVariable_ok hi)
  obtain ⟨info, hinfo⟩ := h.infos v (List.mem_of_getElem? hv)
  simp only [objectiveTerm, hi, ok_bind, hv, (Props.get_ok_iff' _ _ _).2 hinfo]
  refine ⟨_, rfl, h.columns, h.range, fun w hw => ?_⟩
  show ∃ i, (st.infos.set v.name _).get? w.name = some i
  rw [Dict.get?_set]
  split
  · exact ⟨_, rfl⟩
  · exact h.infos w hw

theorem createObjectives_ok {x : OptCtx} (hx : x.Buildable) {ports : PortExprs}
    (hreg : registerConnections x.network.connections [] = .ok ports) (st : OptState) (h0 : ObjReady x st) :
    ∃ st', x.createObjectives ports st = .ok st' := by
  obtain ⟨st', h, -⟩ := loop_ok (ObjReady x) x.network.allComponents
    (f := fun st c => loop (x.createObjectiveOf ports c.id) (x.strategy.objectives c.model) st) (fun c hc st h0 => by
      refine loop_ok (ObjReady x) _ (fun o ho st h0 => ?_) st h0
      cases o with
      | none => exact ⟨st, rfl, h0⟩
      | some e0 =>
        have he : x.risk e0 ∈ x.contributions c := List.mem_map_of_mem (List.mem_filterMap.2 ⟨some e0, ho, rfl⟩)
        obtain ⟨f1, f2, f3⟩ := hx.objectives c hc _ he
        obtain ⟨e, e1, e2, -⟩ := instantiate_usable hx hreg hc f1
        obtain ⟨e', g1, g2, -⟩ := expand_pfits hx e e2
        have g1' : x.expandOperators e = .ok e' := g1
        have hctx := (instantiate_noPort f2 e1).1
        have hgc := Props.getComponent_of_mem hx.network hc
        have hs : Props.StructsOf x.expandCtx c.id c.model := by
          constructor
          · intro n v hv
            simp only [OptCtx.expandCtx, OptCtx.structures, hgc, ok_bind, (Props.get_ok_iff' _ _ _).2 hv]
          · intro n v hv
            simp only [OptCtx.expandCtx, OptCtx.structures, hgc, ok_bind, (Props.get_ok_iff' _ _ _).2 hv]
        have hi := Props.structsOf_idx hs f3 hctx
        obtain ⟨l, n1, n2⟩ := linearize_fits hx g2 0 0 le_rfl (by exact_mod_cast hx.scenarios)
        have hl : x.linearize e' none none = .ok l := by
          rw [← n1]
          unfold OptCtx.linearize
          exact (Props.c07_time_linear x.expandCtx e e' _ hi rfl g1 none (some 0) none _).trans
            (Props.c07_scenario_linear x.expandCtx e e' _ hi rfl g1 (some 0) none (some 0) _)
        obtain ⟨st2, m1, m2⟩ := loop_ok (ObjReady x) l.terms.values (f := x.objectiveTerm)
          (fun u hu st h0 => objectiveTerm_ok hx.data h0 (n2 u hu)) st h0
        simp only [createObjectiveOf, createObjective, e1, g1', hl, m1, ok_bind]
        exact ⟨_, rfl, m2.columns, m2.range, m2.infos⟩) st h0
  exact ⟨st', h⟩

theorem problem_ok {x : OptCtx} (hx : x.Buildable) : ∃ st, x.buildProblem = .ok st := by
  obtain ⟨ports, hreg⟩ := registerConnections_ok x.network.connections hx.network.accepted (networkOk_clean hx.network) []
  have hreq := Props.c23_accepts x.database x.network
    (fun c hc => fun n p hp => (hx.parameters c (List.mem_append_right _ hc)).1 n p hp)
    (fun c hc => (hx.parameters c (List.mem_append_right _ hc)).2) (fun c hc n p hp => by
      obtain ⟨d, h1, h2, -⟩ := hx.complete c (List.mem_append_right _ hc) n p hp
      exact ⟨d, (Props.get_ok_iff' _ _ _).2 h1, h2⟩)
  obtain ⟨st1, h1⟩ := createVariables_ok hx ports {}
  have hv := createVariables_inv h1
  obtain ⟨st2, h2⟩ := createConstraints_ok hx hreg st1 hv.complete
  obtain ⟨k1, k2, k3, -⟩ := createConstraints_keep h2
  obtain ⟨st3, h3⟩ := createObjectives_ok hx hreg st2 ⟨by rw [k2]; exact hv.complete, by
    rw [k2, k1]
    intro k i hk
    obtain ⟨n, hn, -⟩ := hv.sound k i hk
    obtain ⟨v, h, -⟩ := (forall₂_getElem hv.vars).1 n hn
    exact ⟨v, h⟩, by
    rw [k1, k3]
    intro v hm
    obtain ⟨n, hn, r⟩ := forall₂_mem_right hv.vars hm
    obtain ⟨_, _, lo, up, _, _, _, _, _, rfl⟩ := r.made
    have : (solverVar n.var.dataType (x.instName n) lo up).name = x.instName n := by
      unfold solverVar
      cases n.var.dataType <;> rfl
    rw [this]
    exact hv.named n hn⟩
  exact ⟨st3, by simp only [buildProblem, makeProblem, hreq, hreg, h1, h2, h3, ok_bind]⟩

end Verif
