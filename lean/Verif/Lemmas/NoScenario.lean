import Verif.Spec.Decomposition
import Verif.Lemmas.Problem
import Verif.Props.Problem

/-! A problem whose selected part does not depend on the scenario is the same with no scenario as with one. -/

namespace Verif
open Expr OptCtx

/-- what is built from a plain expression has no scenario operator -/
theorem expand_scenarios (x : ExpandCtx) (n : Nat) (e : Expr) (h : ∀ y ∈ e.subs, y.isScen = false) :
    expand { x with scenarios := n } e = expand x e := by
  induction e using Expr.ind with
  | lit | var | par | cvar | cpar | pvar | ppar | portField => rfl
  | neg e ih => simp only [expand, ih fun y hy => h y (by simp [subs, hy])]
  | add es ih =>
    have : expandList { x with scenarios := n } es = expandList x es := by
      have h' : ∀ e ∈ es, ∀ y ∈ e.subs, y.isScen = false := fun e he y hy => h y (mem_subs_add.2 (.inr ⟨e, he, hy⟩))
      clear h
      induction es with
      | nil => rfl
      | cons e es ihl =>
        simp only [expandList, ih e (by simp) (h' e (by simp)), ihl (fun e he => ih e (by simp [he])) fun e he => h' e (by simp [he])]
    simp only [expand, this]
  | mul l r ihl ihr | div l r ihl ihr | cmp l r _ ihl ihr =>
    simp only [expand, ihl fun y hy => h y (by simp [subs, hy]), ihr fun y hy => h y (by simp [subs, hy])]
  | shift e k ih _ | evalT e k ih _ => simp only [expand, ih fun y hy => h y (by simp [subs, hy])]
  | tsum e a b ih _ _ => simp only [expand, ih fun y hy => h y (by simp [subs, hy])]
  | allsum e ih => simp only [expand, ih fun y hy => h y (by simp [subs, hy])]
  | scen e o => exact absurd (h _ (mem_subs_self _)) (by simp [isScen])
  | agg e a ih => simp only [expand, ih fun y hy => h y (by simp [subs, hy])]

theorem loop_congr {σ α} {f g : σ → α → R σ} (l : List α) (h : ∀ a ∈ l, ∀ st, f st a = g st a) (st : σ) :
    loop f l st = loop g l st := by
  induction l generalizing st with
  | nil => rfl
  | cons a l ih =>
    rw [loop_cons, loop_cons, h a (by simp)]
    congr 1
    funext s
    exact ih (fun b hb => h b (by simp [hb])) s

theorem plain_flags {y : Expr} (h : y.isPlain = true) : y.isPortRef = false ∧ y.isScen = false ∧ y.isCmp = false ∧
    y.isTimeFixing = false ∧ y.hasComponent = false := by
  cases y <;> simp_all [isPlain, isPortRef, isScen, isCmp, isTimeFixing, hasComponent]

theorem static_idx {c : Component} (e : Expr) (hp : ∀ y ∈ e.subs, y.isPlain = true)
    (hv : ∀ n, Expr.var n ∈ e.subs → ∃ v, c.model.variables_.get? n = some v ∧ v.structure_ = ⟨false, false⟩ ∧ v.IsDecision)
    (hq : ∀ n, Expr.par n ∈ e.subs → ∃ p, c.model.parameters.get? n = some p ∧ p.structure_ = ⟨false, false⟩) :
    computeIndexation c.model.structures e = .ok ⟨false, false⟩ := by
  induction e using Expr.ind with
  | lit => rfl
  | var n =>
    obtain ⟨v, h1, h2, -⟩ := hv n (mem_subs_self _)
    simp only [computeIndexation, Model.structures, (Props.get_ok_iff' _ _ _).2 h1, ok_bind, h2]
  | par n =>
    obtain ⟨v, h1, h2⟩ := hq n (mem_subs_self _)
    simp only [computeIndexation, Model.structures, (Props.get_ok_iff' _ _ _).2 h1, ok_bind, h2]
  | neg e ih =>
    exact ih (fun y hy => hp y (by simp [subs, hy])) (fun n h => hv n (by simp [subs, h])) fun n h => hq n (by simp [subs, h])
  | add es ih =>
    have h' : ∀ e ∈ es, computeIndexation c.model.structures e = .ok ⟨false, false⟩ := fun e he =>
      ih e he (fun y hy => hp y (mem_subs_add.2 (.inr ⟨e, he, hy⟩))) (fun n h => hv n (mem_subs_add.2 (.inr ⟨e, he, h⟩)))
        fun n h => hq n (mem_subs_add.2 (.inr ⟨e, he, h⟩))
    have hrest : ∀ es : List Expr, (∀ e ∈ es, computeIndexation c.model.structures e = .ok ⟨false, false⟩) →
        combineRest c.model.structures ⟨false, false⟩ es = .ok ⟨false, false⟩ := by
      intro es
      induction es with
      | nil => intro _; rfl
      | cons e es ihl =>
        intro h
        simp only [combineRest, h e (by simp), ok_bind]
        exact ihl fun e he => h e (by simp [he])
    cases es with
    | nil => rfl
    | cons e es =>
      simp only [computeIndexation, combineFirst, h' e (by simp), ok_bind]
      exact hrest es fun e he => h' e (by simp [he])
  | mul l r ihl ihr | div l r ihl ihr =>
    have h1 := ihl (fun y hy => hp y (by simp [subs, hy])) (fun n h => hv n (by simp [subs, h])) fun n h => hq n (by simp [subs, h])
    have h2 := ihr (fun y hy => hp y (by simp [subs, hy])) (fun n h => hv n (by simp [subs, h])) fun n h => hq n (by simp [subs, h])
    simp only [computeIndexation, h1, h2, ok_bind]
    rfl
  | cvar | cpar | pvar | ppar | portField | cmp | shift | evalT | tsum | allsum | scen | agg =>
    exact absurd (hp _ (mem_subs_self _)) (by simp [isPlain])

theorem Component.Static.idx {c : Component} {e : Expr} (h : c.Static e) :
    computeIndexation c.model.structures e = .ok ⟨false, false⟩ := static_idx e h.plain h.vars h.pars

theorem Component.Static.noPort {c : Component} {e : Expr} (h : c.Static e) : ∀ y ∈ e.subs, y.isPortRef = false :=
  fun y hy => (plain_flags (h.plain y hy)).1

/-- the instantiation of a static expression has no scenario operator -/
theorem static_instantiate {c : Component} {e e' : Expr} (h : c.Static e) {ports : PortExprs}
    (hi : instantiate e c.id ports = .ok e') : (∀ y ∈ e'.subs, y.isScen = false) ∧ addComponentContext c.id e = .ok e' := by
  obtain ⟨hctx, -⟩ := instantiate_noPort h.noPort hi
  refine ⟨?_, hctx⟩
  refine addComponentContext_inner c.id (fun y => y.isScen = false) ?_ (fun y hy => ?_) e e' ?_ hctx
  · exact ⟨⟨fun _ => rfl, fun _ _ _ => rfl, fun _ _ _ _ _ => rfl, fun _ _ _ _ _ => rfl, fun _ _ _ _ _ _ => rfl,
      fun _ _ _ _ _ => rfl, fun _ _ _ _ _ => rfl, fun _ _ _ _ _ _ _ => rfl, fun _ _ _ => rfl, fun _ _ _ h => by simp [isScen] at h⟩,
      fun _ _ _ _ => rfl⟩
  · cases y <;> simp_all [isHookLeaf, isScen]
  · exact fun y hy => (plain_flags (h.plain y hy)).2.1

namespace OptCtx

/-- the same problem with another number of scenarios -/
def withScenarios (x : OptCtx) (n : Nat) : OptCtx := { x with scenarios := n }

/-- what the strategy selects does not depend on the scenario -/
structure SelectsStatic (x : OptCtx) : Prop where
  structure_ : ∀ c ∈ x.network.allComponents, ∀ v ∈ x.strategy.getVariables c.model, v.structure_ = ⟨false, false⟩
  constraints : ∀ c ∈ x.network.allComponents, ∀ k ∈ x.strategy.getConstraints c.model, c.Static k.expression
  objective : ∀ c ∈ x.network.allComponents, ∀ e, some e ∈ x.strategy.objectives c.model → c.Static (x.risk e)

theorem structs_of {x : OptCtx} (hn : x.NetworkOk) {c : Component} (hc : c ∈ x.network.allComponents) :
    Props.StructsOf x.expandCtx c.id c.model := by
  have hgc := Props.getComponent_of_mem hn hc
  constructor
  · intro n v hv
    simp only [OptCtx.expandCtx, OptCtx.structures, hgc, ok_bind, (Props.get_ok_iff' _ _ _).2 hv]
  · intro n v hv
    simp only [OptCtx.expandCtx, OptCtx.structures, hgc, ok_bind, (Props.get_ok_iff' _ _ _).2 hv]

theorem createConstraintOf_scenarios {x : OptCtx} (hn : x.NetworkOk) {c : Component} (hc : c ∈ x.network.allComponents)
    {k : Constraint} (hk : c.Static k.expression) (n : Nat) (ports : PortExprs) (st : OptState) :
    (x.withScenarios n).createConstraintOf ports c.id st k = x.createConstraintOf ports c.id st k := by
  unfold createConstraintOf
  cases h1 : instantiate k.expression c.id ports with
  | error => rfl
  | ok e =>
    obtain ⟨hs, hctx⟩ := static_instantiate hk h1
    have hidx : computeIndexation x.structures e = .ok ⟨false, false⟩ := Props.structsOf_idx (structs_of hn hc) hk.idx hctx
    simp only [ok_bind]
    cases h2 : instantiate k.lowerBound c.id ports with
    | error => rfl
    | ok lb =>
      cases h3 : instantiate k.upperBound c.id ports with
      | error => rfl
      | ok ub =>
        simp only [ok_bind]
        have hcmp : e.isCmp = false := by
          have : ∀ y ∈ e.subs, y.isCmp = false := by
            refine addComponentContext_inner c.id (fun y => y.isCmp = false) ?_ (fun y hy => ?_) k.expression e ?_ hctx
            · exact ⟨⟨fun _ => rfl, fun _ _ _ => rfl, fun _ _ _ _ _ => rfl, fun _ _ _ _ _ => rfl,
                fun _ _ _ _ _ h => by simp [isCmp] at h,
                fun _ _ _ _ _ => rfl, fun _ _ _ _ _ => rfl, fun _ _ _ _ _ _ _ => rfl, fun _ _ _ => rfl, fun _ _ _ _ => rfl⟩,
                fun _ _ _ _ => rfl⟩
            · cases y <;> simp_all [isHookLeaf, isCmp]
            · exact fun y hy => (plain_flags (hk.plain y hy)).2.2.1
          exact this e (mem_subs_self _)
        cases h4 : Constraint.make { name := c.id ++ "_" ++ k.name, expression := e, lowerBound := lb, upperBound := ub } with
        | error => rfl
        | ok k' =>
          have := make_nocmp hcmp h4
          subst this
          simp only [ok_bind]
          unfold createConstraint
          have he : (x.withScenarios n).expandOperators e = x.expandOperators e := expand_scenarios x.expandCtx n e hs
          simp only [he]
          cases h5 : x.expandOperators e with
          | error => rfl
          | ok e2 =>
            have hi1 : x.constraintIndexing { name := c.id ++ "_" ++ k.name, expression := e, lowerBound := lb, upperBound := ub } = .ok ⟨false, false⟩ := hidx
            have hi2 : (x.withScenarios n).constraintIndexing { name := c.id ++ "_" ++ k.name, expression := e, lowerBound := lb, upperBound := ub } = .ok ⟨false, false⟩ := hidx
            simp only [ok_bind, hi1, hi2]
            rfl

theorem createObjectiveOf_scenarios {x : OptCtx} {c : Component} {e : Expr} (he : c.Static (x.risk e)) (n : Nat)
    (ports : PortExprs) (st : OptState) :
    (x.withScenarios n).createObjectiveOf ports c.id st (some e) = x.createObjectiveOf ports c.id st (some e) := by
  show (x.withScenarios n).createObjective ports c.id st (x.risk e) = x.createObjective ports c.id st (x.risk e)
  unfold createObjective
  cases h1 : instantiate (x.risk e) c.id ports with
  | error => rfl
  | ok e1 =>
    obtain ⟨hs, -⟩ := static_instantiate he h1
    simp only [ok_bind]
    have he : (x.withScenarios n).expandOperators e1 = x.expandOperators e1 := expand_scenarios x.expandCtx n e1 hs
    simp only [he]
    rfl

/-- With nothing that depends on the scenario, the number of scenarios (none or one) does not matter. -/
theorem build_scenarios {x : OptCtx} (hn : x.NetworkOk) (hs : x.SelectsStatic) (n : Nat) :
    (x.withScenarios n).buildProblem = x.buildProblem := by
  unfold buildProblem makeProblem
  have h1 : ∀ ports st, (x.withScenarios n).createVariables ports st = x.createVariables ports st := by
    intro ports st
    refine loop_congr _ (fun c hc st => ?_) st
    refine loop_congr _ (fun v hv st => ?_) st
    have hv' := hs.structure_ c hc v hv
    unfold createVariablesOf
    rw [hv']
    rfl
  have h2 : ∀ ports st, (x.withScenarios n).createConstraints ports st = x.createConstraints ports st := by
    intro ports st
    refine loop_congr _ (fun c hc st => ?_) st
    refine loop_congr _ (fun k hk st => ?_) st
    exact createConstraintOf_scenarios hn hc (hs.constraints c hc k hk) n ports st
  have h3 : ∀ ports st, (x.withScenarios n).createObjectives ports st = x.createObjectives ports st := by
    intro ports st
    refine loop_congr _ (fun c hc st => ?_) st
    refine loop_congr _ (fun e he st => ?_) st
    cases e with
    | none => rfl
    | some e => exact createObjectiveOf_scenarios (hs.objective c hc e he) n ports st
  simp only [h1, h2, h3]
  rfl

end OptCtx
end Verif
