import Verif.Spec.Rotated
import Verif.Spec.Dependence
import Verif.Spec.Scenarios

/-!
# A problem over several scenarios of any models, and the problems over its scenarios one by one
-/

namespace Verif

mutual
/-- the data in scenario `k` alone, as scenario 0: series indexed by scenarios are read in the column that scenario `k` uses -/
def Data.inScenario (k : Int) : Data → Data
  | .const v => .const v
  | .timeSeries d => .timeSeries d
  | .scenarioSeries d z => .scenarioSeries d (some (column k z))
  | .timeScenarioSeries f z => .timeScenarioSeries f (some (column k z))
  | .tree ds => .tree (Data.allInScenario k ds)
/-- the same for the data of all nodes -/
def Data.allInScenario (k : Int) : List (String × Data) → List (String × Data)
  | [] => []
  | (n, d) :: ds => (n, Data.inScenario k d) :: Data.allInScenario k ds
/-- scenario 0 uses the column that scenario `k` uses -/
def column (k : Int) (z : Option Scenarization) : Scenarization :=
  match z with
  | none => [(0, k)]
  | some z =>
    match Dict.get? z k with
    | some j => [(0, j)]
    | none => []
end

namespace OptCtx

/-- `x'` is the problem `x` in scenario `k` alone: same network, length of the block and strategies, one scenario, and parameters that have the
values that they have in `x` in this scenario. -/
structure InScenario (x : OptCtx) (k : Nat) (x' : OptCtx) : Prop where
  network : x'.network = x.network
  length : x'.timesteps.length = x.timesteps.length
  scenarios : x'.scenarios = 1
  strategy : x'.strategy = x.strategy
  risk : x'.risk = x.risk
  data : ∀ c ∈ x.network.allComponents, ∀ n t, x'.parameterAt c.id n t 0 = x.parameterAt c.id n t k

/-- `e`, read in component `id`, is made of numbers and of parameters that do not depend on the scenario -/
def Sure (x : OptCtx) (id : String) (e : Expr) : Prop :=
  ∀ y ∈ e.subs, y.isPortRef = false ∧ (∀ n, y ≠ .var n) ∧ ∀ n, y = .par n → (x.parIdx id n).scenario = false

/-- `e`, read in component `id`, is made of numbers and of variables and parameters that do not depend on the scenario -/
def Certain (x : OptCtx) (id : String) (e : Expr) : Prop :=
  ∀ y ∈ e.subs, y.isPortRef = false ∧ (∀ n, y = .var n → (x.varIdx id n).scenario = false) ∧ ∀ n, y = .par n → (x.parIdx id n).scenario = false

/-- Expression `e` of component `id` is about one scenario: it has no scenario operator, and shifts, timesteps and bounds of sums over time do not
depend on the scenario. -/
structure PerScenario (x : OptCtx) (id : String) (e : Expr) : Prop where
  operators : ∀ y ∈ e.subs, y.isScen = false
  shifts : ∀ y k, Expr.shift y k ∈ e.subs → x.Sure id k
  fixed : ∀ y k, Expr.evalT y k ∈ e.subs → x.Sure id k
  sums : ∀ y a b, Expr.tsum y a b ∈ e.subs → x.Sure id a ∧ x.Sure id b

/-- Expression `e` of component `id` is an expectation: it is built from expectations of something about one scenario, and from what does not
depend on the scenario, by sums, also over the block, opposites, and products with and quotients by something that does not depend on the scenario. -/
inductive Expected (x : OptCtx) (id : String) : Expr → Prop
  | certain {e} : x.PerScenario id e → x.Certain id e → Expected x id e
  | scen {e o} : x.PerScenario id e → Expected x id (.scen e o)
  | add {es} : (∀ e ∈ es, Expected x id e) → Expected x id (.add es)
  | block {e} : Expected x id e → Expected x id (.allsum e)
  | neg {e} : Expected x id e → Expected x id (.neg e)
  | mulLeft {a e} : x.PerScenario id a → x.Sure id a → Expected x id e → Expected x id (.mul a e)
  | mulRight {a e} : x.PerScenario id a → x.Sure id a → Expected x id e → Expected x id (.mul e a)
  | div {a e} : x.PerScenario id a → x.Sure id a → Expected x id e → Expected x id (.div e a)

/-- bounds, constraints and what goes through ports are about one scenario, and costs are expectations -/
structure Separate (x : OptCtx) : Prop where
  bounds : ∀ c ∈ x.network.allComponents, ∀ v ∈ x.strategy.getVariables c.model, ∀ b, v.lowerBound = some b ∨ v.upperBound = some b →
    x.PerScenario c.id b
  constraints : ∀ c ∈ x.network.allComponents, ∀ k ∈ x.strategy.getConstraints c.model, ∀ e,
    e = k.expression ∨ e = k.lowerBound ∨ e = k.upperBound → x.PerScenario c.id e
  objectives : ∀ c ∈ x.network.allComponents, ∀ e ∈ x.contributions c, x.Expected c.id e
  ports : ∀ k ∈ x.network.connections, ∀ q f d, (q = k.port1 ∨ q = k.port2) → q.fieldDef f = some d → x.PerScenario q.component.id d

/-- `e` is one of the expressions that the problem takes from component `c` -/
inductive ExprOf (x : OptCtx) (c : Component) : Expr → Prop
  | bound {v b} : v ∈ x.strategy.getVariables c.model → v.lowerBound = some b ∨ v.upperBound = some b → ExprOf x c b
  | constraint {k e} : k ∈ x.strategy.getConstraints c.model → e = k.expression ∨ e = k.lowerBound ∨ e = k.upperBound → ExprOf x c e
  | objective {e} : e ∈ x.contributions c → ExprOf x c e
  | port {k q f d} : k ∈ x.network.connections → (q = k.port1 ∨ q = k.port2) → q.component = c → q.fieldDef f = some d → ExprOf x c d

/-- all choices can be made after the scenario is known: all variables have one value for each scenario -/
structure ChosenPerScenario (x : OptCtx) : Prop where
  selected : ∀ c ∈ x.network.allComponents, ∀ v ∈ x.strategy.getVariables c.model, v.structure_.scenario = true
  named : ∀ c ∈ x.network.allComponents, ∀ e, x.ExprOf c e → ∀ n, .var n ∈ e.subs → (x.varIdx c.id n).scenario = true

/-- bounds of constraints whose expression does not depend on the scenario are the same in all scenarios -/
def SureBounds (x : OptCtx) : Prop :=
  ∀ c ∈ x.network.allComponents, ∀ k ∈ x.strategy.getConstraints c.model, (x.dependence c k.expression).scenario = false →
    ∀ b, b = k.lowerBound ∨ b = k.upperBound → ∀ (σ : TermKey → ℚ) (t s : Nat), t < x.T → s < x.scenarios →
      mden (x.readIn σ c) b t s = mden (x.readIn σ c) b t 0

end OptCtx
end Verif
