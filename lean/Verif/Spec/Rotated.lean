import Verif.Spec.SameProblem
import Verif.Spec.Dependence

/-!
# The same cyclic block, started at another timestep

The timestep after the last one of a block is the first one.  So the block can be read from any of its timesteps: this is the problem where all
time series are read `r` timesteps later.
-/

namespace Verif.OptCtx

/-- `x'` is the problem `x` with all time series read `r` timesteps later: same network, length of the block, scenarios and strategies, and at
timestep `t` the parameters have the values that they have in `x` at timestep `t + r` of the cyclic block. -/
structure Rotated (r : Int) (x x' : OptCtx) : Prop where
  network : x'.network = x.network
  length : x'.timesteps.length = x.timesteps.length
  scenarios : x'.scenarios = x.scenarios
  strategy : x'.strategy = x.strategy
  risk : x'.risk = x.risk
  data : ∀ c ∈ x.network.allComponents, ∀ n t s, 0 ≤ s → s < (x.scenarios : Int) → x'.parameterAt c.id n t s = x.parameterAt c.id n (t + r) s

/-- the values of the variables, read `r` timesteps later in a cyclic block of `T` timesteps -/
def later (r : Int) (T : Nat) (σ : TermKey → ℚ) : TermKey → ℚ := fun k => σ { k with time := k.time.map fun t => (t + r) % T }

/-- `e`, read in component `id`, is made of numbers and of parameters that do not depend on time -/
def Steady (x : OptCtx) (id : String) (e : Expr) : Prop :=
  ∀ y ∈ e.subs, y.isPortRef = false ∧ (∀ n, y ≠ .var n) ∧ ∀ n, y = .par n → (x.parIdx id n).time = false

/-- Expression `e` of component `id` singles out no timestep: no `x[k]` with a fixed timestep `k`, and the shifts and the bounds of sums over
time do not depend on time. -/
structure NoClock (x : OptCtx) (id : String) (e : Expr) : Prop where
  fixed : ∀ y k, Expr.evalT y k ∉ e.subs
  shifts : ∀ y k, Expr.shift y k ∈ e.subs → x.Steady id k
  sums : ∀ y a b, Expr.tsum y a b ∈ e.subs → x.Steady id a ∧ x.Steady id b

/-- no expression of the study singles out a timestep, and objective contributions do not depend on time -/
structure Clockless (x : OptCtx) : Prop where
  bounds : ∀ c ∈ x.network.allComponents, ∀ v ∈ x.strategy.getVariables c.model, ∀ b, v.lowerBound = some b ∨ v.upperBound = some b →
    x.NoClock c.id b
  constraints : ∀ c ∈ x.network.allComponents, ∀ k ∈ x.strategy.getConstraints c.model, ∀ e,
    e = k.expression ∨ e = k.lowerBound ∨ e = k.upperBound → x.NoClock c.id e
  objectives : ∀ c ∈ x.network.allComponents, ∀ e ∈ x.contributions c, x.NoClock c.id e ∧ (x.dependence c e).time = false
  ports : ∀ k ∈ x.network.connections, ∀ q f d, (q = k.port1 ∨ q = k.port2) → q.fieldDef f = some d → x.NoClock q.component.id d

end Verif.OptCtx

namespace Verif

/-- `J` is the study `I` with all time series read `r` timesteps later: the same system file, number of timesteps and scenarios, and tables where,
at each timestep of the cyclic block, every parameter has the value that it has in `I` at the timestep that is `r` later. -/
structure StudyInput.Rotated (r : Int) (I J : StudyInput) : Prop where
  system : J.system = I.system
  length : J.steps.length = I.steps.length
  scenarios : J.scenarios = I.scenarios
  values : ∀ c ∈ I.declared, ∀ p ∈ c.parameters, ∀ t, ∀ s : Nat, s < I.scenarios →
    declaredEntry J.load p (J.step t) s = declaredEntry I.load p (I.step (t + r)) s

/-- The study has no component of the only shipped model that singles out a timestep: a short-term storage fixes its level at the first one. -/
def StudyInput.Clockless (I : StudyInput) : Prop := ∀ c ∈ I.declared, c.model ≠ "antares-historic.short-term-storage"

end Verif
