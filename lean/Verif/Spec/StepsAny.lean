import Verif.Spec.Rotated

/-!
# A problem over a block of any models, and the problems over its timesteps one by one
-/

namespace Verif

/-- an operator that reads its operand at other timesteps -/
def Expr.isTimeOp : Expr → Bool
  | .shift .. => true
  | .evalT .. => true
  | .tsum .. => true
  | .allsum _ => true
  | _ => false

namespace OptCtx

/-- `x'` is the problem `x` at timestep `k` of its block alone: same network, scenarios and strategies, one timestep, and parameters that have
the values that they have in `x` at this timestep. -/
structure AtStep (x : OptCtx) (k : Nat) (x' : OptCtx) : Prop where
  network : x'.network = x.network
  length : x'.timesteps.length = 1
  scenarios : x'.scenarios = x.scenarios
  strategy : x'.strategy = x.strategy
  risk : x'.risk = x.risk
  data : ∀ c ∈ x.network.allComponents, ∀ n s, 0 ≤ s → s < (x.scenarios : Int) → x'.parameterAt c.id n 0 s = x.parameterAt c.id n k s

/-- Expression `e` of component `id` is about one timestep: it has no time operator and its variables have one value for each timestep. -/
structure Instant (x : OptCtx) (id : String) (e : Expr) : Prop where
  operators : ∀ y ∈ e.subs, y.isTimeOp = false
  variables_ : ∀ n, .var n ∈ e.subs → (x.varIdx id n).time = true

/-- Expression `e` of component `id` is a sum over the timesteps of something that is about one timestep: it is built from such sums by sums,
opposites, expectations, and products with and quotients by something that does not depend on time. -/
inductive Summed (x : OptCtx) (id : String) : Expr → Prop
  | block {e} : x.Instant id e → Summed x id (.allsum e)
  | add {es} : (∀ e ∈ es, Summed x id e) → Summed x id (.add es)
  | neg {e} : Summed x id e → Summed x id (.neg e)
  | scen {e o} : Summed x id e → Summed x id (.scen e o)
  | mulLeft {a e} : x.Instant id a → x.Steady id a → Summed x id e → Summed x id (.mul a e)
  | mulRight {a e} : x.Instant id a → x.Steady id a → Summed x id e → Summed x id (.mul e a)
  | div {a e} : x.Instant id a → x.Steady id a → Summed x id e → Summed x id (.div e a)

/-- nothing links the timesteps of the block: variables have one value for each timestep, bounds, constraints and what goes through ports are
about one timestep, and costs are sums over the timesteps -/
structure Unlinked (x : OptCtx) : Prop where
  variables_ : ∀ c ∈ x.network.allComponents, ∀ v ∈ x.strategy.getVariables c.model, v.structure_.time = true
  bounds : ∀ c ∈ x.network.allComponents, ∀ v ∈ x.strategy.getVariables c.model, ∀ b, v.lowerBound = some b ∨ v.upperBound = some b →
    x.Instant c.id b
  constraints : ∀ c ∈ x.network.allComponents, ∀ k ∈ x.strategy.getConstraints c.model, ∀ e,
    e = k.expression ∨ e = k.lowerBound ∨ e = k.upperBound → x.Instant c.id e
  objectives : ∀ c ∈ x.network.allComponents, ∀ e ∈ x.contributions c, x.Summed c.id e
  ports : ∀ k ∈ x.network.connections, ∀ q f d, (q = k.port1 ∨ q = k.port2) → q.fieldDef f = some d → x.Instant q.component.id d

/-- where the expression of a constraint does not depend on time, its bounds do not either (else they count at the first timestep only) -/
def SteadyBounds (x : OptCtx) : Prop :=
  ∀ c ∈ x.network.allComponents, ∀ k ∈ x.strategy.getConstraints c.model, (x.dependence c k.expression).time = false →
    ∀ b, b = k.lowerBound ∨ b = k.upperBound → ∀ (σ : TermKey → ℚ) (t s : Nat), t < x.T → s < x.scenarios →
      mden (x.readIn σ c) b t s = mden (x.readIn σ c) b 0 s

end OptCtx
end Verif
