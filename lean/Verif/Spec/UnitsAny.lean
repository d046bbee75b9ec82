import Verif.Spec.Compared
import Verif.Spec.RepricedAny
import Mathlib.Algebra.Order.Field.Power

/-!
# Quantities of any models, and the same problem in another size

Each symbol of the models gets a power: the values of a symbol of power `w` are multiplied by `k ^ w` when the system becomes `k` times as large.
-/

namespace Verif

/-- the powers of the variables, of the parameters and of the port fields of a component -/
structure Units where
  var : String → ℤ
  par : String → ℤ
  port : String → String → ℤ

/-- `e` has no variable and nothing from a port -/
def Expr.Fixed (e : Expr) : Prop := (∀ n, Expr.var n ∉ e.subs) ∧ ∀ p f, Expr.portField p f ∉ e.subs

/-- `e` is a quantity of power `w`: terms of the same power are added, powers are added in products and subtracted in quotients, at least one
factor and all divisors are without variables, and numbers of timesteps have power 0.  Zero and infinities have any power, other numbers
have power 0. -/
inductive Expr.InUnits (u : Units) : Expr → ℤ → Prop
  | zero (w : ℤ) : InUnits u (.lit 0) w
  | infinite {v : Num} (w : ℤ) : v.isFin = false → InUnits u (.lit v) w
  | number (v : Num) : InUnits u (.lit v) 0
  | unknown (n : String) : InUnits u (.var n) (u.var n)
  | parameter (n : String) : InUnits u (.par n) (u.par n)
  | port (p f : String) : InUnits u (.portField p f) (u.port p f)
  | total (p f : String) (a : PortAgg) : InUnits u (.agg (.portField p f) a) (u.port p f)
  | neg {e : Expr} {w : ℤ} : InUnits u e w → InUnits u (.neg e) w
  | add {es : List Expr} {w : ℤ} : (∀ e ∈ es, InUnits u e w) → InUnits u (.add es) w
  | mul {l r : Expr} {w w' : ℤ} : InUnits u l w → InUnits u r w' → l.Fixed ∨ r.Fixed → InUnits u (.mul l r) (w + w')
  | div {l r : Expr} {w w' : ℤ} : InUnits u l w → InUnits u r w' → r.Fixed → InUnits u (.div l r) (w - w')
  | shift {e n : Expr} {w : ℤ} : InUnits u e w → InUnits u n 0 → n.Fixed → InUnits u (.shift e n) w
  | evalT {e n : Expr} {w : ℤ} : InUnits u e w → InUnits u n 0 → n.Fixed → InUnits u (.evalT e n) w
  | tsum {e a b : Expr} {w : ℤ} : InUnits u e w → InUnits u a 0 → a.Fixed → InUnits u b 0 → b.Fixed → InUnits u (.tsum e a b) w
  | allsum {e : Expr} {w : ℤ} : InUnits u e w → InUnits u (.allsum e) w
  | scen {e : Expr} {o : ScenOp} {w : ℤ} : InUnits u e w → InUnits u (.scen e o) w

namespace OptCtx

/-- The powers `u` are consistent: a variable and its bounds have the same power, which is 0 if the variable takes integer or boolean values;
the two sides of a constraint have the same power; what a connection brings has the power that is expected at both ends; and costs have power
`w`. -/
structure Consistent (u : String → Units) (w : ℤ) (x : OptCtx) : Prop where
  discrete : ∀ c ∈ x.network.allComponents, ∀ v ∈ x.strategy.getVariables c.model, v.dataType = .continuous ∨ (u c.id).var v.name = 0
  bounds : ∀ c ∈ x.network.allComponents, ∀ v ∈ x.strategy.getVariables c.model, ∀ b, v.lowerBound = some b ∨ v.upperBound = some b →
    b.InUnits (u c.id) ((u c.id).var v.name)
  constraints : ∀ c ∈ x.network.allComponents, ∀ k ∈ x.strategy.getConstraints c.model, ∃ z, ∀ b,
    b = k.expression ∨ b = k.lowerBound ∨ b = k.upperBound → b.InUnits (u c.id) z
  ports : ∀ j ∈ x.network.connections, ∀ q f d, (q = j.port1 ∨ q = j.port2) → q.fieldDef f = some d → ∀ r, (r = j.port1 ∨ r = j.port2) →
    d.InUnits (u q.component.id) ((u r.component.id).port r.portId f)
  costs : ∀ c ∈ x.network.allComponents, ∀ e ∈ x.contributions c, e.InUnits (u c.id) w

/-- `y` is the problem `x` with each parameter multiplied by the power of `k` that `u` gives it. -/
structure Rescaled (k : ℚ) (u : String → Units) (x y : OptCtx) : Prop where
  network : y.network = x.network
  length : y.timesteps.length = x.timesteps.length
  scenarios : y.scenarios = x.scenarios
  strategy : y.strategy = x.strategy
  risk : y.risk = x.risk
  data : ∀ c ∈ x.network.allComponents, ∀ n, ∀ t s : Int, 0 ≤ s → s < x.scenarios →
    y.parameterAt c.id n t s = k ^ (u c.id).par n * x.parameterAt c.id n t s

/-- the values `σ` of the variables, each multiplied by the power of `k` of the variable -/
def rescaled (k : ℚ) (u : String → Units) (σ : TermKey → ℚ) : TermKey → ℚ := fun κ => k ^ (u κ.component).var κ.var * σ κ

/-- all variables, and the expressions of all constraints, have power `w` -/
def OnePower (u : String → Units) (w : ℤ) (x : OptCtx) : Prop :=
  (∀ id n, (u id).var n = w) ∧ ∀ c ∈ x.network.allComponents, ∀ k ∈ x.strategy.getConstraints c.model, ∀ b,
    b = k.expression ∨ b = k.lowerBound ∨ b = k.upperBound → b.InUnits (u c.id) w

/-- no coefficient of a constraint or of a cost is smaller than `1e-16` -/
def NoneTiny (x : OptCtx) : Prop := x.PricesKept ∧ ∀ c ∈ x.network.allComponents, ∀ k ∈ x.strategy.getConstraints c.model, ∀ t s : Nat,
  t < x.T → s < x.scenarios → x.NoTiny c k.expression t s

end OptCtx
end Verif
