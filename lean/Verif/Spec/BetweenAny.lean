import Verif.Spec.UnitsAny

/-!
# Problems that lie between two problems, for any models

Some parameters are amounts: loads, capacities, inflows, quotas... They are added to variables and are not multiplied by them.
-/

namespace Verif

/-- `e` has no variable, nothing from a port, and none of the amounts `a` -/
def Expr.Given (a : String → Prop) (e : Expr) : Prop := e.Fixed ∧ e.Without a

/-- `e` is a sum of terms with at most one variable, value from a port or amount of `a` each, as a factor -/
inductive Expr.Mixed (a : String → Prop) : Expr → Prop
  | number (v : Num) : Mixed a (.lit v)
  | unknown (n : String) : Mixed a (.var n)
  | parameter (n : String) : Mixed a (.par n)
  | port (p f : String) : Mixed a (.portField p f)
  | total (p f : String) (g : PortAgg) : Mixed a (.agg (.portField p f) g)
  | neg {e : Expr} : Mixed a e → Mixed a (.neg e)
  | add {es : List Expr} : (∀ e ∈ es, Mixed a e) → Mixed a (.add es)
  | mul {l r : Expr} : Mixed a l → Mixed a r → l.Given a ∨ r.Given a → Mixed a (.mul l r)
  | div {l r : Expr} : Mixed a l → r.Given a → Mixed a (.div l r)
  | shift {e n : Expr} : Mixed a e → n.Given a → Mixed a (.shift e n)
  | evalT {e n : Expr} : Mixed a e → n.Given a → Mixed a (.evalT e n)
  | tsum {e m n : Expr} : Mixed a e → m.Given a → n.Given a → Mixed a (.tsum e m n)
  | allsum {e : Expr} : Mixed a e → Mixed a (.allsum e)
  | scen {e : Expr} {o : ScenOp} : Mixed a e → Mixed a (.scen e o)

namespace OptCtx

/-- The parameters `a` of the components are added: in bounds, constraints, costs and definitions of port fields they are not multiplied by a variable
or by each other. -/
structure Additive (a : String → String → Prop) (x : OptCtx) : Prop where
  bounds : ∀ c ∈ x.network.allComponents, ∀ v ∈ x.strategy.getVariables c.model, ∀ b, v.lowerBound = some b ∨ v.upperBound = some b →
    b.Mixed (a c.id)
  constraints : ∀ c ∈ x.network.allComponents, ∀ k ∈ x.strategy.getConstraints c.model, ∀ b,
    b = k.expression ∨ b = k.lowerBound ∨ b = k.upperBound → b.Mixed (a c.id)
  ports : ∀ j ∈ x.network.connections, ∀ q f d, (q = j.port1 ∨ q = j.port2) → q.fieldDef f = some d → d.Mixed (a q.component.id)
  costs : ∀ c ∈ x.network.allComponents, ∀ e ∈ x.contributions c, e.Mixed (a c.id)

/-- The parameters `a` of the components are amounts: they are added, and no variable is restricted to integers. -/
structure Amounts (a : String → String → Prop) (x : OptCtx) : Prop extends x.Additive a where
  continuous : ∀ c ∈ x.network.allComponents, ∀ v ∈ x.strategy.getVariables c.model, v.dataType = .continuous

/-- `y` is the problem `x` with other values of the amounts `a`. -/
structure OtherAmounts (a : String → String → Prop) (x y : OptCtx) : Prop where
  network : y.network = x.network
  length : y.timesteps.length = x.timesteps.length
  scenarios : y.scenarios = x.scenarios
  strategy : y.strategy = x.strategy
  risk : y.risk = x.risk
  data : ∀ c ∈ x.network.allComponents, ∀ n, ¬ a c.id n → ∀ t s : Int, 0 ≤ s → s < x.scenarios → y.parameterAt c.id n t s = x.parameterAt c.id n t s

/-- the amounts in `z` lie between those in `x`, counted `m` times, and those in `y`, counted `1 - m` times -/
def AmountsBetween (m : ℚ) (a : String → String → Prop) (x y z : OptCtx) : Prop :=
  ∀ c ∈ z.network.allComponents, ∀ n, a c.id n → ∀ t s : Int, 0 ≤ s → s < z.scenarios →
    z.parameterAt c.id n t s = m * x.parameterAt c.id n t s + (1 - m) * y.parameterAt c.id n t s

end OptCtx

/-- the values between `σ`, counted `m` times, and `τ`, counted `1 - m` times -/
def between (m : ℚ) (σ τ : TermKey → ℚ) : TermKey → ℚ := fun κ => m * σ κ + (1 - m) * τ κ

end Verif
