import Verif.Spec.Compared
import Verif.Spec.Rearranged
import Verif.Spec.SameProblem

/-!
# Prices of any models, and the same problem with other prices
-/

namespace Verif

/-- `e` has none of the parameters `p` -/
def Expr.Without (p : String → Prop) (e : Expr) : Prop := ∀ n, Expr.par n ∈ e.subs → ¬ p n

/-- each term of `e` has one of the parameters `p` as a factor, once, and not in a divisor or in a number of timesteps -/
inductive Expr.Proportional (p : String → Prop) : Expr → Prop
  | price (n : String) : p n → Proportional p (.par n)
  | zero : Proportional p (.lit 0)
  | neg {e : Expr} : Proportional p e → Proportional p (.neg e)
  | add {es : List Expr} : (∀ e ∈ es, Proportional p e) → Proportional p (.add es)
  | mulLeft {l r : Expr} : Proportional p l → r.Without p → Proportional p (.mul l r)
  | mulRight {l r : Expr} : l.Without p → Proportional p r → Proportional p (.mul l r)
  | div {l r : Expr} : Proportional p l → r.Without p → Proportional p (.div l r)
  | shift {e n : Expr} : Proportional p e → n.Without p → Proportional p (.shift e n)
  | evalT {e n : Expr} : Proportional p e → n.Without p → Proportional p (.evalT e n)
  | tsum {e a b : Expr} : Proportional p e → a.Without p → b.Without p → Proportional p (.tsum e a b)
  | allsum {e : Expr} : Proportional p e → Proportional p (.allsum e)
  | scen {e : Expr} {o : ScenOp} : Proportional p e → Proportional p (.scen e o)

namespace OptCtx

/-- The parameters `p` of components are prices: bounds, constraints and what goes through ports have none, and costs are proportional to
them. -/
structure Prices (p : Component → String → Prop) (x : OptCtx) : Prop where
  bounds : ∀ c ∈ x.network.allComponents, ∀ v ∈ x.strategy.getVariables c.model, ∀ b, v.lowerBound = some b ∨ v.upperBound = some b →
    b.Without (p c)
  constraints : ∀ c ∈ x.network.allComponents, ∀ k ∈ x.strategy.getConstraints c.model, ∀ b,
    b = k.expression ∨ b = k.lowerBound ∨ b = k.upperBound → b.Without (p c)
  ports : ∀ j ∈ x.network.connections, ∀ q f d, (q = j.port1 ∨ q = j.port2) → q.fieldDef f = some d → d.Without (p q.component)
  costs : ∀ c ∈ x.network.allComponents, ∀ e ∈ x.contributions c, e.Proportional (p c)

/-- `y` is the problem `x` with other values of the parameters `p`. -/
structure OtherPrices (p : Component → String → Prop) (x y : OptCtx) : Prop where
  network : y.network = x.network
  length : y.timesteps.length = x.timesteps.length
  scenarios : y.scenarios = x.scenarios
  strategy : y.strategy = x.strategy
  risk : y.risk = x.risk
  others : ∀ c ∈ x.network.allComponents, ∀ n, ¬ p c n → ∀ t s : Int, 0 ≤ s → s < x.scenarios →
    y.parameterAt c.id n t s = x.parameterAt c.id n t s

/-- `y` is the problem `x` with the parameters `p` multiplied by `k`. -/
structure Repriced (k : ℚ) (p : Component → String → Prop) (x y : OptCtx) : Prop where
  network : y.network = x.network
  length : y.timesteps.length = x.timesteps.length
  scenarios : y.scenarios = x.scenarios
  strategy : y.strategy = x.strategy
  risk : y.risk = x.risk
  prices : ∀ c ∈ x.network.allComponents, ∀ n, p c n → ∀ t s : Int, 0 ≤ s → s < x.scenarios →
    y.parameterAt c.id n t s = k * x.parameterAt c.id n t s
  others : ∀ c ∈ x.network.allComponents, ∀ n, ¬ p c n → ∀ t s : Int, 0 ≤ s → s < x.scenarios →
    y.parameterAt c.id n t s = x.parameterAt c.id n t s

/-- no coefficient of a cost is smaller than `1e-16` -/
def PricesKept (x : OptCtx) : Prop := ∀ c ∈ x.network.allComponents, ∀ e ∈ x.contributions c, x.NoTiny c e 0 0

end OptCtx

/-- No coefficient of a cost of the problem that the command makes of the files is smaller than `1e-16` (such coefficients are dropped). -/
def PricesKeptRun (parser : Parser) (os : Nat → SetOrder) (fuel : Nat) (d : Disk) (f : CliFlags) : Prop :=
  ∀ paths comp tables ls libs s sys net db, Names d f paths comp tables → ReadAs d paths ls →
    resolveLibrary parser os fuel ls = some (.ok libs) → d.system comp = .ok s → resolveSystem s libs = .ok sys → buildNetwork sys = .ok net →
    buildDataBase (d.study s tables f).load s = .ok db → (f.problem net db).PricesKept

end Verif
