import Verif.Spec.Kept
import Verif.Spec.SameProblem

/-!
# Two problems of any models that differ by limits
-/

namespace Verif.OptCtx

/-- `y` is the problem `x` with looser limits: the same network, number of timesteps, scenarios and strategies, and data such that bounds of
variables accept what they accepted, the expression of a constraint differs by a number that does not depend on the variables, the bounds of the
constraint make up for it, and costs are the same.  Bounds and costs may use other values of the parameters. -/
structure Looser (x y : OptCtx) : Prop where
  network : y.network = x.network
  length : y.timesteps.length = x.timesteps.length
  scenarios : y.scenarios = x.scenarios
  strategy : y.strategy = x.strategy
  risk : y.risk = x.risk
  bounds : ∀ c ∈ x.network.allComponents, ∀ v ∈ x.strategy.getVariables c.model, ∀ t s : Nat, t < x.T → s < x.scenarios → ∀ σ q,
    (aboveOpt (x.readIn σ c) v.lowerBound q t s → aboveOpt (y.readIn σ c) v.lowerBound q t s) ∧
    (belowOpt (x.readIn σ c) v.upperBound q t s → belowOpt (y.readIn σ c) v.upperBound q t s)
  constraints : ∀ c ∈ x.network.allComponents, ∀ k ∈ x.strategy.getConstraints c.model, ∀ t s : Nat, t < x.T → s < x.scenarios → ∃ d : ℚ,
    (∀ var, mden (y.readAs (y.unwrapped var) c) k.expression t s = mden (x.readAs (x.unwrapped var) c) k.expression t s + d) ∧
    ∀ σ q, (aboveBound (x.readIn σ c) k.lowerBound q t s → aboveBound (y.readIn σ c) k.lowerBound (q + d) t s) ∧
      (belowBound (x.readIn σ c) k.upperBound q t s → belowBound (y.readIn σ c) k.upperBound (q + d) t s)
  costs : ∀ c ∈ x.network.allComponents, ∀ e ∈ x.contributions c, ∀ var,
    mden (y.readAs (y.unwrapped var) c) e 0 0 = mden (x.readAs (x.unwrapped var) c) e 0 0

end Verif.OptCtx
