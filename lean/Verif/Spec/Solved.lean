import Verif.Spec.Units
import Verif.Spec.BetweenAny

/-!
# Studies that differ by loads, capacities and other amounts
-/

namespace Verif

/-- `y` is the problem `x` with other numbers added: it has the same network, number of timesteps, scenarios and strategies, and the value of each bound,
constraint and cost differs by a number that does not depend on the variables. -/
structure OptCtx.SameCoefficients (x y : OptCtx) : Prop where
  network : y.network = x.network
  length : y.timesteps.length = x.timesteps.length
  scenarios : y.scenarios = x.scenarios
  strategy : y.strategy = x.strategy
  risk : y.risk = x.risk
  bounds : ∀ c ∈ x.network.allComponents, ∀ v ∈ x.strategy.getVariables c.model, ∀ b, v.lowerBound = some b ∨ v.upperBound = some b →
    ∀ t s : Nat, t < x.T → s < x.scenarios → ∃ d : ℚ, ∀ var,
      mden (y.readAs (y.unwrapped var) c) b t s = mden (x.readAs (x.unwrapped var) c) b t s + d
  constraints : ∀ c ∈ x.network.allComponents, ∀ k ∈ x.strategy.getConstraints c.model, ∀ b,
    b = k.expression ∨ b = k.lowerBound ∨ b = k.upperBound → ∀ t s : Nat, t < x.T → s < x.scenarios → ∃ d : ℚ, ∀ var,
      mden (y.readAs (y.unwrapped var) c) b t s = mden (x.readAs (x.unwrapped var) c) b t s + d
  costs : ∀ c ∈ x.network.allComponents, ∀ e ∈ x.contributions c, ∃ d : ℚ, ∀ var,
    mden (y.readAs (y.unwrapped var) c) e 0 0 = mden (x.readAs (x.unwrapped var) c) e 0 0 + d

/-- the parameters of the shipped models that are added to variables or are their bounds, and are not factors of variables: loads, capacities and other
energies, except the sizes of generating units, and numbers of units -/
def amounts : List String :=
  ["load", "capacity_direct", "capacity_indirect", "nominal_capacity", "generation", "p_min_cluster", "p_max_cluster", "reservoir_capacity",
   "injection_nominal_capacity", "withdrawal_nominal_capacity", "inflows", "max_load", "p_max", "p_set", "q_set", "p_nom_min", "p_nom_max", "e_sum_min",
   "e_sum_max", "inflow", "e_nom_min", "e_nom_max", "quota", "nb_units_min", "nb_units_max", "nb_units_max_variation_forward",
   "nb_units_max_variation_backward"]

/-- `J` is the study `I` with other loads, capacities and other amounts. -/
structure StudyInput.OtherAmounts (I J : StudyInput) : Prop extends I.SameParts J where
  others : ∀ c ∈ I.declared, ∀ n, n ∉ amounts → ∀ t s : Nat, t < I.steps.length → s < I.scenarios → J.parameter c.id n t s = I.parameter c.id n t s

end Verif
