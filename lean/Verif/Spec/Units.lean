import Verif.Spec.Compared

/-!
# A study that is `k` times as large, and a study in another unit of energy
-/

namespace Verif

/-- the parameters of the shipped models that are given in units of power or energy, or of emissions -/
def energies : List String :=
  ["load", "capacity_direct", "capacity_indirect", "nominal_capacity", "generation", "p_min_cluster", "p_max_cluster", "p_min_unit", "p_max_unit",
   "reservoir_capacity", "injection_nominal_capacity", "withdrawal_nominal_capacity", "inflows", "max_load", "p_max", "p_set", "q_set", "p_nom_min",
   "p_nom_max", "e_sum_min", "e_sum_max", "inflow", "e_nom_min", "e_nom_max", "quota"]

/-- the parameters of the shipped models that are costs per unit of power or energy -/
def energyPrices : List String :=
  ["spillage_cost", "ens_cost", "generation_cost", "curtailment_price", "marginal_cost", "spill_cost", "marginal_cost_storage", "capital_cost"]

/-- the costs per generating unit, whatever its size -/
def unitPrices : List String := ["startup_cost", "fixed_cost"]

/-- `J` is the study `I` when everything is `k` times as large: loads, capacities, stored energy, emission quotas, and the costs of starting and
running a generating unit, which becomes larger.  Other parameters have the same values: costs per unit of energy, efficiencies, relative
limits, numbers of generating units, durations. -/
structure StudyInput.Enlarged (k : ℚ) (I J : StudyInput) : Prop extends I.SameParts J where
  sizes : ∀ c ∈ I.declared, ∀ n, n ∈ energies ∨ n ∈ unitPrices → ∀ t s : Nat, t < I.steps.length → s < I.scenarios →
    J.parameter c.id n t s = k * I.parameter c.id n t s
  others : ∀ c ∈ I.declared, ∀ n, n ∉ energies → n ∉ unitPrices → ∀ t s : Nat, t < I.steps.length → s < I.scenarios →
    J.parameter c.id n t s = I.parameter c.id n t s

/-- `J` is the study `I` in another unit of energy, `k` of which make the first one: powers, energies and emissions are multiplied by `k`, costs per
unit of energy are divided by `k`, and the other parameters have the same values. -/
structure StudyInput.InOtherUnit (k : ℚ) (I J : StudyInput) : Prop extends I.SameParts J where
  energies : ∀ c ∈ I.declared, ∀ n ∈ energies, ∀ t s : Nat, t < I.steps.length → s < I.scenarios →
    J.parameter c.id n t s = k * I.parameter c.id n t s
  prices : ∀ c ∈ I.declared, ∀ n ∈ energyPrices, ∀ t s : Nat, t < I.steps.length → s < I.scenarios →
    J.parameter c.id n t s = I.parameter c.id n t s / k
  others : ∀ c ∈ I.declared, ∀ n, n ∉ Verif.energies → n ∉ energyPrices → ∀ t s : Nat, t < I.steps.length → s < I.scenarios →
    J.parameter c.id n t s = I.parameter c.id n t s

/-- no component is a thermal cluster -/
def StudyInput.WithoutThermal (I : StudyInput) : Prop := ∀ c ∈ I.declared, c.model ≠ "antares-historic.thermal"

/-- the variables of the shipped models that count generating units -/
def unitCounts : List String := ["nb_units_on", "nb_starting", "nb_stopping", "nb_failing"]

/-- the values `σ` of the variables with powers and energies `k` times as large, and the same numbers of units -/
def enlargedValues (k : ℚ) (σ : TermKey → ℚ) : TermKey → ℚ := fun κ => if κ.var ∈ unitCounts then σ κ else k * σ κ

end Verif
