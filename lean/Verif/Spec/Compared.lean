import Verif.Spec.ShippedStudy

/-!
# Two studies that differ by the values of some parameters

One with prices in another currency, and one with looser limits.
-/

namespace Verif

/-- `J` has the components, models and connections of `I`, and as many timesteps and scenarios.  Parameters may have other values. -/
structure StudyInput.SameParts (I J : StudyInput) : Prop where
  components : J.declared.map (fun c => (c.id, c.model)) = I.declared.map fun c => (c.id, c.model)
  connections : J.system.connections = I.system.connections
  length : J.steps.length = I.steps.length
  scenarios : J.scenarios = I.scenarios

/-- the parameters of the shipped models that are prices -/
def prices : List String :=
  ["spillage_cost", "ens_cost", "generation_cost", "startup_cost", "fixed_cost", "curtailment_price", "marginal_cost", "spill_cost",
   "marginal_cost_storage", "capital_cost"]

/-- `J` is the study `I` with all prices multiplied by `k`. -/
structure StudyInput.Repriced (k : ℚ) (I J : StudyInput) : Prop extends I.SameParts J where
  prices : ∀ c ∈ I.declared, ∀ n ∈ prices, ∀ t s : Nat, t < I.steps.length → s < I.scenarios →
    J.parameter c.id n t s = k * I.parameter c.id n t s
  others : ∀ c ∈ I.declared, ∀ n, n ∉ Verif.prices → ∀ t s : Nat, t < I.steps.length → s < I.scenarios →
    J.parameter c.id n t s = I.parameter c.id n t s

/-- The limits that parameters set in a model, from the values of the parameters at a timestep in a scenario. -/
structure Limits where
  /-- the parameters that only occur in these limits -/
  parameters : List String := []
  /-- something must be at most this -/
  upper : List ((String → ℚ) → ℚ) := []
  /-- something must be at least this -/
  lower : List ((String → ℚ) → ℚ) := []

/-- the limits of the shipped models -/
def Limits.shipped : List (String × Limits) :=
  [("antares-historic.link",
    { parameters := ["capacity_direct", "capacity_indirect"], upper := [(· "capacity_direct"), (· "capacity_indirect")] }),
   ("antares-historic.thermal",
    { parameters := ["p_min_cluster", "p_max_cluster", "nb_units_min", "nb_units_max", "nb_units_max_variation_forward",
        "nb_units_max_variation_backward"]
      upper := [(· "p_max_cluster"), (· "nb_units_max"), (· "nb_units_max_variation_forward"), (· "nb_units_max_variation_backward")]
      lower := [(· "p_min_cluster"), (· "nb_units_min")] }),
   ("antares-historic.short-term-storage",
    { parameters := ["injection_nominal_capacity", "withdrawal_nominal_capacity", "lower_rule_curve", "upper_rule_curve",
        "p_max_injection_modulation", "p_max_withdrawal_modulation"]
      upper := [fun p => p "p_max_injection_modulation" * p "injection_nominal_capacity",
        fun p => p "p_max_withdrawal_modulation" * p "withdrawal_nominal_capacity", fun p => p "upper_rule_curve" * p "reservoir_capacity"]
      lower := [fun p => p "lower_rule_curve" * p "reservoir_capacity"] }),
   ("andromede-v1-models.electrolyser", { parameters := ["p_max"], upper := [(· "p_max")] }),
   ("andromede-v1-models.battery",
    { parameters := ["reservoir_capacity", "injection_nominal_capacity", "withdrawal_nominal_capacity", "lower_rule_curve", "upper_rule_curve",
        "p_max_injection_modulation", "p_max_withdrawal_modulation"]
      upper := [fun p => p "p_max_injection_modulation" * p "injection_nominal_capacity",
        fun p => p "p_max_withdrawal_modulation" * p "withdrawal_nominal_capacity", fun p => p "upper_rule_curve" * p "reservoir_capacity"]
      lower := [fun p => p "lower_rule_curve" * p "reservoir_capacity"] }),
   ("pypsa_models.generator",
    { parameters := ["p_nom_min", "p_nom_max", "e_sum_min", "e_sum_max"], upper := [(· "p_nom_max"), (· "e_sum_max")]
      lower := [(· "p_nom_min"), (· "e_sum_min")] }),
   ("pypsa_models.link", { parameters := ["p_nom_min", "p_nom_max"], upper := [(· "p_nom_max")], lower := [(· "p_nom_min")] }),
   ("pypsa_models.storage_unit",
    { parameters := ["p_nom_min", "p_nom_max"]
      upper := [(· "p_nom_max"), fun p => p "p_max_pu" * p "p_nom_max", fun p => p "max_hours" * p "p_nom_max"]
      lower := [(· "p_nom_min")] }),
   ("pypsa_models.store", { parameters := ["e_nom_min", "e_nom_max"], upper := [(· "e_nom_max")], lower := [(· "e_nom_min")] }),
   ("pypsa_models.global_constraint_co2_max", { parameters := ["quota"], upper := [(· "quota")] })]

/-- the limits of a shipped model, by its name -/
def Limits.named (ref : String) : Limits := ((Limits.shipped.find? fun e => e.1 = ref).map (·.2)).getD {}

/-- `J` is the study `I` with looser limits: no upper limit is lower, no lower limit is higher, at any timestep in any scenario, and the
parameters that do not occur in limits only have the same values. -/
structure StudyInput.Looser (I J : StudyInput) : Prop extends I.SameParts J where
  upper : ∀ c ∈ I.declared, ∀ f ∈ (Limits.named c.model).upper, ∀ t s : Nat, t < I.steps.length → s < I.scenarios →
    f (fun n => I.parameter c.id n t s) ≤ f fun n => J.parameter c.id n t s
  lower : ∀ c ∈ I.declared, ∀ f ∈ (Limits.named c.model).lower, ∀ t s : Nat, t < I.steps.length → s < I.scenarios →
    f (fun n => J.parameter c.id n t s) ≤ f fun n => I.parameter c.id n t s
  others : ∀ c ∈ I.declared, ∀ n, n ∉ (Limits.named c.model).parameters → ∀ t s : Nat, t < I.steps.length → s < I.scenarios →
    J.parameter c.id n t s = I.parameter c.id n t s

end Verif
