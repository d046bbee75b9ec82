import Verif.Model.Library
import Verif.Model.Parse

/-!
# The libraries that come with the code

The contents of src/andromede/libs/antares_historic/antares_historic.yml, src/andromede/libs/reference_models/andromede_v1_models.yml and
src/andromede/libs/pypsa_models/pypsa_models.yml, as `parse_yaml_library` (model/parsing.py 19-24) gives them: comments are dropped, keys can
be written with `-` or `_` (utils.py 81-88), numbers given as bounds become texts (model/parsing.py 43-44).  Descriptions are left out.
-/

namespace Verif.Shipped

open Verif

/-- model `area`: antares_historic.yml 23-38 -/
def antaresArea : InputModel where
  id := "area"
  parameters := [
    { id := "spillage_cost" },
    { id := "ens_cost" }]
  variables_ := [
    { id := "spillage", lowerBound := some "0" },
    { id := "unsupplied_energy", lowerBound := some "0" }]
  ports := [⟨"balance_port", "flow"⟩]
  bindingConstraints := [
    { id := "balance", expression := "sum_connections(balance_port.flow) = spillage - unsupplied_energy" }]
  objective := some "expec(sum(spillage_cost * spillage + ens_cost * unsupplied_energy))"

/-- model `load`: antares_historic.yml 40-51 -/
def antaresLoad : InputModel where
  id := "load"
  parameters := [
    { id := "load", timeDependent := true, scenarioDependent := true }]
  ports := [⟨"balance_port", "flow"⟩]
  portFieldDefinitions := [
    ⟨"balance_port", "flow", "-load"⟩]

/-- model `link`: antares_historic.yml 53-83 -/
def antaresLink : InputModel where
  id := "link"
  parameters := [
    { id := "capacity_direct", timeDependent := true, scenarioDependent := true },
    { id := "capacity_indirect", timeDependent := true, scenarioDependent := true }]
  variables_ := [
    { id := "flow_direct", lowerBound := some "0", upperBound := some "capacity_direct" },
    { id := "flow_indirect", lowerBound := some "0", upperBound := some "capacity_indirect" },
    { id := "flow" }]
  ports := [⟨"out_port", "flow"⟩, ⟨"in_port", "flow"⟩]
  portFieldDefinitions := [
    ⟨"out_port", "flow", "flow"⟩,
    ⟨"in_port", "flow", "-flow"⟩]
  constraints := [
    { id := "flow_direct_indirect", expression := "flow = flow_direct - flow_indirect" }]

/-- model `renewable`: antares_historic.yml 85-98 -/
def antaresRenewable : InputModel where
  id := "renewable"
  parameters := [
    { id := "nominal_capacity" },
    { id := "unit_count" },
    { id := "generation", timeDependent := true, scenarioDependent := true }]
  ports := [⟨"balance_port", "flow"⟩]
  portFieldDefinitions := [
    ⟨"balance_port", "flow", "generation"⟩]

/-- model `thermal`: antares_historic.yml 100-166 -/
def antaresThermal : InputModel where
  id := "thermal"
  parameters := [
    { id := "p_min_cluster", timeDependent := true, scenarioDependent := true },
    { id := "p_max_cluster", timeDependent := true, scenarioDependent := true },
    { id := "p_min_unit" },
    { id := "p_max_unit" },
    { id := "generation_cost" },
    { id := "startup_cost" },
    { id := "fixed_cost" },
    { id := "d_min_up" },
    { id := "d_min_down" },
    { id := "nb_units_min", timeDependent := true, scenarioDependent := true },
    { id := "nb_units_max", timeDependent := true, scenarioDependent := true },
    { id := "nb_units_max_variation_forward", timeDependent := true, scenarioDependent := true },
    { id := "nb_units_max_variation_backward", timeDependent := true, scenarioDependent := true }]
  variables_ := [
    { id := "generation", lowerBound := some "p_min_cluster", upperBound := some "p_max_cluster" },
    { id := "nb_units_on", lowerBound := some "nb_units_min", upperBound := some "nb_units_max", variableType := "integer" },
    { id := "nb_starting", lowerBound := some "0", upperBound := some "nb_units_max", variableType := "integer" },
    { id := "nb_stopping", lowerBound := some "0", variableType := "integer" },
    { id := "nb_failing", lowerBound := some "0" }]
  ports := [⟨"balance_port", "flow"⟩]
  portFieldDefinitions := [
    ⟨"balance_port", "flow", "generation"⟩]
  constraints := [
    { id := "max_generation", expression := "generation <= nb_units_on * p_max_unit" },
    { id := "min_generation", expression := "generation >= nb_units_on * p_min_unit" },
    { id := "on_units_dynamics", expression := "nb_units_on = nb_units_on[t-1] + nb_starting - nb_stopping" },
    { id := "nb_failing_lower_than_stopping", expression := "nb_failing <= nb_stopping" },
    { id := "nb_failing_lower_than_max_variation", expression := "nb_failing <= nb_units_max_variation_forward" },
    { id := "min_up_duration", expression := "sum(t-d_min_up + 1 .. t, nb_starting - nb_failing) <= nb_units_on" },
    { id := "min_down_duration", expression := "sum(t-d_min_down + 1 .. t, nb_stopping) <= nb_units_max[t-d_min_down] - nb_units_on + sum(t-d_min_down + 1 .. t, nb_units_max_variation_backward)" }]
  objective := some "expec(sum(generation_cost * generation + startup_cost * nb_starting + fixed_cost * nb_units_on))"

/-- model `short-term-storage`: antares_historic.yml 168-224 -/
def antaresShortTermStorage : InputModel where
  id := "short-term-storage"
  parameters := [
    { id := "reservoir_capacity" },
    { id := "injection_nominal_capacity" },
    { id := "withdrawal_nominal_capacity" },
    { id := "efficiency_injection" },
    { id := "efficiency_withdrawal" },
    { id := "lower_rule_curve", timeDependent := true, scenarioDependent := true },
    { id := "upper_rule_curve", timeDependent := true, scenarioDependent := true },
    { id := "p_max_injection_modulation", timeDependent := true, scenarioDependent := true },
    { id := "p_max_withdrawal_modulation", timeDependent := true, scenarioDependent := true },
    { id := "inflows", timeDependent := true, scenarioDependent := true },
    { id := "initial_level" }]
  variables_ := [
    { id := "p_injection", lowerBound := some "0", upperBound := some "p_max_injection_modulation * injection_nominal_capacity" },
    { id := "p_withdrawal", lowerBound := some "0", upperBound := some "p_max_withdrawal_modulation * withdrawal_nominal_capacity" },
    { id := "level", lowerBound := some "lower_rule_curve * reservoir_capacity", upperBound := some "upper_rule_curve * reservoir_capacity" }]
  ports := [⟨"injection_port", "flow"⟩]
  portFieldDefinitions := [
    ⟨"injection_port", "flow", "p_withdrawal - p_injection"⟩]
  constraints := [
    { id := "initial_level", expression := "level[0] = initial_level * reservoir_capacity" },
    { id := "Level equation", expression := "level[t+1] = level + efficiency_injection * p_injection - efficiency_withdrawal * p_withdrawal + inflows" }]

/-- the library of antares_historic.yml -/
def antaresInput : InputLibrary where
  id := "antares-historic"
  portTypes := [⟨"flow", ["flow"]⟩]
  models := [antaresArea, antaresLoad, antaresLink, antaresRenewable, antaresThermal, antaresShortTermStorage]

/-- model `dsr`: andromede_v1_models.yml 23-42 -/
def andromedeDsr : InputModel where
  id := "dsr"
  parameters := [
    { id := "max_load", timeDependent := true, scenarioDependent := true },
    { id := "curtailment_price" }]
  variables_ := [
    { id := "curtailment", lowerBound := some "0", upperBound := some "max_load" }]
  ports := [⟨"balance_port", "flow"⟩]
  portFieldDefinitions := [
    ⟨"balance_port", "flow", "-max_load + curtailment"⟩]
  objective := some "expec(sum(curtailment * curtailment_price))"

/-- model `electrolyser`: andromede_v1_models.yml 45-68 -/
def andromedeElectrolyser : InputModel where
  id := "electrolyser"
  parameters := [
    { id := "efficiency" },
    { id := "p_max", timeDependent := true, scenarioDependent := true }]
  variables_ := [
    { id := "power", lowerBound := some "0", upperBound := some "p_max" }]
  ports := [⟨"power_port", "flow"⟩, ⟨"hydrogen_port", "flow"⟩]
  portFieldDefinitions := [
    ⟨"power_port", "flow", "-power"⟩,
    ⟨"hydrogen_port", "flow", "efficiency * power"⟩]

/-- model `battery`: andromede_v1_models.yml 70-124 -/
def andromedeBattery : InputModel where
  id := "battery"
  parameters := [
    { id := "reservoir_capacity" },
    { id := "injection_nominal_capacity" },
    { id := "withdrawal_nominal_capacity" },
    { id := "efficiency_injection" },
    { id := "efficiency_withdrawal" },
    { id := "lower_rule_curve", timeDependent := true, scenarioDependent := true },
    { id := "upper_rule_curve", timeDependent := true, scenarioDependent := true },
    { id := "p_max_injection_modulation", timeDependent := true, scenarioDependent := true },
    { id := "p_max_withdrawal_modulation", timeDependent := true, scenarioDependent := true },
    { id := "marginal_cost", timeDependent := true }]
  variables_ := [
    { id := "p_injection", lowerBound := some "0", upperBound := some "p_max_injection_modulation * injection_nominal_capacity" },
    { id := "p_withdrawal", lowerBound := some "0", upperBound := some "p_max_withdrawal_modulation * withdrawal_nominal_capacity" },
    { id := "level", lowerBound := some "lower_rule_curve * reservoir_capacity", upperBound := some "upper_rule_curve * reservoir_capacity" }]
  ports := [⟨"injection_port", "flow"⟩]
  portFieldDefinitions := [
    ⟨"injection_port", "flow", "p_withdrawal - p_injection"⟩]
  constraints := [
    { id := "level_equation", expression := "level[t+1] = level + efficiency_injection * p_injection - efficiency_withdrawal * p_withdrawal" }]
  objective := some "expec(sum(marginal_cost * p_injection))"

/-- the library of andromede_v1_models.yml -/
def andromedeInput : InputLibrary where
  id := "andromede-v1-models"
  portTypes := [⟨"flow", ["flow"]⟩]
  models := [andromedeDsr, andromedeElectrolyser, andromedeBattery]

/-- model `bus`: pypsa_models.yml 34-68 -/
def pypsaBus : InputModel where
  id := "bus"
  parameters := [
    { id := "v_nom" },
    { id := "x" },
    { id := "y" },
    { id := "v_mag_pu_set", timeDependent := true },
    { id := "v_mag_pu_min" },
    { id := "v_mag_pu_max" }]
  ports := [⟨"p_balance_port", "flow"⟩, ⟨"q_balance_port", "flow"⟩]
  bindingConstraints := [
    { id := "p_balance", expression := "sum_connections(p_balance_port.flow) = 0" },
    { id := "q_balance", expression := "sum_connections(q_balance_port.flow) = 0" }]

/-- model `load`: pypsa_models.yml 70-96 -/
def pypsaLoad : InputModel where
  id := "load"
  parameters := [
    { id := "p_set", timeDependent := true, scenarioDependent := true },
    { id := "q_set", timeDependent := true, scenarioDependent := true },
    { id := "sign" }]
  ports := [⟨"p_balance_port", "flow"⟩, ⟨"q_balance_port", "flow"⟩]
  portFieldDefinitions := [
    ⟨"p_balance_port", "flow", "sign * p_set"⟩,
    ⟨"q_balance_port", "flow", "sign * q_set"⟩]

/-- model `generator`: pypsa_models.yml 98-194 -/
def pypsaGenerator : InputModel where
  id := "generator"
  parameters := [
    { id := "p_nom_min" },
    { id := "p_nom_max" },
    { id := "p_min_pu", timeDependent := true },
    { id := "p_max_pu", timeDependent := true },
    { id := "e_sum_min" },
    { id := "e_sum_max" },
    { id := "sign" },
    { id := "marginal_cost", timeDependent := true },
    { id := "capital_cost" },
    { id := "efficiency", timeDependent := true },
    { id := "emission_factor" }]
  variables_ := [
    { id := "p_nom", timeDependent := false, scenarioDependent := false, lowerBound := some "p_nom_min", upperBound := some "p_nom_max" },
    { id := "p" }]
  ports := [⟨"p_balance_port", "flow"⟩, ⟨"emission_port", "emission"⟩]
  portFieldDefinitions := [
    ⟨"p_balance_port", "flow", "p*sign"⟩,
    ⟨"emission_port", "emission", "p*emission_factor/efficiency"⟩]
  constraints := [
    { id := "min_dispatch", expression := "p >=p_nom * p_min_pu" },
    { id := "max_dispatch", expression := "p <=p_nom * p_max_pu" },
    { id := "min_production", expression := "sum(p) >= e_sum_min" },
    { id := "max_production", expression := "sum(p) <= e_sum_max" }]
  objective := some "expec(sum(marginal_cost * p)) + p_nom * capital_cost"

/-- model `link`: pypsa_models.yml 196-278 -/
def pypsaLink : InputModel where
  id := "link"
  parameters := [
    { id := "efficiency", timeDependent := true },
    { id := "p_nom_min" },
    { id := "p_nom_max" },
    { id := "p_min_pu", timeDependent := true },
    { id := "p_max_pu", timeDependent := true },
    { id := "capital_cost" },
    { id := "marginal_cost", timeDependent := true }]
  variables_ := [
    { id := "p_nom", timeDependent := false, scenarioDependent := false, lowerBound := some "p_nom_min", upperBound := some "p_nom_max" },
    { id := "p0" }]
  ports := [⟨"p0_port", "flow"⟩, ⟨"p1_port", "flow"⟩]
  portFieldDefinitions := [
    ⟨"p0_port", "flow", "-p0"⟩,
    ⟨"p1_port", "flow", "efficiency * p0"⟩]
  constraints := [
    { id := "p0_upper", expression := "p0 <= p_max_pu * p_nom" },
    { id := "p0_lower", expression := "p0 >= p_min_pu * p_nom" }]
  objective := some "expec(sum(marginal_cost * p0)) + capital_cost * p_nom"

/-- model `storage_unit`: pypsa_models.yml 281-384 -/
def pypsaStorageUnit : InputModel where
  id := "storage_unit"
  parameters := [
    { id := "p_nom_min" },
    { id := "p_nom_max" },
    { id := "p_min_pu", timeDependent := true },
    { id := "p_max_pu", timeDependent := true },
    { id := "sign" },
    { id := "spill_cost", timeDependent := true },
    { id := "marginal_cost", timeDependent := true },
    { id := "marginal_cost_storage", timeDependent := true },
    { id := "capital_cost" },
    { id := "max_hours" },
    { id := "efficiency_store", timeDependent := true },
    { id := "efficiency_dispatch", timeDependent := true },
    { id := "standing_loss", timeDependent := true },
    { id := "inflow", timeDependent := true, scenarioDependent := true },
    { id := "emission_factor" }]
  variables_ := [
    { id := "p_nom", timeDependent := false, scenarioDependent := false, lowerBound := some "p_nom_min", upperBound := some "p_nom_max" },
    { id := "p_store", lowerBound := some "0", upperBound := some "p_max_pu * p_nom_max" },
    { id := "p_dispatch", lowerBound := some "0", upperBound := some "p_max_pu * p_nom_max" },
    { id := "state_of_charge", lowerBound := some "0", upperBound := some "max_hours * p_nom_max" },
    { id := "spill", lowerBound := some "0" }]
  ports := [⟨"p_balance_port", "flow"⟩, ⟨"emission_port", "emission"⟩]
  portFieldDefinitions := [
    ⟨"p_balance_port", "flow", "p_dispatch - p_store"⟩,
    ⟨"emission_port", "emission", "emission_factor * 0"⟩]
  constraints := [
    { id := "p_store_upper", expression := "p_store <= p_max_pu * p_nom" },
    { id := "p_dispatch_upper", expression := "p_store <= p_max_pu * p_nom" },
    { id := "state_of_charge_upper", expression := "state_of_charge <= max_hours * p_nom" },
    { id := "state_of_charge_balance", expression := "state_of_charge = (1- standing_loss) * state_of_charge[t-1] + efficiency_store * p_store - p_dispatch / efficiency_dispatch  + inflow - spill" }]
  objective := some "expec(sum(marginal_cost * p_dispatch + spill_cost*spill + marginal_cost_storage * state_of_charge)) + capital_cost * p_nom"

/-- model `store`: pypsa_models.yml 386-461 -/
def pypsaStore : InputModel where
  id := "store"
  parameters := [
    { id := "e_nom_min" },
    { id := "e_nom_max" },
    { id := "e_min_pu", timeDependent := true },
    { id := "e_max_pu", timeDependent := true },
    { id := "sign" },
    { id := "marginal_cost", timeDependent := true },
    { id := "marginal_cost_storage", timeDependent := true },
    { id := "capital_cost" },
    { id := "standing_loss", timeDependent := true },
    { id := "emission_factor" }]
  variables_ := [
    { id := "e_nom", timeDependent := false, scenarioDependent := false, lowerBound := some "e_nom_min", upperBound := some "e_nom_max" },
    { id := "e" },
    { id := "p" }]
  ports := [⟨"p_balance_port", "flow"⟩, ⟨"emission_port", "emission"⟩]
  portFieldDefinitions := [
    ⟨"p_balance_port", "flow", "p"⟩,
    ⟨"emission_port", "emission", "emission_factor * 0"⟩]
  constraints := [
    { id := "e_upper", expression := "e <= e_max_pu * e_nom" },
    { id := "e_lower", expression := "e >= e_min_pu * e_nom" },
    { id := "energy_balance", expression := "e = (1 - standing_loss) * e[t-1] - p" }]
  objective := some "expec(sum(marginal_cost * p + marginal_cost_storage * e)) + capital_cost * e_nom"

/-- model `global_constraint_co2_max`: pypsa_models.yml 467-482 -/
def pypsaGlobalConstraintCo2Max : InputModel where
  id := "global_constraint_co2_max"
  parameters := [
    { id := "quota" }]
  ports := [⟨"emission_port", "emission"⟩]
  bindingConstraints := [
    { id := "constraint_expression", expression := "sum(sum_connections(emission_port.emission)) <= quota" }]

/-- model `global_constraint_co2_eq`: pypsa_models.yml 484-499 -/
def pypsaGlobalConstraintCo2Eq : InputModel where
  id := "global_constraint_co2_eq"
  parameters := [
    { id := "quota" }]
  ports := [⟨"emission_port", "emission"⟩]
  bindingConstraints := [
    { id := "constraint_expression", expression := "sum(sum_connections(emission_port.emission)) = quota" }]

/-- the library of pypsa_models.yml -/
def pypsaInput : InputLibrary where
  id := "pypsa_models"
  portTypes := [⟨"flow", ["flow"]⟩, ⟨"emission", ["emission"]⟩]
  models := [pypsaBus, pypsaLoad, pypsaGenerator, pypsaLink, pypsaStorageUnit, pypsaStore, pypsaGlobalConstraintCo2Max, pypsaGlobalConstraintCo2Eq]

/-- `parse_expression` as `_resolve_model` uses it (resolve_library.py 170-190).  A text for which the visitor returns `None`
(parse_expression.py) is refused here; the code goes on with `None` and fails later or ignores it.  No text of these libraries is of this
kind (`c59_resolved`). -/
def textParser : Parser := fun variables_ parameters text => do
  match ← parseExpression text ⟨variables_, parameters⟩ with
  | .node e => .ok e
  | _ => .error (.attributeError "None")

end Verif.Shipped
