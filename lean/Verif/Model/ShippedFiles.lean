import Verif.Model.Document

/-!
# The shipped library files

The trees of the library files of the code, keys in the order of the files, comments left out.
-/

namespace Verif.Shipped

/-- src/andromede/libs/antares_historic/antares_historic.yml 1-224 -/
def antaresFile : Doc :=
  .map [(some "library", .map [(some "id", .str "antares-historic"), (some "description", .str "Antares historic model library"), (some "port-types", .seq [
      .map [(some "id", .str "flow"), (some "description", .str "A port which transfers power flow"), (some "fields", .seq [
        .map [(some "id", .str "flow")]])]]), (some "models", .seq [
      .map [(some "id", .str "area"), (some "parameters", .seq [
        .map [(some "id", .str "spillage_cost")],
        .map [(some "id", .str "ens_cost")]]), (some "variables", .seq [
        .map [(some "id", .str "spillage"), (some "lower-bound", .int 0)],
        .map [(some "id", .str "unsupplied_energy"), (some "lower-bound", .int 0)]]), (some "ports", .seq [
        .map [(some "id", .str "balance_port"), (some "type", .str "flow")]]), (some "binding-constraints", .seq [
        .map [(some "id", .str "balance"), (some "expression", .str "sum_connections(balance_port.flow) = spillage - unsupplied_energy")]]),
        (some "objective", .str "expec(sum(spillage_cost * spillage + ens_cost * unsupplied_energy))")],
      .map [(some "id", .str "load"), (some "parameters", .seq [
        .map [(some "id", .str "load"), (some "time-dependent", .bool true), (some "scenario-dependent", .bool true)]]), (some "ports", .seq [
        .map [(some "id", .str "balance_port"), (some "type", .str "flow")]]), (some "port-field-definitions", .seq [
        .map [(some "port", .str "balance_port"), (some "field", .str "flow"), (some "definition", .str "-load")]])],
      .map [(some "id", .str "link"), (some "parameters", .seq [
        .map [(some "id", .str "capacity_direct"), (some "time-dependent", .bool true), (some "scenario-dependent", .bool true)],
        .map [(some "id", .str "capacity_indirect"), (some "time-dependent", .bool true), (some "scenario-dependent", .bool true)]]),
        (some "variables", .seq [
        .map [(some "id", .str "flow_direct"), (some "lower-bound", .int 0), (some "upper-bound", .str "capacity_direct")],
        .map [(some "id", .str "flow_indirect"), (some "lower-bound", .int 0), (some "upper-bound", .str "capacity_indirect")],
        .map [(some "id", .str "flow")]]), (some "ports", .seq [
        .map [(some "id", .str "out_port"), (some "type", .str "flow")],
        .map [(some "id", .str "in_port"), (some "type", .str "flow")]]), (some "port-field-definitions", .seq [
        .map [(some "port", .str "out_port"), (some "field", .str "flow"), (some "definition", .str "flow")],
        .map [(some "port", .str "in_port"), (some "field", .str "flow"), (some "definition", .str "-flow")]]), (some "constraints", .seq [
        .map [(some "id", .str "flow_direct_indirect"), (some "expression", .str "flow = flow_direct - flow_indirect")]])],
      .map [(some "id", .str "renewable"), (some "parameters", .seq [
        .map [(some "id", .str "nominal_capacity")],
        .map [(some "id", .str "unit_count")],
        .map [(some "id", .str "generation"), (some "time-dependent", .bool true), (some "scenario-dependent", .bool true)]]),
        (some "ports", .seq [
        .map [(some "id", .str "balance_port"), (some "type", .str "flow")]]), (some "port-field-definitions", .seq [
        .map [(some "port", .str "balance_port"), (some "field", .str "flow"), (some "definition", .str "generation")]])],
      .map [(some "id", .str "thermal"), (some "parameters", .seq [
        .map [(some "id", .str "p_min_cluster"), (some "scenario-dependent", .bool true), (some "time-dependent", .bool true)],
        .map [(some "id", .str "p_max_cluster"), (some "scenario-dependent", .bool true), (some "time-dependent", .bool true)],
        .map [(some "id", .str "p_min_unit")],
        .map [(some "id", .str "p_max_unit")],
        .map [(some "id", .str "generation_cost")],
        .map [(some "id", .str "startup_cost")],
        .map [(some "id", .str "fixed_cost")],
        .map [(some "id", .str "d_min_up")],
        .map [(some "id", .str "d_min_down")],
        .map [(some "id", .str "nb_units_min"), (some "scenario-dependent", .bool true), (some "time-dependent", .bool true)],
        .map [(some "id", .str "nb_units_max"), (some "scenario-dependent", .bool true), (some "time-dependent", .bool true)],
        .map [(some "id", .str "nb_units_max_variation_forward"), (some "scenario-dependent", .bool true), (some "time-dependent", .bool true)],
        .map [(some "id", .str "nb_units_max_variation_backward"), (some "scenario-dependent", .bool true), (some "time-dependent", .bool true)]]),
        (some "variables", .seq [
        .map [(some "id", .str "generation"), (some "lower-bound", .str "p_min_cluster"), (some "upper-bound", .str "p_max_cluster")],
        .map [(some "id", .str "nb_units_on"), (some "lower-bound", .str "nb_units_min"), (some "upper-bound", .str "nb_units_max"),
          (some "variable-type", .str "integer")],
        .map [(some "id", .str "nb_starting"), (some "lower-bound", .int 0), (some "upper-bound", .str "nb_units_max"),
          (some "variable-type", .str "integer")],
        .map [(some "id", .str "nb_stopping"), (some "lower-bound", .int 0), (some "variable-type", .str "integer")],
        .map [(some "id", .str "nb_failing"), (some "lower-bound", .int 0)]]), (some "ports", .seq [
        .map [(some "id", .str "balance_port"), (some "type", .str "flow")]]), (some "port-field-definitions", .seq [
        .map [(some "port", .str "balance_port"), (some "field", .str "flow"), (some "definition", .str "generation")]]),
        (some "constraints", .seq [
        .map [(some "id", .str "max_generation"), (some "expression", .str "generation <= nb_units_on * p_max_unit")],
        .map [(some "id", .str "min_generation"), (some "expression", .str "generation >= nb_units_on * p_min_unit")],
        .map [(some "id", .str "on_units_dynamics"), (some "expression", .str "nb_units_on = nb_units_on[t-1] + nb_starting - nb_stopping")],
        .map [(some "id", .str "nb_failing_lower_than_stopping"), (some "expression", .str "nb_failing <= nb_stopping")],
        .map [(some "id", .str "nb_failing_lower_than_max_variation"), (some "expression", .str "nb_failing <= nb_units_max_variation_forward")],
        .map [(some "id", .str "min_up_duration"), (some "expression", .str "sum(t-d_min_up + 1 .. t, nb_starting - nb_failing) <= nb_units_on")],
        .map [(some "id", .str "min_down_duration"),
          (some "expression", .str "sum(t-d_min_down + 1 .. t, nb_stopping) <= nb_units_max[t-d_min_down] - nb_units_on + sum(t-d_min_down + 1 .. t, nb_units_max_variation_backward)")]]),
        (some "objective", .str "expec(sum(generation_cost * generation + startup_cost * nb_starting + fixed_cost * nb_units_on))")],
      .map [(some "id", .str "short-term-storage"), (some "parameters", .seq [
        .map [(some "id", .str "reservoir_capacity"), (some "time-dependent", .bool false), (some "scenario-dependent", .bool false)],
        .map [(some "id", .str "injection_nominal_capacity"), (some "time-dependent", .bool false), (some "scenario-dependent", .bool false)],
        .map [(some "id", .str "withdrawal_nominal_capacity"), (some "time-dependent", .bool false), (some "scenario-dependent", .bool false)],
        .map [(some "id", .str "efficiency_injection"), (some "time-dependent", .bool false), (some "scenario-dependent", .bool false)],
        .map [(some "id", .str "efficiency_withdrawal"), (some "time-dependent", .bool false), (some "scenario-dependent", .bool false)],
        .map [(some "id", .str "lower_rule_curve"), (some "time-dependent", .bool true), (some "scenario-dependent", .bool true)],
        .map [(some "id", .str "upper_rule_curve"), (some "time-dependent", .bool true), (some "scenario-dependent", .bool true)],
        .map [(some "id", .str "p_max_injection_modulation"), (some "time-dependent", .bool true), (some "scenario-dependent", .bool true)],
        .map [(some "id", .str "p_max_withdrawal_modulation"), (some "time-dependent", .bool true), (some "scenario-dependent", .bool true)],
        .map [(some "id", .str "inflows"), (some "time-dependent", .bool true), (some "scenario-dependent", .bool true)],
        .map [(some "id", .str "initial_level"), (some "time-dependent", .bool false), (some "scenario-dependent", .bool false)]]),
        (some "variables", .seq [
        .map [(some "id", .str "p_injection"), (some "lower-bound", .int 0),
          (some "upper-bound", .str "p_max_injection_modulation * injection_nominal_capacity")],
        .map [(some "id", .str "p_withdrawal"), (some "lower-bound", .int 0),
          (some "upper-bound", .str "p_max_withdrawal_modulation * withdrawal_nominal_capacity")],
        .map [(some "id", .str "level"), (some "lower-bound", .str "lower_rule_curve * reservoir_capacity"),
          (some "upper-bound", .str "upper_rule_curve * reservoir_capacity")]]), (some "ports", .seq [
        .map [(some "id", .str "injection_port"), (some "type", .str "flow")]]), (some "port-field-definitions", .seq [
        .map [(some "port", .str "injection_port"), (some "field", .str "flow"), (some "definition", .str "p_withdrawal - p_injection")]]),
        (some "constraints", .seq [
        .map [(some "id", .str "initial_level"), (some "expression", .str "level[0] = initial_level * reservoir_capacity")],
        .map [(some "id", .str "Level equation"),
          (some "expression", .str "level[t+1] = level + efficiency_injection * p_injection - efficiency_withdrawal * p_withdrawal + inflows")]])]])])]

/-- src/andromede/libs/reference_models/andromede_v1_models.yml 1-124 -/
def andromedeFile : Doc :=
  .map [(some "library", .map [(some "id", .str "andromede-v1-models"), (some "description", .str "Andromede V1 model library"), (some "port-types", .seq [
      .map [(some "id", .str "flow"), (some "description", .str "A port which transfers power flow"), (some "fields", .seq [
        .map [(some "id", .str "flow")]])]]), (some "models", .seq [
      .map [(some "id", .str "dsr"), (some "parameters", .seq [
        .map [(some "id", .str "max_load"), (some "time-dependent", .bool true), (some "scenario-dependent", .bool true)],
        .map [(some "id", .str "curtailment_price"), (some "time-dependent", .bool false), (some "scenario-dependent", .bool false)]]),
        (some "variables", .seq [
        .map [(some "id", .str "curtailment"), (some "lower-bound", .int 0), (some "upper-bound", .str "max_load")]]),
        (some "objective", .str "expec(sum(curtailment * curtailment_price))"), (some "ports", .seq [
        .map [(some "id", .str "balance_port"), (some "type", .str "flow")]]), (some "port-field-definitions", .seq [
        .map [(some "port", .str "balance_port"), (some "field", .str "flow"), (some "definition", .str "-max_load + curtailment")]])],
      .map [(some "id", .str "electrolyser"), (some "parameters", .seq [
        .map [(some "id", .str "efficiency"), (some "scenario-dependent", .bool false), (some "time-dependent", .bool false)],
        .map [(some "id", .str "p_max"), (some "scenario-dependent", .bool true), (some "time-dependent", .bool true)]]),
        (some "variables", .seq [
        .map [(some "id", .str "power"), (some "lower-bound", .int 0), (some "upper-bound", .str "p_max")]]), (some "ports", .seq [
        .map [(some "id", .str "power_port"), (some "type", .str "flow")],
        .map [(some "id", .str "hydrogen_port"), (some "type", .str "flow")]]), (some "port-field-definitions", .seq [
        .map [(some "port", .str "power_port"), (some "field", .str "flow"), (some "definition", .str "-power")],
        .map [(some "port", .str "hydrogen_port"), (some "field", .str "flow"), (some "definition", .str "efficiency * power")]])],
      .map [(some "id", .str "battery"), (some "parameters", .seq [
        .map [(some "id", .str "reservoir_capacity"), (some "time-dependent", .bool false), (some "scenario-dependent", .bool false)],
        .map [(some "id", .str "injection_nominal_capacity"), (some "time-dependent", .bool false), (some "scenario-dependent", .bool false)],
        .map [(some "id", .str "withdrawal_nominal_capacity"), (some "time-dependent", .bool false), (some "scenario-dependent", .bool false)],
        .map [(some "id", .str "efficiency_injection"), (some "time-dependent", .bool false), (some "scenario-dependent", .bool false)],
        .map [(some "id", .str "efficiency_withdrawal"), (some "time-dependent", .bool false), (some "scenario-dependent", .bool false)],
        .map [(some "id", .str "lower_rule_curve"), (some "time-dependent", .bool true), (some "scenario-dependent", .bool true)],
        .map [(some "id", .str "upper_rule_curve"), (some "time-dependent", .bool true), (some "scenario-dependent", .bool true)],
        .map [(some "id", .str "p_max_injection_modulation"), (some "time-dependent", .bool true), (some "scenario-dependent", .bool true)],
        .map [(some "id", .str "p_max_withdrawal_modulation"), (some "time-dependent", .bool true), (some "scenario-dependent", .bool true)],
        .map [(some "id", .str "marginal_cost"), (some "time-dependent", .bool true), (some "scenario-dependent", .bool false)]]),
        (some "variables", .seq [
        .map [(some "id", .str "p_injection"), (some "lower-bound", .int 0),
          (some "upper-bound", .str "p_max_injection_modulation * injection_nominal_capacity")],
        .map [(some "id", .str "p_withdrawal"), (some "lower-bound", .int 0),
          (some "upper-bound", .str "p_max_withdrawal_modulation * withdrawal_nominal_capacity")],
        .map [(some "id", .str "level"), (some "lower-bound", .str "lower_rule_curve * reservoir_capacity"),
          (some "upper-bound", .str "upper_rule_curve * reservoir_capacity")]]), (some "ports", .seq [
        .map [(some "id", .str "injection_port"), (some "type", .str "flow")]]), (some "port-field-definitions", .seq [
        .map [(some "port", .str "injection_port"), (some "field", .str "flow"), (some "definition", .str "p_withdrawal - p_injection")]]),
        (some "constraints", .seq [
        .map [(some "id", .str "level_equation"),
          (some "expression", .str "level[t+1] = level + efficiency_injection * p_injection - efficiency_withdrawal * p_withdrawal")]]),
        (some "objective", .str "expec(sum(marginal_cost * p_injection))")]])])]

/-- src/andromede/libs/pypsa_models/pypsa_models.yml 1-498 -/
def pypsaFile : Doc :=
  .map [(some "library", .map [(some "id", .str "pypsa_models"), (some "description", .str "PyPSA model library"), (some "port-types", .seq [
      .map [(some "id", .str "flow"), (some "description", .str "A port which transfers power flow"), (some "fields", .seq [
        .map [(some "id", .str "flow")]])],
      .map [(some "id", .str "emission"), (some "description", .str "A port which accounts for CO2 emissions"), (some "fields", .seq [
        .map [(some "id", .str "emission")]])]]), (some "models", .seq [
      .map [(some "id", .str "bus"), (some "parameters", .seq [
        .map [(some "id", .str "v_nom"), (some "time-dependent", .bool false), (some "scenario-dependent", .bool false)],
        .map [(some "id", .str "x"), (some "time-dependent", .bool false), (some "scenario-dependent", .bool false)],
        .map [(some "id", .str "y"), (some "time-dependent", .bool false), (some "scenario-dependent", .bool false)],
        .map [(some "id", .str "v_mag_pu_set"), (some "time-dependent", .bool true), (some "scenario-dependent", .bool false)],
        .map [(some "id", .str "v_mag_pu_min"), (some "time-dependent", .bool false), (some "scenario-dependent", .bool false)],
        .map [(some "id", .str "v_mag_pu_max"), (some "time-dependent", .bool false), (some "scenario-dependent", .bool false)]]),
        (some "ports", .seq [
        .map [(some "id", .str "p_balance_port"), (some "type", .str "flow")],
        .map [(some "id", .str "q_balance_port"), (some "type", .str "flow")]]), (some "binding-constraints", .seq [
        .map [(some "id", .str "p_balance"), (some "expression", .str "sum_connections(p_balance_port.flow) = 0")],
        .map [(some "id", .str "q_balance"), (some "expression", .str "sum_connections(q_balance_port.flow) = 0")]])],
      .map [(some "id", .str "load"), (some "parameters", .seq [
        .map [(some "id", .str "p_set"), (some "time-dependent", .bool true), (some "scenario-dependent", .bool true)],
        .map [(some "id", .str "q_set"), (some "time-dependent", .bool true), (some "scenario-dependent", .bool true)],
        .map [(some "id", .str "sign"), (some "time-dependent", .bool false), (some "scenario-dependent", .bool false)]]), (some "ports", .seq [
        .map [(some "id", .str "p_balance_port"), (some "type", .str "flow")],
        .map [(some "id", .str "q_balance_port"), (some "type", .str "flow")]]), (some "port-field-definitions", .seq [
        .map [(some "port", .str "p_balance_port"), (some "field", .str "flow"), (some "definition", .str "sign * p_set")],
        .map [(some "port", .str "q_balance_port"), (some "field", .str "flow"), (some "definition", .str "sign * q_set")]])],
      .map [(some "id", .str "generator"), (some "parameters", .seq [
        .map [(some "id", .str "p_nom_min"), (some "time-dependent", .bool false), (some "scenario-dependent", .bool false)],
        .map [(some "id", .str "p_nom_max"), (some "time-dependent", .bool false), (some "scenario-dependent", .bool false)],
        .map [(some "id", .str "p_min_pu"), (some "time-dependent", .bool true), (some "scenario-dependent", .bool false)],
        .map [(some "id", .str "p_max_pu"), (some "time-dependent", .bool true), (some "scenario-dependent", .bool false)],
        .map [(some "id", .str "e_sum_min"), (some "time-dependent", .bool false), (some "scenario-dependent", .bool false)],
        .map [(some "id", .str "e_sum_max"), (some "time-dependent", .bool false), (some "scenario-dependent", .bool false)],
        .map [(some "id", .str "sign"), (some "time-dependent", .bool false), (some "scenario-dependent", .bool false)],
        .map [(some "id", .str "marginal_cost"), (some "time-dependent", .bool true), (some "scenario-dependent", .bool false)],
        .map [(some "id", .str "capital_cost"), (some "time-dependent", .bool false), (some "scenario-dependent", .bool false)],
        .map [(some "id", .str "efficiency"), (some "time_dependent", .bool true), (some "scenario_dependent", .bool false)],
        .map [(some "id", .str "emission_factor"), (some "time_dependent", .bool false), (some "scenario_dependent", .bool false)]]),
        (some "variables", .seq [
        .map [(some "id", .str "p_nom"), (some "lower-bound", .str "p_nom_min"), (some "upper-bound", .str "p_nom_max"),
          (some "time-dependent", .bool false), (some "scenario-dependent", .bool false)],
        .map [(some "id", .str "p")]]), (some "ports", .seq [
        .map [(some "id", .str "p_balance_port"), (some "type", .str "flow")],
        .map [(some "id", .str "emission_port"), (some "type", .str "emission")]]), (some "port-field-definitions", .seq [
        .map [(some "port", .str "p_balance_port"), (some "field", .str "flow"), (some "definition", .str "p*sign")],
        .map [(some "port", .str "emission_port"), (some "field", .str "emission"), (some "definition", .str "p*emission_factor/efficiency")]]),
        (some "constraints", .seq [
        .map [(some "id", .str "min_dispatch"), (some "expression", .str "p >=p_nom * p_min_pu")],
        .map [(some "id", .str "max_dispatch"), (some "expression", .str "p <=p_nom * p_max_pu")],
        .map [(some "id", .str "min_production"), (some "expression", .str "sum(p) >= e_sum_min")],
        .map [(some "id", .str "max_production"), (some "expression", .str "sum(p) <= e_sum_max")]]),
        (some "objective", .str "expec(sum(marginal_cost * p)) + p_nom * capital_cost")],
      .map [(some "id", .str "link"), (some "parameters", .seq [
        .map [(some "id", .str "efficiency"), (some "time-dependent", .bool true), (some "scenario-dependent", .bool false)],
        .map [(some "id", .str "p_nom_min"), (some "time-dependent", .bool false), (some "scenario-dependent", .bool false)],
        .map [(some "id", .str "p_nom_max"), (some "time-dependent", .bool false), (some "scenario-dependent", .bool false)],
        .map [(some "id", .str "p_min_pu"), (some "time-dependent", .bool true), (some "scenario-dependent", .bool false)],
        .map [(some "id", .str "p_max_pu"), (some "time-dependent", .bool true), (some "scenario-dependent", .bool false)],
        .map [(some "id", .str "capital_cost"), (some "time-dependent", .bool false), (some "scenario-dependent", .bool false)],
        .map [(some "id", .str "marginal_cost"), (some "time-dependent", .bool true), (some "scenario-dependent", .bool false)]]),
        (some "variables", .seq [
        .map [(some "id", .str "p_nom"), (some "time-dependent", .bool false), (some "scenario-dependent", .bool false),
          (some "lower-bound", .str "p_nom_min"), (some "upper-bound", .str "p_nom_max")],
        .map [(some "id", .str "p0")]]), (some "ports", .seq [
        .map [(some "id", .str "p0_port"), (some "type", .str "flow")],
        .map [(some "id", .str "p1_port"), (some "type", .str "flow")]]), (some "port-field-definitions", .seq [
        .map [(some "port", .str "p0_port"), (some "field", .str "flow"), (some "definition", .str "-p0")],
        .map [(some "port", .str "p1_port"), (some "field", .str "flow"), (some "definition", .str "efficiency * p0")]]),
        (some "constraints", .seq [
        .map [(some "id", .str "p0_upper"), (some "expression", .str "p0 <= p_max_pu * p_nom")],
        .map [(some "id", .str "p0_lower"), (some "expression", .str "p0 >= p_min_pu * p_nom")]]),
        (some "objective", .str "expec(sum(marginal_cost * p0)) + capital_cost * p_nom")],
      .map [(some "id", .str "storage_unit"), (some "parameters", .seq [
        .map [(some "id", .str "p_nom_min"), (some "time-dependent", .bool false), (some "scenario-dependent", .bool false)],
        .map [(some "id", .str "p_nom_max"), (some "time-dependent", .bool false), (some "scenario-dependent", .bool false)],
        .map [(some "id", .str "p_min_pu"), (some "time-dependent", .bool true), (some "scenario-dependent", .bool false)],
        .map [(some "id", .str "p_max_pu"), (some "time-dependent", .bool true), (some "scenario-dependent", .bool false)],
        .map [(some "id", .str "sign"), (some "time-dependent", .bool false), (some "scenario-dependent", .bool false)],
        .map [(some "id", .str "spill_cost"), (some "time-dependent", .bool true), (some "scenario-dependent", .bool false)],
        .map [(some "id", .str "marginal_cost"), (some "time-dependent", .bool true), (some "scenario-dependent", .bool false)],
        .map [(some "id", .str "marginal_cost_storage"), (some "time-dependent", .bool true), (some "scenario-dependent", .bool false)],
        .map [(some "id", .str "capital_cost"), (some "time-dependent", .bool false), (some "scenario-dependent", .bool false)],
        .map [(some "id", .str "max_hours"), (some "time-dependent", .bool false), (some "scenario-dependent", .bool false)],
        .map [(some "id", .str "efficiency_store"), (some "time-dependent", .bool true), (some "scenario-dependent", .bool false)],
        .map [(some "id", .str "efficiency_dispatch"), (some "time-dependent", .bool true), (some "scenario-dependent", .bool false)],
        .map [(some "id", .str "standing_loss"), (some "time-dependent", .bool true), (some "scenario-dependent", .bool false)],
        .map [(some "id", .str "inflow"), (some "time-dependent", .bool true), (some "scenario-dependent", .bool true)],
        .map [(some "id", .str "emission_factor"), (some "time_dependent", .bool false), (some "scenario_dependent", .bool false)]]),
        (some "variables", .seq [
        .map [(some "id", .str "p_nom"), (some "time_dependent", .bool false), (some "scenario_dependent", .bool false),
          (some "lower-bound", .str "p_nom_min"), (some "upper-bound", .str "p_nom_max")],
        .map [(some "id", .str "p_store"), (some "lower-bound", .int 0), (some "upper-bound", .str "p_max_pu * p_nom_max")],
        .map [(some "id", .str "p_dispatch"), (some "lower-bound", .int 0), (some "upper-bound", .str "p_max_pu * p_nom_max")],
        .map [(some "id", .str "state_of_charge"), (some "lower-bound", .int 0), (some "upper-bound", .str "max_hours * p_nom_max")],
        .map [(some "id", .str "spill"), (some "lower-bound", .int 0)]]), (some "ports", .seq [
        .map [(some "id", .str "p_balance_port"), (some "type", .str "flow")],
        .map [(some "id", .str "emission_port"), (some "type", .str "emission")]]), (some "port-field-definitions", .seq [
        .map [(some "port", .str "p_balance_port"), (some "field", .str "flow"), (some "definition", .str "p_dispatch - p_store")],
        .map [(some "port", .str "emission_port"), (some "field", .str "emission"), (some "definition", .str "emission_factor * 0")]]),
        (some "constraints", .seq [
        .map [(some "id", .str "p_store_upper"), (some "expression", .str "p_store <= p_max_pu * p_nom")],
        .map [(some "id", .str "p_dispatch_upper"), (some "expression", .str "p_store <= p_max_pu * p_nom")],
        .map [(some "id", .str "state_of_charge_upper"), (some "expression", .str "state_of_charge <= max_hours * p_nom")],
        .map [(some "id", .str "state_of_charge_balance"),
          (some "expression", .str "state_of_charge = (1- standing_loss) * state_of_charge[t-1] + efficiency_store * p_store - p_dispatch / efficiency_dispatch  + inflow - spill")]]),
        (some "objective", .str "expec(sum(marginal_cost * p_dispatch + spill_cost*spill + marginal_cost_storage * state_of_charge)) + capital_cost * p_nom")],
      .map [(some "id", .str "store"), (some "parameters", .seq [
        .map [(some "id", .str "e_nom_min"), (some "time-dependent", .bool false), (some "scenario-dependent", .bool false)],
        .map [(some "id", .str "e_nom_max"), (some "time-dependent", .bool false), (some "scenario-dependent", .bool false)],
        .map [(some "id", .str "e_min_pu"), (some "time-dependent", .bool true), (some "scenario-dependent", .bool false)],
        .map [(some "id", .str "e_max_pu"), (some "time-dependent", .bool true), (some "scenario-dependent", .bool false)],
        .map [(some "id", .str "sign"), (some "time-dependent", .bool false), (some "scenario-dependent", .bool false)],
        .map [(some "id", .str "marginal_cost"), (some "time-dependent", .bool true), (some "scenario-dependent", .bool false)],
        .map [(some "id", .str "marginal_cost_storage"), (some "time-dependent", .bool true), (some "scenario-dependent", .bool false)],
        .map [(some "id", .str "capital_cost"), (some "time-dependent", .bool false), (some "scenario-dependent", .bool false)],
        .map [(some "id", .str "standing_loss"), (some "time-dependent", .bool true), (some "scenario-dependent", .bool false)],
        .map [(some "id", .str "emission_factor"), (some "time_dependent", .bool false), (some "scenario_dependent", .bool false)]]),
        (some "variables", .seq [
        .map [(some "id", .str "e_nom"), (some "time-dependent", .bool false), (some "scenario-dependent", .bool false),
          (some "lower-bound", .str "e_nom_min"), (some "upper-bound", .str "e_nom_max")],
        .map [(some "id", .str "e")],
        .map [(some "id", .str "p")]]), (some "ports", .seq [
        .map [(some "id", .str "p_balance_port"), (some "type", .str "flow")],
        .map [(some "id", .str "emission_port"), (some "type", .str "emission")]]), (some "port-field-definitions", .seq [
        .map [(some "port", .str "p_balance_port"), (some "field", .str "flow"), (some "definition", .str "p")],
        .map [(some "port", .str "emission_port"), (some "field", .str "emission"), (some "definition", .str "emission_factor * 0")]]),
        (some "constraints", .seq [
        .map [(some "id", .str "e_upper"), (some "expression", .str "e <= e_max_pu * e_nom")],
        .map [(some "id", .str "e_lower"), (some "expression", .str "e >= e_min_pu * e_nom")],
        .map [(some "id", .str "energy_balance"), (some "expression", .str "e = (1 - standing_loss) * e[t-1] - p")]]),
        (some "objective", .str "expec(sum(marginal_cost * p + marginal_cost_storage * e)) + capital_cost * e_nom")],
      .map [(some "id", .str "global_constraint_co2_max"), (some "parameters", .seq [
        .map [(some "id", .str "quota"), (some "time-dependent", .bool false), (some "scenario-dependent", .bool false)]]), (some "ports", .seq [
        .map [(some "id", .str "emission_port"), (some "type", .str "emission")]]), (some "binding-constraints", .seq [
        .map [(some "id", .str "constraint_expression"), (some "expression", .str "sum(sum_connections(emission_port.emission)) <= quota")]])],
      .map [(some "id", .str "global_constraint_co2_eq"), (some "parameters", .seq [
        .map [(some "id", .str "quota"), (some "time-dependent", .bool false), (some "scenario-dependent", .bool false)]]), (some "ports", .seq [
        .map [(some "id", .str "emission_port"), (some "type", .str "emission")]]), (some "binding-constraints", .seq [
        .map [(some "id", .str "constraint_expression"), (some "expression", .str "sum(sum_connections(emission_port.emission)) = quota")]])]])])]

end Verif.Shipped
