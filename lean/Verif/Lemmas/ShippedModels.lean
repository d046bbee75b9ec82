import Verif.Lemmas.ExprEq
import Verif.Model.Shipped

/-!
# What the libraries that come with the code become
-/

namespace Verif.Shipped

open Verif

/-- what model `area` becomes -/
def antaresAreaModel : Model where
  id := "area"
  parameters := [
    ("spillage_cost", ⟨"spillage_cost", .continuous, ⟨false, false⟩⟩),
    ("ens_cost", ⟨"ens_cost", .continuous, ⟨false, false⟩⟩)]
  variables_ := [
    ("spillage", ⟨"spillage", .continuous, (some (.lit (.fin 0))), none, ⟨true, true⟩, .operational⟩),
    ("unsupplied_energy", ⟨"unsupplied_energy", .continuous, (some (.lit (.fin 0))), none, ⟨true, true⟩, .operational⟩)]
  constraints := []
  bindingConstraints := [
    ("balance",
      { name := "balance", expression := .add [(.agg (.portField "balance_port" "flow") .portSum), (.neg (.var "spillage")), (.neg (.neg (.var "unsupplied_energy")))],
        lowerBound := .lit (.fin 0), upperBound := .lit (.fin 0) })]
  objectiveOperational := some (.scen (.allsum (.add [(.mul (.par "spillage_cost") (.var "spillage")), (.mul (.par "ens_cost") (.var "unsupplied_energy"))])) .expectation)
  ports := [
    ("balance_port", ⟨⟨"flow", ["flow"]⟩, "balance_port"⟩)]
  portFieldsDefinitions := []

/-- what model `load` becomes -/
def antaresLoadModel : Model where
  id := "load"
  parameters := [
    ("load", ⟨"load", .continuous, ⟨true, true⟩⟩)]
  variables_ := []
  constraints := []
  bindingConstraints := []
  objectiveOperational := none
  ports := [
    ("balance_port", ⟨⟨"flow", ["flow"]⟩, "balance_port"⟩)]
  portFieldsDefinitions := [
    (⟨"balance_port", "flow"⟩, ⟨⟨"balance_port", "flow"⟩, (.neg (.par "load"))⟩)]

/-- what model `link` becomes -/
def antaresLinkModel : Model where
  id := "link"
  parameters := [
    ("capacity_direct", ⟨"capacity_direct", .continuous, ⟨true, true⟩⟩),
    ("capacity_indirect", ⟨"capacity_indirect", .continuous, ⟨true, true⟩⟩)]
  variables_ := [
    ("flow_direct", ⟨"flow_direct", .continuous, (some (.lit (.fin 0))), (some (.par "capacity_direct")), ⟨true, true⟩, .operational⟩),
    ("flow_indirect", ⟨"flow_indirect", .continuous, (some (.lit (.fin 0))), (some (.par "capacity_indirect")), ⟨true, true⟩, .operational⟩),
    ("flow", ⟨"flow", .continuous, none, none, ⟨true, true⟩, .operational⟩)]
  constraints := [
    ("flow_direct_indirect",
      { name := "flow_direct_indirect", expression := .add [(.var "flow"), (.neg (.var "flow_direct")), (.neg (.neg (.var "flow_indirect")))],
        lowerBound := .lit (.fin 0), upperBound := .lit (.fin 0) })]
  bindingConstraints := []
  objectiveOperational := none
  ports := [
    ("out_port", ⟨⟨"flow", ["flow"]⟩, "out_port"⟩),
    ("in_port", ⟨⟨"flow", ["flow"]⟩, "in_port"⟩)]
  portFieldsDefinitions := [
    (⟨"out_port", "flow"⟩, ⟨⟨"out_port", "flow"⟩, (.var "flow")⟩),
    (⟨"in_port", "flow"⟩, ⟨⟨"in_port", "flow"⟩, (.neg (.var "flow"))⟩)]

/-- what model `renewable` becomes -/
def antaresRenewableModel : Model where
  id := "renewable"
  parameters := [
    ("nominal_capacity", ⟨"nominal_capacity", .continuous, ⟨false, false⟩⟩),
    ("unit_count", ⟨"unit_count", .continuous, ⟨false, false⟩⟩),
    ("generation", ⟨"generation", .continuous, ⟨true, true⟩⟩)]
  variables_ := []
  constraints := []
  bindingConstraints := []
  objectiveOperational := none
  ports := [
    ("balance_port", ⟨⟨"flow", ["flow"]⟩, "balance_port"⟩)]
  portFieldsDefinitions := [
    (⟨"balance_port", "flow"⟩, ⟨⟨"balance_port", "flow"⟩, (.par "generation")⟩)]

/-- what model `thermal` becomes -/
def antaresThermalModel : Model where
  id := "thermal"
  parameters := [
    ("p_min_cluster", ⟨"p_min_cluster", .continuous, ⟨true, true⟩⟩),
    ("p_max_cluster", ⟨"p_max_cluster", .continuous, ⟨true, true⟩⟩),
    ("p_min_unit", ⟨"p_min_unit", .continuous, ⟨false, false⟩⟩),
    ("p_max_unit", ⟨"p_max_unit", .continuous, ⟨false, false⟩⟩),
    ("generation_cost", ⟨"generation_cost", .continuous, ⟨false, false⟩⟩),
    ("startup_cost", ⟨"startup_cost", .continuous, ⟨false, false⟩⟩),
    ("fixed_cost", ⟨"fixed_cost", .continuous, ⟨false, false⟩⟩),
    ("d_min_up", ⟨"d_min_up", .continuous, ⟨false, false⟩⟩),
    ("d_min_down", ⟨"d_min_down", .continuous, ⟨false, false⟩⟩),
    ("nb_units_min", ⟨"nb_units_min", .continuous, ⟨true, true⟩⟩),
    ("nb_units_max", ⟨"nb_units_max", .continuous, ⟨true, true⟩⟩),
    ("nb_units_max_variation_forward", ⟨"nb_units_max_variation_forward", .continuous, ⟨true, true⟩⟩),
    ("nb_units_max_variation_backward", ⟨"nb_units_max_variation_backward", .continuous, ⟨true, true⟩⟩)]
  variables_ := [
    ("generation", ⟨"generation", .continuous, (some (.par "p_min_cluster")), (some (.par "p_max_cluster")), ⟨true, true⟩, .operational⟩),
    ("nb_units_on", ⟨"nb_units_on", .integer, (some (.par "nb_units_min")), (some (.par "nb_units_max")), ⟨true, true⟩, .operational⟩),
    ("nb_starting", ⟨"nb_starting", .integer, (some (.lit (.fin 0))), (some (.par "nb_units_max")), ⟨true, true⟩, .operational⟩),
    ("nb_stopping", ⟨"nb_stopping", .integer, (some (.lit (.fin 0))), none, ⟨true, true⟩, .operational⟩),
    ("nb_failing", ⟨"nb_failing", .continuous, (some (.lit (.fin 0))), none, ⟨true, true⟩, .operational⟩)]
  constraints := [
    ("max_generation",
      { name := "max_generation", expression := .add [(.var "generation"), (.neg (.mul (.var "nb_units_on") (.par "p_max_unit")))],
        lowerBound := .lit .ninf, upperBound := .lit (.fin 0) }),
    ("min_generation",
      { name := "min_generation", expression := .add [(.var "generation"), (.neg (.mul (.var "nb_units_on") (.par "p_min_unit")))],
        lowerBound := .lit (.fin 0), upperBound := .lit .pinf }),
    ("on_units_dynamics",
      { name := "on_units_dynamics", expression := .add [(.var "nb_units_on"), (.neg (.shift (.var "nb_units_on") (.neg (.lit (.fin 1))))), (.neg (.var "nb_starting")), (.neg (.neg (.var "nb_stopping")))],
        lowerBound := .lit (.fin 0), upperBound := .lit (.fin 0) }),
    ("nb_failing_lower_than_stopping",
      { name := "nb_failing_lower_than_stopping", expression := .add [(.var "nb_failing"), (.neg (.var "nb_stopping"))],
        lowerBound := .lit .ninf, upperBound := .lit (.fin 0) }),
    ("nb_failing_lower_than_max_variation",
      { name := "nb_failing_lower_than_max_variation", expression := .add [(.var "nb_failing"), (.neg (.par "nb_units_max_variation_forward"))],
        lowerBound := .lit .ninf, upperBound := .lit (.fin 0) }),
    ("min_up_duration",
      { name := "min_up_duration", expression := .add [(.tsum (.add [(.var "nb_starting"), (.neg (.var "nb_failing"))]) (.add [(.neg (.par "d_min_up")), (.lit (.fin 1))]) (.lit (.fin 0))), (.neg (.var "nb_units_on"))],
        lowerBound := .lit .ninf, upperBound := .lit (.fin 0) }),
    ("min_down_duration",
      { name := "min_down_duration", expression := .add [(.tsum (.var "nb_stopping") (.add [(.neg (.par "d_min_down")), (.lit (.fin 1))]) (.lit (.fin 0))), (.neg (.shift (.par "nb_units_max") (.neg (.par "d_min_down")))), (.neg (.neg (.var "nb_units_on"))), (.neg (.tsum (.par "nb_units_max_variation_backward") (.add [(.neg (.par "d_min_down")), (.lit (.fin 1))]) (.lit (.fin 0))))],
        lowerBound := .lit .ninf, upperBound := .lit (.fin 0) })]
  bindingConstraints := []
  objectiveOperational := some (.scen (.allsum (.add [(.mul (.par "generation_cost") (.var "generation")), (.mul (.par "startup_cost") (.var "nb_starting")), (.mul (.par "fixed_cost") (.var "nb_units_on"))])) .expectation)
  ports := [
    ("balance_port", ⟨⟨"flow", ["flow"]⟩, "balance_port"⟩)]
  portFieldsDefinitions := [
    (⟨"balance_port", "flow"⟩, ⟨⟨"balance_port", "flow"⟩, (.var "generation")⟩)]

/-- what model `short-term-storage` becomes -/
def antaresShortTermStorageModel : Model where
  id := "short-term-storage"
  parameters := [
    ("reservoir_capacity", ⟨"reservoir_capacity", .continuous, ⟨false, false⟩⟩),
    ("injection_nominal_capacity", ⟨"injection_nominal_capacity", .continuous, ⟨false, false⟩⟩),
    ("withdrawal_nominal_capacity", ⟨"withdrawal_nominal_capacity", .continuous, ⟨false, false⟩⟩),
    ("efficiency_injection", ⟨"efficiency_injection", .continuous, ⟨false, false⟩⟩),
    ("efficiency_withdrawal", ⟨"efficiency_withdrawal", .continuous, ⟨false, false⟩⟩),
    ("lower_rule_curve", ⟨"lower_rule_curve", .continuous, ⟨true, true⟩⟩),
    ("upper_rule_curve", ⟨"upper_rule_curve", .continuous, ⟨true, true⟩⟩),
    ("p_max_injection_modulation", ⟨"p_max_injection_modulation", .continuous, ⟨true, true⟩⟩),
    ("p_max_withdrawal_modulation", ⟨"p_max_withdrawal_modulation", .continuous, ⟨true, true⟩⟩),
    ("inflows", ⟨"inflows", .continuous, ⟨true, true⟩⟩),
    ("initial_level", ⟨"initial_level", .continuous, ⟨false, false⟩⟩)]
  variables_ := [
    ("p_injection", ⟨"p_injection", .continuous, (some (.lit (.fin 0))), (some (.mul (.par "p_max_injection_modulation") (.par "injection_nominal_capacity"))), ⟨true, true⟩, .operational⟩),
    ("p_withdrawal", ⟨"p_withdrawal", .continuous, (some (.lit (.fin 0))), (some (.mul (.par "p_max_withdrawal_modulation") (.par "withdrawal_nominal_capacity"))), ⟨true, true⟩, .operational⟩),
    ("level", ⟨"level", .continuous, (some (.mul (.par "lower_rule_curve") (.par "reservoir_capacity"))), (some (.mul (.par "upper_rule_curve") (.par "reservoir_capacity"))), ⟨true, true⟩, .operational⟩)]
  constraints := [
    ("initial_level",
      { name := "initial_level", expression := .add [(.evalT (.var "level") (.lit (.fin 0))), (.neg (.mul (.par "initial_level") (.par "reservoir_capacity")))],
        lowerBound := .lit (.fin 0), upperBound := .lit (.fin 0) }),
    ("Level equation",
      { name := "Level equation", expression := .add [(.shift (.var "level") (.lit (.fin 1))), (.neg (.var "level")), (.neg (.mul (.par "efficiency_injection") (.var "p_injection"))), (.neg (.neg (.mul (.par "efficiency_withdrawal") (.var "p_withdrawal")))), (.neg (.par "inflows"))],
        lowerBound := .lit (.fin 0), upperBound := .lit (.fin 0) })]
  bindingConstraints := []
  objectiveOperational := none
  ports := [
    ("injection_port", ⟨⟨"flow", ["flow"]⟩, "injection_port"⟩)]
  portFieldsDefinitions := [
    (⟨"injection_port", "flow"⟩, ⟨⟨"injection_port", "flow"⟩, (.add [(.var "p_withdrawal"), (.neg (.var "p_injection"))])⟩)]

/-- the library antares-historic -/
def antaresLibrary : Library where
  id := "antares-historic"
  portTypes := [("flow", ⟨"flow", ["flow"]⟩)]
  models := [
    ("area", antaresAreaModel),
    ("load", antaresLoadModel),
    ("link", antaresLinkModel),
    ("renewable", antaresRenewableModel),
    ("thermal", antaresThermalModel),
    ("short-term-storage", antaresShortTermStorageModel)]

/-- what model `dsr` becomes -/
def andromedeDsrModel : Model where
  id := "dsr"
  parameters := [
    ("max_load", ⟨"max_load", .continuous, ⟨true, true⟩⟩),
    ("curtailment_price", ⟨"curtailment_price", .continuous, ⟨false, false⟩⟩)]
  variables_ := [
    ("curtailment", ⟨"curtailment", .continuous, (some (.lit (.fin 0))), (some (.par "max_load")), ⟨true, true⟩, .operational⟩)]
  constraints := []
  bindingConstraints := []
  objectiveOperational := some (.scen (.allsum (.mul (.var "curtailment") (.par "curtailment_price"))) .expectation)
  ports := [
    ("balance_port", ⟨⟨"flow", ["flow"]⟩, "balance_port"⟩)]
  portFieldsDefinitions := [
    (⟨"balance_port", "flow"⟩, ⟨⟨"balance_port", "flow"⟩, (.add [(.neg (.par "max_load")), (.var "curtailment")])⟩)]

/-- what model `electrolyser` becomes -/
def andromedeElectrolyserModel : Model where
  id := "electrolyser"
  parameters := [
    ("efficiency", ⟨"efficiency", .continuous, ⟨false, false⟩⟩),
    ("p_max", ⟨"p_max", .continuous, ⟨true, true⟩⟩)]
  variables_ := [
    ("power", ⟨"power", .continuous, (some (.lit (.fin 0))), (some (.par "p_max")), ⟨true, true⟩, .operational⟩)]
  constraints := []
  bindingConstraints := []
  objectiveOperational := none
  ports := [
    ("power_port", ⟨⟨"flow", ["flow"]⟩, "power_port"⟩),
    ("hydrogen_port", ⟨⟨"flow", ["flow"]⟩, "hydrogen_port"⟩)]
  portFieldsDefinitions := [
    (⟨"power_port", "flow"⟩, ⟨⟨"power_port", "flow"⟩, (.neg (.var "power"))⟩),
    (⟨"hydrogen_port", "flow"⟩, ⟨⟨"hydrogen_port", "flow"⟩, (.mul (.par "efficiency") (.var "power"))⟩)]

/-- what model `battery` becomes -/
def andromedeBatteryModel : Model where
  id := "battery"
  parameters := [
    ("reservoir_capacity", ⟨"reservoir_capacity", .continuous, ⟨false, false⟩⟩),
    ("injection_nominal_capacity", ⟨"injection_nominal_capacity", .continuous, ⟨false, false⟩⟩),
    ("withdrawal_nominal_capacity", ⟨"withdrawal_nominal_capacity", .continuous, ⟨false, false⟩⟩),
    ("efficiency_injection", ⟨"efficiency_injection", .continuous, ⟨false, false⟩⟩),
    ("efficiency_withdrawal", ⟨"efficiency_withdrawal", .continuous, ⟨false, false⟩⟩),
    ("lower_rule_curve", ⟨"lower_rule_curve", .continuous, ⟨true, true⟩⟩),
    ("upper_rule_curve", ⟨"upper_rule_curve", .continuous, ⟨true, true⟩⟩),
    ("p_max_injection_modulation", ⟨"p_max_injection_modulation", .continuous, ⟨true, true⟩⟩),
    ("p_max_withdrawal_modulation", ⟨"p_max_withdrawal_modulation", .continuous, ⟨true, true⟩⟩),
    ("marginal_cost", ⟨"marginal_cost", .continuous, ⟨true, false⟩⟩)]
  variables_ := [
    ("p_injection", ⟨"p_injection", .continuous, (some (.lit (.fin 0))), (some (.mul (.par "p_max_injection_modulation") (.par "injection_nominal_capacity"))), ⟨true, true⟩, .operational⟩),
    ("p_withdrawal", ⟨"p_withdrawal", .continuous, (some (.lit (.fin 0))), (some (.mul (.par "p_max_withdrawal_modulation") (.par "withdrawal_nominal_capacity"))), ⟨true, true⟩, .operational⟩),
    ("level", ⟨"level", .continuous, (some (.mul (.par "lower_rule_curve") (.par "reservoir_capacity"))), (some (.mul (.par "upper_rule_curve") (.par "reservoir_capacity"))), ⟨true, true⟩, .operational⟩)]
  constraints := [
    ("level_equation",
      { name := "level_equation", expression := .add [(.shift (.var "level") (.lit (.fin 1))), (.neg (.var "level")), (.neg (.mul (.par "efficiency_injection") (.var "p_injection"))), (.neg (.neg (.mul (.par "efficiency_withdrawal") (.var "p_withdrawal"))))],
        lowerBound := .lit (.fin 0), upperBound := .lit (.fin 0) })]
  bindingConstraints := []
  objectiveOperational := some (.scen (.allsum (.mul (.par "marginal_cost") (.var "p_injection"))) .expectation)
  ports := [
    ("injection_port", ⟨⟨"flow", ["flow"]⟩, "injection_port"⟩)]
  portFieldsDefinitions := [
    (⟨"injection_port", "flow"⟩, ⟨⟨"injection_port", "flow"⟩, (.add [(.var "p_withdrawal"), (.neg (.var "p_injection"))])⟩)]

/-- the library andromede-v1-models -/
def andromedeLibrary : Library where
  id := "andromede-v1-models"
  portTypes := [("flow", ⟨"flow", ["flow"]⟩)]
  models := [
    ("dsr", andromedeDsrModel),
    ("electrolyser", andromedeElectrolyserModel),
    ("battery", andromedeBatteryModel)]

/-- what model `bus` becomes -/
def pypsaBusModel : Model where
  id := "bus"
  parameters := [
    ("v_nom", ⟨"v_nom", .continuous, ⟨false, false⟩⟩),
    ("x", ⟨"x", .continuous, ⟨false, false⟩⟩),
    ("y", ⟨"y", .continuous, ⟨false, false⟩⟩),
    ("v_mag_pu_set", ⟨"v_mag_pu_set", .continuous, ⟨true, false⟩⟩),
    ("v_mag_pu_min", ⟨"v_mag_pu_min", .continuous, ⟨false, false⟩⟩),
    ("v_mag_pu_max", ⟨"v_mag_pu_max", .continuous, ⟨false, false⟩⟩)]
  variables_ := []
  constraints := []
  bindingConstraints := [
    ("p_balance",
      { name := "p_balance", expression := .add [(.agg (.portField "p_balance_port" "flow") .portSum), (.neg (.lit (.fin 0)))],
        lowerBound := .lit (.fin 0), upperBound := .lit (.fin 0) }),
    ("q_balance",
      { name := "q_balance", expression := .add [(.agg (.portField "q_balance_port" "flow") .portSum), (.neg (.lit (.fin 0)))],
        lowerBound := .lit (.fin 0), upperBound := .lit (.fin 0) })]
  objectiveOperational := none
  ports := [
    ("p_balance_port", ⟨⟨"flow", ["flow"]⟩, "p_balance_port"⟩),
    ("q_balance_port", ⟨⟨"flow", ["flow"]⟩, "q_balance_port"⟩)]
  portFieldsDefinitions := []

/-- what model `load` becomes -/
def pypsaLoadModel : Model where
  id := "load"
  parameters := [
    ("p_set", ⟨"p_set", .continuous, ⟨true, true⟩⟩),
    ("q_set", ⟨"q_set", .continuous, ⟨true, true⟩⟩),
    ("sign", ⟨"sign", .continuous, ⟨false, false⟩⟩)]
  variables_ := []
  constraints := []
  bindingConstraints := []
  objectiveOperational := none
  ports := [
    ("p_balance_port", ⟨⟨"flow", ["flow"]⟩, "p_balance_port"⟩),
    ("q_balance_port", ⟨⟨"flow", ["flow"]⟩, "q_balance_port"⟩)]
  portFieldsDefinitions := [
    (⟨"p_balance_port", "flow"⟩, ⟨⟨"p_balance_port", "flow"⟩, (.mul (.par "sign") (.par "p_set"))⟩),
    (⟨"q_balance_port", "flow"⟩, ⟨⟨"q_balance_port", "flow"⟩, (.mul (.par "sign") (.par "q_set"))⟩)]

/-- what model `generator` becomes -/
def pypsaGeneratorModel : Model where
  id := "generator"
  parameters := [
    ("p_nom_min", ⟨"p_nom_min", .continuous, ⟨false, false⟩⟩),
    ("p_nom_max", ⟨"p_nom_max", .continuous, ⟨false, false⟩⟩),
    ("p_min_pu", ⟨"p_min_pu", .continuous, ⟨true, false⟩⟩),
    ("p_max_pu", ⟨"p_max_pu", .continuous, ⟨true, false⟩⟩),
    ("e_sum_min", ⟨"e_sum_min", .continuous, ⟨false, false⟩⟩),
    ("e_sum_max", ⟨"e_sum_max", .continuous, ⟨false, false⟩⟩),
    ("sign", ⟨"sign", .continuous, ⟨false, false⟩⟩),
    ("marginal_cost", ⟨"marginal_cost", .continuous, ⟨true, false⟩⟩),
    ("capital_cost", ⟨"capital_cost", .continuous, ⟨false, false⟩⟩),
    ("efficiency", ⟨"efficiency", .continuous, ⟨true, false⟩⟩),
    ("emission_factor", ⟨"emission_factor", .continuous, ⟨false, false⟩⟩)]
  variables_ := [
    ("p_nom", ⟨"p_nom", .continuous, (some (.par "p_nom_min")), (some (.par "p_nom_max")), ⟨false, false⟩, .operational⟩),
    ("p", ⟨"p", .continuous, none, none, ⟨true, true⟩, .operational⟩)]
  constraints := [
    ("min_dispatch",
      { name := "min_dispatch", expression := .add [(.var "p"), (.neg (.mul (.var "p_nom") (.par "p_min_pu")))],
        lowerBound := .lit (.fin 0), upperBound := .lit .pinf }),
    ("max_dispatch",
      { name := "max_dispatch", expression := .add [(.var "p"), (.neg (.mul (.var "p_nom") (.par "p_max_pu")))],
        lowerBound := .lit .ninf, upperBound := .lit (.fin 0) }),
    ("min_production",
      { name := "min_production", expression := .add [(.allsum (.var "p")), (.neg (.par "e_sum_min"))],
        lowerBound := .lit (.fin 0), upperBound := .lit .pinf }),
    ("max_production",
      { name := "max_production", expression := .add [(.allsum (.var "p")), (.neg (.par "e_sum_max"))],
        lowerBound := .lit .ninf, upperBound := .lit (.fin 0) })]
  bindingConstraints := []
  objectiveOperational := some (.add [(.scen (.allsum (.mul (.par "marginal_cost") (.var "p"))) .expectation), (.mul (.var "p_nom") (.par "capital_cost"))])
  ports := [
    ("p_balance_port", ⟨⟨"flow", ["flow"]⟩, "p_balance_port"⟩),
    ("emission_port", ⟨⟨"emission", ["emission"]⟩, "emission_port"⟩)]
  portFieldsDefinitions := [
    (⟨"p_balance_port", "flow"⟩, ⟨⟨"p_balance_port", "flow"⟩, (.mul (.var "p") (.par "sign"))⟩),
    (⟨"emission_port", "emission"⟩, ⟨⟨"emission_port", "emission"⟩, (.div (.mul (.var "p") (.par "emission_factor")) (.par "efficiency"))⟩)]

/-- what model `link` becomes -/
def pypsaLinkModel : Model where
  id := "link"
  parameters := [
    ("efficiency", ⟨"efficiency", .continuous, ⟨true, false⟩⟩),
    ("p_nom_min", ⟨"p_nom_min", .continuous, ⟨false, false⟩⟩),
    ("p_nom_max", ⟨"p_nom_max", .continuous, ⟨false, false⟩⟩),
    ("p_min_pu", ⟨"p_min_pu", .continuous, ⟨true, false⟩⟩),
    ("p_max_pu", ⟨"p_max_pu", .continuous, ⟨true, false⟩⟩),
    ("capital_cost", ⟨"capital_cost", .continuous, ⟨false, false⟩⟩),
    ("marginal_cost", ⟨"marginal_cost", .continuous, ⟨true, false⟩⟩)]
  variables_ := [
    ("p_nom", ⟨"p_nom", .continuous, (some (.par "p_nom_min")), (some (.par "p_nom_max")), ⟨false, false⟩, .operational⟩),
    ("p0", ⟨"p0", .continuous, none, none, ⟨true, true⟩, .operational⟩)]
  constraints := [
    ("p0_upper",
      { name := "p0_upper", expression := .add [(.var "p0"), (.neg (.mul (.par "p_max_pu") (.var "p_nom")))],
        lowerBound := .lit .ninf, upperBound := .lit (.fin 0) }),
    ("p0_lower",
      { name := "p0_lower", expression := .add [(.var "p0"), (.neg (.mul (.par "p_min_pu") (.var "p_nom")))],
        lowerBound := .lit (.fin 0), upperBound := .lit .pinf })]
  bindingConstraints := []
  objectiveOperational := some (.add [(.scen (.allsum (.mul (.par "marginal_cost") (.var "p0"))) .expectation), (.mul (.par "capital_cost") (.var "p_nom"))])
  ports := [
    ("p0_port", ⟨⟨"flow", ["flow"]⟩, "p0_port"⟩),
    ("p1_port", ⟨⟨"flow", ["flow"]⟩, "p1_port"⟩)]
  portFieldsDefinitions := [
    (⟨"p0_port", "flow"⟩, ⟨⟨"p0_port", "flow"⟩, (.neg (.var "p0"))⟩),
    (⟨"p1_port", "flow"⟩, ⟨⟨"p1_port", "flow"⟩, (.mul (.par "efficiency") (.var "p0"))⟩)]

/-- what model `storage_unit` becomes -/
def pypsaStorageUnitModel : Model where
  id := "storage_unit"
  parameters := [
    ("p_nom_min", ⟨"p_nom_min", .continuous, ⟨false, false⟩⟩),
    ("p_nom_max", ⟨"p_nom_max", .continuous, ⟨false, false⟩⟩),
    ("p_min_pu", ⟨"p_min_pu", .continuous, ⟨true, false⟩⟩),
    ("p_max_pu", ⟨"p_max_pu", .continuous, ⟨true, false⟩⟩),
    ("sign", ⟨"sign", .continuous, ⟨false, false⟩⟩),
    ("spill_cost", ⟨"spill_cost", .continuous, ⟨true, false⟩⟩),
    ("marginal_cost", ⟨"marginal_cost", .continuous, ⟨true, false⟩⟩),
    ("marginal_cost_storage", ⟨"marginal_cost_storage", .continuous, ⟨true, false⟩⟩),
    ("capital_cost", ⟨"capital_cost", .continuous, ⟨false, false⟩⟩),
    ("max_hours", ⟨"max_hours", .continuous, ⟨false, false⟩⟩),
    ("efficiency_store", ⟨"efficiency_store", .continuous, ⟨true, false⟩⟩),
    ("efficiency_dispatch", ⟨"efficiency_dispatch", .continuous, ⟨true, false⟩⟩),
    ("standing_loss", ⟨"standing_loss", .continuous, ⟨true, false⟩⟩),
    ("inflow", ⟨"inflow", .continuous, ⟨true, true⟩⟩),
    ("emission_factor", ⟨"emission_factor", .continuous, ⟨false, false⟩⟩)]
  variables_ := [
    ("p_nom", ⟨"p_nom", .continuous, (some (.par "p_nom_min")), (some (.par "p_nom_max")), ⟨false, false⟩, .operational⟩),
    ("p_store", ⟨"p_store", .continuous, (some (.lit (.fin 0))), (some (.mul (.par "p_max_pu") (.par "p_nom_max"))), ⟨true, true⟩, .operational⟩),
    ("p_dispatch", ⟨"p_dispatch", .continuous, (some (.lit (.fin 0))), (some (.mul (.par "p_max_pu") (.par "p_nom_max"))), ⟨true, true⟩, .operational⟩),
    ("state_of_charge", ⟨"state_of_charge", .continuous, (some (.lit (.fin 0))), (some (.mul (.par "max_hours") (.par "p_nom_max"))), ⟨true, true⟩, .operational⟩),
    ("spill", ⟨"spill", .continuous, (some (.lit (.fin 0))), none, ⟨true, true⟩, .operational⟩)]
  constraints := [
    ("p_store_upper",
      { name := "p_store_upper", expression := .add [(.var "p_store"), (.neg (.mul (.par "p_max_pu") (.var "p_nom")))],
        lowerBound := .lit .ninf, upperBound := .lit (.fin 0) }),
    ("p_dispatch_upper",
      { name := "p_dispatch_upper", expression := .add [(.var "p_store"), (.neg (.mul (.par "p_max_pu") (.var "p_nom")))],
        lowerBound := .lit .ninf, upperBound := .lit (.fin 0) }),
    ("state_of_charge_upper",
      { name := "state_of_charge_upper", expression := .add [(.var "state_of_charge"), (.neg (.mul (.par "max_hours") (.var "p_nom")))],
        lowerBound := .lit .ninf, upperBound := .lit (.fin 0) }),
    ("state_of_charge_balance",
      { name := "state_of_charge_balance", expression := .add [(.var "state_of_charge"), (.neg (.mul (.add [(.lit (.fin 1)), (.neg (.par "standing_loss"))]) (.shift (.var "state_of_charge") (.neg (.lit (.fin 1)))))), (.neg (.mul (.par "efficiency_store") (.var "p_store"))), (.neg (.neg (.div (.var "p_dispatch") (.par "efficiency_dispatch")))), (.neg (.par "inflow")), (.neg (.neg (.var "spill")))],
        lowerBound := .lit (.fin 0), upperBound := .lit (.fin 0) })]
  bindingConstraints := []
  objectiveOperational := some (.add [(.scen (.allsum (.add [(.mul (.par "marginal_cost") (.var "p_dispatch")), (.mul (.par "spill_cost") (.var "spill")), (.mul (.par "marginal_cost_storage") (.var "state_of_charge"))])) .expectation), (.mul (.par "capital_cost") (.var "p_nom"))])
  ports := [
    ("p_balance_port", ⟨⟨"flow", ["flow"]⟩, "p_balance_port"⟩),
    ("emission_port", ⟨⟨"emission", ["emission"]⟩, "emission_port"⟩)]
  portFieldsDefinitions := [
    (⟨"p_balance_port", "flow"⟩, ⟨⟨"p_balance_port", "flow"⟩, (.add [(.var "p_dispatch"), (.neg (.var "p_store"))])⟩),
    (⟨"emission_port", "emission"⟩, ⟨⟨"emission_port", "emission"⟩, (.mul (.par "emission_factor") (.lit (.fin 0)))⟩)]

/-- what model `store` becomes -/
def pypsaStoreModel : Model where
  id := "store"
  parameters := [
    ("e_nom_min", ⟨"e_nom_min", .continuous, ⟨false, false⟩⟩),
    ("e_nom_max", ⟨"e_nom_max", .continuous, ⟨false, false⟩⟩),
    ("e_min_pu", ⟨"e_min_pu", .continuous, ⟨true, false⟩⟩),
    ("e_max_pu", ⟨"e_max_pu", .continuous, ⟨true, false⟩⟩),
    ("sign", ⟨"sign", .continuous, ⟨false, false⟩⟩),
    ("marginal_cost", ⟨"marginal_cost", .continuous, ⟨true, false⟩⟩),
    ("marginal_cost_storage", ⟨"marginal_cost_storage", .continuous, ⟨true, false⟩⟩),
    ("capital_cost", ⟨"capital_cost", .continuous, ⟨false, false⟩⟩),
    ("standing_loss", ⟨"standing_loss", .continuous, ⟨true, false⟩⟩),
    ("emission_factor", ⟨"emission_factor", .continuous, ⟨false, false⟩⟩)]
  variables_ := [
    ("e_nom", ⟨"e_nom", .continuous, (some (.par "e_nom_min")), (some (.par "e_nom_max")), ⟨false, false⟩, .operational⟩),
    ("e", ⟨"e", .continuous, none, none, ⟨true, true⟩, .operational⟩),
    ("p", ⟨"p", .continuous, none, none, ⟨true, true⟩, .operational⟩)]
  constraints := [
    ("e_upper",
      { name := "e_upper", expression := .add [(.var "e"), (.neg (.mul (.par "e_max_pu") (.var "e_nom")))],
        lowerBound := .lit .ninf, upperBound := .lit (.fin 0) }),
    ("e_lower",
      { name := "e_lower", expression := .add [(.var "e"), (.neg (.mul (.par "e_min_pu") (.var "e_nom")))],
        lowerBound := .lit (.fin 0), upperBound := .lit .pinf }),
    ("energy_balance",
      { name := "energy_balance", expression := .add [(.var "e"), (.neg (.mul (.add [(.lit (.fin 1)), (.neg (.par "standing_loss"))]) (.shift (.var "e") (.neg (.lit (.fin 1)))))), (.neg (.neg (.var "p")))],
        lowerBound := .lit (.fin 0), upperBound := .lit (.fin 0) })]
  bindingConstraints := []
  objectiveOperational := some (.add [(.scen (.allsum (.add [(.mul (.par "marginal_cost") (.var "p")), (.mul (.par "marginal_cost_storage") (.var "e"))])) .expectation), (.mul (.par "capital_cost") (.var "e_nom"))])
  ports := [
    ("p_balance_port", ⟨⟨"flow", ["flow"]⟩, "p_balance_port"⟩),
    ("emission_port", ⟨⟨"emission", ["emission"]⟩, "emission_port"⟩)]
  portFieldsDefinitions := [
    (⟨"p_balance_port", "flow"⟩, ⟨⟨"p_balance_port", "flow"⟩, (.var "p")⟩),
    (⟨"emission_port", "emission"⟩, ⟨⟨"emission_port", "emission"⟩, (.mul (.par "emission_factor") (.lit (.fin 0)))⟩)]

/-- what model `global_constraint_co2_max` becomes -/
def pypsaGlobalConstraintCo2MaxModel : Model where
  id := "global_constraint_co2_max"
  parameters := [
    ("quota", ⟨"quota", .continuous, ⟨false, false⟩⟩)]
  variables_ := []
  constraints := []
  bindingConstraints := [
    ("constraint_expression",
      { name := "constraint_expression", expression := .add [(.allsum (.agg (.portField "emission_port" "emission") .portSum)), (.neg (.par "quota"))],
        lowerBound := .lit .ninf, upperBound := .lit (.fin 0) })]
  objectiveOperational := none
  ports := [
    ("emission_port", ⟨⟨"emission", ["emission"]⟩, "emission_port"⟩)]
  portFieldsDefinitions := []

/-- what model `global_constraint_co2_eq` becomes -/
def pypsaGlobalConstraintCo2EqModel : Model where
  id := "global_constraint_co2_eq"
  parameters := [
    ("quota", ⟨"quota", .continuous, ⟨false, false⟩⟩)]
  variables_ := []
  constraints := []
  bindingConstraints := [
    ("constraint_expression",
      { name := "constraint_expression", expression := .add [(.allsum (.agg (.portField "emission_port" "emission") .portSum)), (.neg (.par "quota"))],
        lowerBound := .lit (.fin 0), upperBound := .lit (.fin 0) })]
  objectiveOperational := none
  ports := [
    ("emission_port", ⟨⟨"emission", ["emission"]⟩, "emission_port"⟩)]
  portFieldsDefinitions := []

/-- the library pypsa_models -/
def pypsaLibrary : Library where
  id := "pypsa_models"
  portTypes := [("flow", ⟨"flow", ["flow"]⟩), ("emission", ⟨"emission", ["emission"]⟩)]
  models := [
    ("bus", pypsaBusModel),
    ("load", pypsaLoadModel),
    ("generator", pypsaGeneratorModel),
    ("link", pypsaLinkModel),
    ("storage_unit", pypsaStorageUnitModel),
    ("store", pypsaStoreModel),
    ("global_constraint_co2_max", pypsaGlobalConstraintCo2MaxModel),
    ("global_constraint_co2_eq", pypsaGlobalConstraintCo2EqModel)]

end Verif.Shipped
