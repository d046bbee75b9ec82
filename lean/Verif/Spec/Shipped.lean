import Verif.Spec.Model
import Verif.Spec.Problem

/-!
# What the models that come with the code say

Each model of the three libraries in `src/andromede/libs` is described by the mathematical rules that it stands for.
The rules are written here by hand, without any expression tree: `r.v n t s` and `r.p n t s` are the values of variable
`n` and parameter `n` of a component at timestep `t` in scenario `s`, and `r.received port field t s` is the sum of what the
connections attached to a port of the component bring.
-/

namespace Verif

/-- The values of the symbols of a component. -/
structure Readings where
  /-- number of timesteps -/
  T : Nat
  /-- number of scenarios -/
  S : Nat
  /-- variables -/
  v : String → Int → Int → ℚ
  /-- parameters -/
  p : String → Int → Int → ℚ
  /-- sum over the connections attached to a port of the values of a field -/
  received : String → String → Int → Int → ℚ

/-- sum over the timesteps of the block, averaged over the scenarios -/
def Readings.expectedTotal (r : Readings) (f : Int → Int → ℚ) : ℚ :=
  (∑ s ∈ Finset.range r.S, ∑ t ∈ Finset.range r.T, f t s) / r.S

/-- a whole number -/
def Whole (q : ℚ) : Prop := ∃ n : ℤ, q = n

/-- The rules of a model. -/
structure Rules where
  /-- the parameters; do they depend on time and on the scenario? -/
  parameters : List (String × Bool × Bool)
  /-- the variables; do they depend on time and on the scenario? -/
  variables_ : List (String × Bool × Bool)
  /-- what must be true at timestep `t` in scenario `s` -/
  accepts : Readings → Int → Int → Prop
  /-- contribution to the cost -/
  cost : Readings → ℚ
  /-- the ports and their fields; what the component sends on a field, if it defines it -/
  ports : List (String × List (String × Option (Readings → Int → Int → ℚ)))

/-- the readings of a component from a reading of the study -/
def MCtx.readings (M : MCtx) : Readings where
  T := M.D.T
  S := M.D.S
  v n t s := mden M (.var n) t s
  p n t s := mden M (.par n) t s
  received p f t s := ((M.ports p f).map fun v => v t s).sum

/-- the bounds and types of the variables and all constraints of a model are satisfied at `(t, s)` -/
def Model.AcceptsAt (m : Model) (M : MCtx) (t s : Int) : Prop :=
  (∀ v ∈ m.variables_.values, OptCtx.aboveOpt M v.lowerBound (mden M (.var v.name) t s) t s ∧
      OptCtx.belowOpt M v.upperBound (mden M (.var v.name) t s) t s ∧ OptCtx.ofType v.dataType (mden M (.var v.name) t s)) ∧
    (∀ c ∈ m.constraints.values, c.Holds M t s) ∧ ∀ c ∈ m.bindingConstraints.values, c.Holds M t s

/-- The model stands for the rules: same symbols, same ports, and for any values of the variables, parameters and connected
components, the same points are accepted, at the same cost, and the same values are sent. -/
structure Model.StandsFor (m : Model) (r : Rules) : Prop where
  parameters : m.parameters.map (fun (n, x) => (n, x.structure_.time, x.structure_.scenario)) = r.parameters
  variables_ : m.variables_.map (fun (n, x) => (n, x.structure_.time, x.structure_.scenario)) = r.variables_
  accepts : ∀ M t s, m.AcceptsAt M t s ↔ r.accepts M.readings t s
  cost : ∀ M, ((m.objectives.map fun e => mden M e 0 0).sum) = r.cost M.readings
  ports : m.ports.map (fun (n, p) => (n, p.portType.fields)) = r.ports.map fun (n, fs) => (n, fs.map (·.1))
  sends : ∀ port fs, (port, fs) ∈ r.ports → ∀ field d, (field, d) ∈ fs →
    match d with
    | none => m.portFieldsDefinitions.get? ⟨port, field⟩ = none
    | some f => ∃ e, m.portFieldsDefinitions.get? ⟨port, field⟩ = some e ∧ ∀ M t s, mden M e.definition t s = f M.readings t s

/-- The library is made of models that stand for the listed rules, in this order. -/
def Library.StandsFor (l : Library) (rules : List (String × Rules)) : Prop :=
  List.Forall₂ (fun (m : String × Model) (r : String × Rules) => m.1 = r.1 ∧ m.2.id = r.1 ∧ m.2.StandsFor r.2) l.models rules

namespace Rules

/-- no rule -/
def free : Readings → Int → Int → Prop := fun _ _ _ => True

/-! ## antares-historic -/

/-- An area: what comes in is the load shedding and spillage balance. -/
def area : Rules where
  parameters := [("spillage_cost", false, false), ("ens_cost", false, false)]
  variables_ := [("spillage", true, true), ("unsupplied_energy", true, true)]
  accepts r t s := 0 ≤ r.v "spillage" t s ∧ 0 ≤ r.v "unsupplied_energy" t s ∧
    r.received "balance_port" "flow" t s + r.v "unsupplied_energy" t s = r.v "spillage" t s
  cost r := r.expectedTotal fun t s =>
    r.p "spillage_cost" t s * r.v "spillage" t s + r.p "ens_cost" t s * r.v "unsupplied_energy" t s
  ports := [("balance_port", [("flow", none)])]

/-- A load takes its power from the area. -/
def load : Rules where
  parameters := [("load", true, true)]
  variables_ := []
  accepts := free
  cost _ := 0
  ports := [("balance_port", [("flow", some fun r t s => - r.p "load" t s)])]

/-- A link brings to one end what it takes from the other, within its capacities. -/
def link : Rules where
  parameters := [("capacity_direct", true, true), ("capacity_indirect", true, true)]
  variables_ := [("flow_direct", true, true), ("flow_indirect", true, true), ("flow", true, true)]
  accepts r t s := (0 ≤ r.v "flow_direct" t s ∧ r.v "flow_direct" t s ≤ r.p "capacity_direct" t s) ∧
    (0 ≤ r.v "flow_indirect" t s ∧ r.v "flow_indirect" t s ≤ r.p "capacity_indirect" t s) ∧
    r.v "flow" t s = r.v "flow_direct" t s - r.v "flow_indirect" t s
  cost _ := 0
  ports := [("out_port", [("flow", some fun r t s => r.v "flow" t s)]),
    ("in_port", [("flow", some fun r t s => - r.v "flow" t s)])]

/-- A renewable source sends its generation. -/
def renewable : Rules where
  parameters := [("nominal_capacity", false, false), ("unit_count", false, false), ("generation", true, true)]
  variables_ := []
  accepts := free
  cost _ := 0
  ports := [("balance_port", [("flow", some fun r t s => r.p "generation" t s)])]

/-- Sum of `f` over the `d` timesteps up to and including `t`. -/
def lastSteps (d : ℚ) (f : Int → ℚ) (t : Int) : ℚ := ∑ k ∈ Finset.Icc (t - d.ceil + 1) t, f k

/-- A cluster of identical thermal units, with start-ups, shut-downs, failures and minimum durations. -/
def thermal : Rules where
  parameters := [("p_min_cluster", true, true), ("p_max_cluster", true, true), ("p_min_unit", false, false),
    ("p_max_unit", false, false), ("generation_cost", false, false), ("startup_cost", false, false),
    ("fixed_cost", false, false), ("d_min_up", false, false), ("d_min_down", false, false), ("nb_units_min", true, true),
    ("nb_units_max", true, true), ("nb_units_max_variation_forward", true, true),
    ("nb_units_max_variation_backward", true, true)]
  variables_ := [("generation", true, true), ("nb_units_on", true, true), ("nb_starting", true, true),
    ("nb_stopping", true, true), ("nb_failing", true, true)]
  accepts r t s :=
    (r.p "p_min_cluster" t s ≤ r.v "generation" t s ∧ r.v "generation" t s ≤ r.p "p_max_cluster" t s) ∧
    (r.p "nb_units_min" t s ≤ r.v "nb_units_on" t s ∧ r.v "nb_units_on" t s ≤ r.p "nb_units_max" t s ∧
      Whole (r.v "nb_units_on" t s)) ∧
    (0 ≤ r.v "nb_starting" t s ∧ r.v "nb_starting" t s ≤ r.p "nb_units_max" t s ∧ Whole (r.v "nb_starting" t s)) ∧
    (0 ≤ r.v "nb_stopping" t s ∧ Whole (r.v "nb_stopping" t s)) ∧
    0 ≤ r.v "nb_failing" t s ∧
    r.v "generation" t s ≤ r.v "nb_units_on" t s * r.p "p_max_unit" t s ∧
    r.v "nb_units_on" t s * r.p "p_min_unit" t s ≤ r.v "generation" t s ∧
    r.v "nb_units_on" t s = r.v "nb_units_on" (t - 1) s + r.v "nb_starting" t s - r.v "nb_stopping" t s ∧
    r.v "nb_failing" t s ≤ r.v "nb_stopping" t s ∧
    r.v "nb_failing" t s ≤ r.p "nb_units_max_variation_forward" t s ∧
    lastSteps (r.p "d_min_up" 0 0) (fun k => r.v "nb_starting" k s - r.v "nb_failing" k s) t ≤ r.v "nb_units_on" t s ∧
    lastSteps (r.p "d_min_down" 0 0) (fun k => r.v "nb_stopping" k s) t ≤
      r.p "nb_units_max" (t - (r.p "d_min_down" 0 0).ceil) s - r.v "nb_units_on" t s +
        lastSteps (r.p "d_min_down" 0 0) (fun k => r.p "nb_units_max_variation_backward" k s) t
  cost r := r.expectedTotal fun t s =>
    r.p "generation_cost" t s * r.v "generation" t s + r.p "startup_cost" t s * r.v "nb_starting" t s +
      r.p "fixed_cost" t s * r.v "nb_units_on" t s
  ports := [("balance_port", [("flow", some fun r t s => r.v "generation" t s)])]

/-- A storage with rule curves, inflows and a given initial level. -/
def shortTermStorage : Rules where
  parameters := [("reservoir_capacity", false, false), ("injection_nominal_capacity", false, false),
    ("withdrawal_nominal_capacity", false, false), ("efficiency_injection", false, false),
    ("efficiency_withdrawal", false, false), ("lower_rule_curve", true, true), ("upper_rule_curve", true, true),
    ("p_max_injection_modulation", true, true), ("p_max_withdrawal_modulation", true, true), ("inflows", true, true),
    ("initial_level", false, false)]
  variables_ := [("p_injection", true, true), ("p_withdrawal", true, true), ("level", true, true)]
  accepts r t s :=
    (0 ≤ r.v "p_injection" t s ∧
      r.v "p_injection" t s ≤ r.p "p_max_injection_modulation" t s * r.p "injection_nominal_capacity" t s) ∧
    (0 ≤ r.v "p_withdrawal" t s ∧
      r.v "p_withdrawal" t s ≤ r.p "p_max_withdrawal_modulation" t s * r.p "withdrawal_nominal_capacity" t s) ∧
    (r.p "lower_rule_curve" t s * r.p "reservoir_capacity" t s ≤ r.v "level" t s ∧
      r.v "level" t s ≤ r.p "upper_rule_curve" t s * r.p "reservoir_capacity" t s) ∧
    r.v "level" 0 s = r.p "initial_level" t s * r.p "reservoir_capacity" t s ∧
    r.v "level" (t + 1) s = r.v "level" t s + r.p "efficiency_injection" t s * r.v "p_injection" t s -
      r.p "efficiency_withdrawal" t s * r.v "p_withdrawal" t s + r.p "inflows" t s
  cost _ := 0
  ports := [("injection_port", [("flow", some fun r t s => r.v "p_withdrawal" t s - r.v "p_injection" t s)])]

/-- the library antares-historic -/
def antares : List (String × Rules) :=
  [("area", area), ("load", load), ("link", link), ("renewable", renewable), ("thermal", thermal),
    ("short-term-storage", shortTermStorage)]

/-! ## andromede-v1-models -/

/-- A load part of which can be curtailed at a price. -/
def dsr : Rules where
  parameters := [("max_load", true, true), ("curtailment_price", false, false)]
  variables_ := [("curtailment", true, true)]
  accepts r t s := 0 ≤ r.v "curtailment" t s ∧ r.v "curtailment" t s ≤ r.p "max_load" t s
  cost r := r.expectedTotal fun t s => r.p "curtailment_price" t s * r.v "curtailment" t s
  ports := [("balance_port", [("flow", some fun r t s => r.v "curtailment" t s - r.p "max_load" t s)])]

/-- Electricity to hydrogen. -/
def electrolyser : Rules where
  parameters := [("efficiency", false, false), ("p_max", true, true)]
  variables_ := [("power", true, true)]
  accepts r t s := 0 ≤ r.v "power" t s ∧ r.v "power" t s ≤ r.p "p_max" t s
  cost _ := 0
  ports := [("power_port", [("flow", some fun r t s => - r.v "power" t s)]),
    ("hydrogen_port", [("flow", some fun r t s => r.p "efficiency" t s * r.v "power" t s)])]

/-- A battery: a storage without inflows and with a free initial level; injecting is paid for. -/
def battery : Rules where
  parameters := [("reservoir_capacity", false, false), ("injection_nominal_capacity", false, false),
    ("withdrawal_nominal_capacity", false, false), ("efficiency_injection", false, false),
    ("efficiency_withdrawal", false, false), ("lower_rule_curve", true, true), ("upper_rule_curve", true, true),
    ("p_max_injection_modulation", true, true), ("p_max_withdrawal_modulation", true, true), ("marginal_cost", true, false)]
  variables_ := [("p_injection", true, true), ("p_withdrawal", true, true), ("level", true, true)]
  accepts r t s :=
    (0 ≤ r.v "p_injection" t s ∧
      r.v "p_injection" t s ≤ r.p "p_max_injection_modulation" t s * r.p "injection_nominal_capacity" t s) ∧
    (0 ≤ r.v "p_withdrawal" t s ∧
      r.v "p_withdrawal" t s ≤ r.p "p_max_withdrawal_modulation" t s * r.p "withdrawal_nominal_capacity" t s) ∧
    (r.p "lower_rule_curve" t s * r.p "reservoir_capacity" t s ≤ r.v "level" t s ∧
      r.v "level" t s ≤ r.p "upper_rule_curve" t s * r.p "reservoir_capacity" t s) ∧
    r.v "level" (t + 1) s = r.v "level" t s + r.p "efficiency_injection" t s * r.v "p_injection" t s -
      r.p "efficiency_withdrawal" t s * r.v "p_withdrawal" t s
  cost r := r.expectedTotal fun t s => r.p "marginal_cost" t s * r.v "p_injection" t s
  ports := [("injection_port", [("flow", some fun r t s => r.v "p_withdrawal" t s - r.v "p_injection" t s)])]

/-- the library andromede-v1-models -/
def andromede : List (String × Rules) := [("dsr", dsr), ("electrolyser", electrolyser), ("battery", battery)]

/-! ## pypsa_models -/

/-- A bus: active and reactive power balance. -/
def bus : Rules where
  parameters := [("v_nom", false, false), ("x", false, false), ("y", false, false), ("v_mag_pu_set", true, false),
    ("v_mag_pu_min", false, false), ("v_mag_pu_max", false, false)]
  variables_ := []
  accepts r t s := r.received "p_balance_port" "flow" t s = 0 ∧ r.received "q_balance_port" "flow" t s = 0
  cost _ := 0
  ports := [("p_balance_port", [("flow", none)]), ("q_balance_port", [("flow", none)])]

/-- A load, of sign -1 when it consumes. -/
def pypsaLoad : Rules where
  parameters := [("p_set", true, true), ("q_set", true, true), ("sign", false, false)]
  variables_ := []
  accepts := free
  cost _ := 0
  ports := [("p_balance_port", [("flow", some fun r t s => r.p "sign" t s * r.p "p_set" t s)]),
    ("q_balance_port", [("flow", some fun r t s => r.p "sign" t s * r.p "q_set" t s)])]

/-- Sum over the timesteps of the block. -/
def total (r : Readings) (f : Int → ℚ) : ℚ := ∑ t ∈ Finset.range r.T, f t

/-- A generator with a nominal power to be chosen, availability, total production limits and emissions. -/
def generator : Rules where
  parameters := [("p_nom_min", false, false), ("p_nom_max", false, false), ("p_min_pu", true, false), ("p_max_pu", true, false),
    ("e_sum_min", false, false), ("e_sum_max", false, false), ("sign", false, false), ("marginal_cost", true, false),
    ("capital_cost", false, false), ("efficiency", true, false), ("emission_factor", false, false)]
  variables_ := [("p_nom", false, false), ("p", true, true)]
  accepts r t s := (r.p "p_nom_min" t s ≤ r.v "p_nom" t s ∧ r.v "p_nom" t s ≤ r.p "p_nom_max" t s) ∧
    r.p "p_min_pu" t s * r.v "p_nom" t s ≤ r.v "p" t s ∧ r.v "p" t s ≤ r.p "p_max_pu" t s * r.v "p_nom" t s ∧
    r.p "e_sum_min" t s ≤ total r (fun u => r.v "p" u s) ∧ total r (fun u => r.v "p" u s) ≤ r.p "e_sum_max" t s
  cost r := r.expectedTotal (fun t s => r.p "marginal_cost" t s * r.v "p" t s) + r.p "capital_cost" 0 0 * r.v "p_nom" 0 0
  ports := [("p_balance_port", [("flow", some fun r t s => r.p "sign" t s * r.v "p" t s)]),
    ("emission_port", [("emission", some fun r t s => r.v "p" t s * r.p "emission_factor" t s / r.p "efficiency" t s)])]

/-- A link with an efficiency. -/
def pypsaLink : Rules where
  parameters := [("efficiency", true, false), ("p_nom_min", false, false), ("p_nom_max", false, false), ("p_min_pu", true, false),
    ("p_max_pu", true, false), ("capital_cost", false, false), ("marginal_cost", true, false)]
  variables_ := [("p_nom", false, false), ("p0", true, true)]
  accepts r t s := (r.p "p_nom_min" t s ≤ r.v "p_nom" t s ∧ r.v "p_nom" t s ≤ r.p "p_nom_max" t s) ∧
    r.p "p_min_pu" t s * r.v "p_nom" t s ≤ r.v "p0" t s ∧ r.v "p0" t s ≤ r.p "p_max_pu" t s * r.v "p_nom" t s
  cost r := r.expectedTotal (fun t s => r.p "marginal_cost" t s * r.v "p0" t s) + r.p "capital_cost" 0 0 * r.v "p_nom" 0 0
  ports := [("p0_port", [("flow", some fun r t s => - r.v "p0" t s)]),
    ("p1_port", [("flow", some fun r t s => r.p "efficiency" t s * r.v "p0" t s)])]

/-- A storage unit.  Its rule on the dispatched power is not the expected one: see `c59_storage_dispatch`. -/
def storageUnit : Rules where
  parameters := [("p_nom_min", false, false), ("p_nom_max", false, false), ("p_min_pu", true, false), ("p_max_pu", true, false),
    ("sign", false, false), ("spill_cost", true, false), ("marginal_cost", true, false), ("marginal_cost_storage", true, false),
    ("capital_cost", false, false), ("max_hours", false, false), ("efficiency_store", true, false),
    ("efficiency_dispatch", true, false), ("standing_loss", true, false), ("inflow", true, true),
    ("emission_factor", false, false)]
  variables_ := [("p_nom", false, false), ("p_store", true, true), ("p_dispatch", true, true), ("state_of_charge", true, true),
    ("spill", true, true)]
  accepts r t s := (r.p "p_nom_min" t s ≤ r.v "p_nom" t s ∧ r.v "p_nom" t s ≤ r.p "p_nom_max" t s) ∧
    (0 ≤ r.v "p_store" t s ∧ r.v "p_store" t s ≤ r.p "p_max_pu" t s * r.p "p_nom_max" t s) ∧
    (0 ≤ r.v "p_dispatch" t s ∧ r.v "p_dispatch" t s ≤ r.p "p_max_pu" t s * r.p "p_nom_max" t s) ∧
    (0 ≤ r.v "state_of_charge" t s ∧ r.v "state_of_charge" t s ≤ r.p "max_hours" t s * r.p "p_nom_max" t s) ∧
    0 ≤ r.v "spill" t s ∧
    r.v "p_store" t s ≤ r.p "p_max_pu" t s * r.v "p_nom" t s ∧
    r.v "state_of_charge" t s ≤ r.p "max_hours" t s * r.v "p_nom" t s ∧
    r.v "state_of_charge" t s = (1 - r.p "standing_loss" t s) * r.v "state_of_charge" (t - 1) s +
      r.p "efficiency_store" t s * r.v "p_store" t s - r.v "p_dispatch" t s / r.p "efficiency_dispatch" t s +
      r.p "inflow" t s - r.v "spill" t s
  cost r := r.expectedTotal (fun t s => r.p "marginal_cost" t s * r.v "p_dispatch" t s + r.p "spill_cost" t s * r.v "spill" t s +
      r.p "marginal_cost_storage" t s * r.v "state_of_charge" t s) + r.p "capital_cost" 0 0 * r.v "p_nom" 0 0
  ports := [("p_balance_port", [("flow", some fun r t s => r.v "p_dispatch" t s - r.v "p_store" t s)]),
    ("emission_port", [("emission", some fun _ _ _ => 0)])]

/-- A store of energy. -/
def store : Rules where
  parameters := [("e_nom_min", false, false), ("e_nom_max", false, false), ("e_min_pu", true, false), ("e_max_pu", true, false),
    ("sign", false, false), ("marginal_cost", true, false), ("marginal_cost_storage", true, false), ("capital_cost", false, false),
    ("standing_loss", true, false), ("emission_factor", false, false)]
  variables_ := [("e_nom", false, false), ("e", true, true), ("p", true, true)]
  accepts r t s := (r.p "e_nom_min" t s ≤ r.v "e_nom" t s ∧ r.v "e_nom" t s ≤ r.p "e_nom_max" t s) ∧
    r.p "e_min_pu" t s * r.v "e_nom" t s ≤ r.v "e" t s ∧ r.v "e" t s ≤ r.p "e_max_pu" t s * r.v "e_nom" t s ∧
    r.v "e" t s = (1 - r.p "standing_loss" t s) * r.v "e" (t - 1) s - r.v "p" t s
  cost r := r.expectedTotal (fun t s => r.p "marginal_cost" t s * r.v "p" t s + r.p "marginal_cost_storage" t s * r.v "e" t s) +
    r.p "capital_cost" 0 0 * r.v "e_nom" 0 0
  ports := [("p_balance_port", [("flow", some fun r t s => r.v "p" t s)]),
    ("emission_port", [("emission", some fun _ _ _ => 0)])]

/-- Total emissions over the block at most the quota. -/
def co2Max : Rules where
  parameters := [("quota", false, false)]
  variables_ := []
  accepts r t s := total r (fun u => r.received "emission_port" "emission" u s) ≤ r.p "quota" t s
  cost _ := 0
  ports := [("emission_port", [("emission", none)])]

/-- Total emissions over the block equal to the quota. -/
def co2Eq : Rules where
  parameters := [("quota", false, false)]
  variables_ := []
  accepts r t s := total r (fun u => r.received "emission_port" "emission" u s) = r.p "quota" t s
  cost _ := 0
  ports := [("emission_port", [("emission", none)])]

/-- the library pypsa_models -/
def pypsa : List (String × Rules) :=
  [("bus", bus), ("load", pypsaLoad), ("generator", generator), ("link", pypsaLink), ("storage_unit", storageUnit),
    ("store", store), ("global_constraint_co2_max", co2Max), ("global_constraint_co2_eq", co2Eq)]

end Rules
end Verif
