import Verif.Model.Antares

/-!
# What the conversion of an Antares study should give
-/

namespace Verif

/-- An object of the study that becomes a component; those of areas come with the area that has them. -/
inductive AObject where
  | renewable (a : AArea) (r : ARenewable)
  | thermal (a : AArea) (t : AThermal)
  | storage (a : AArea) (s : AStorage)
  | load (a : AArea)
  | wind (a : AArea)
  | solar (a : AArea)
  | link (l : ALink)

/-- a table of series that has data: it has cells, and one of them is not zero -/
def HasData (f : Option Frame) : Prop := ∃ t, f = some t ∧ t.width ≠ 0 ∧ ∃ r ∈ t.rows, ∃ v ∈ r, v ≠ 0

/-- The clusters that stand for the batteries of an area `b` of the study: one in this area, two in the area `z_batteries`. -/
def IsBatteryCluster (st : AStudy) (areaId clusterId : String) : Prop :=
  ∃ b ∈ st.areas.values, (areaId = b.id ∧ clusterId = b.id ++ "_batteries_inj") ∨
    (areaId = "z_batteries" ∧
      (clusterId = "z_batteries_batteries_" ++ b.id ++ "_1" ∨ clusterId = "z_batteries_batteries_" ++ b.id ++ "_2"))

/-- The links that stand for batteries: from an area of the study to the area `z_batteries`. -/
def IsBatteryLink (st : AStudy) (l : ALink) : Prop := l.areaTo = "z_batteries" ∧ ∃ b ∈ st.areas.values, b.id = l.areaFrom

open Classical in
/-- The objects to convert, in order. -/
noncomputable def AStudy.objects (st : AStudy) : List AObject :=
  (st.areas.values.flatMap fun a => a.renewables.values.map (.renewable a)) ++
  (st.areas.values.flatMap fun a => (a.thermals.values.filter fun t => ¬ IsBatteryCluster st a.id t.id).map (.thermal a)) ++
  (st.areas.values.flatMap fun a => a.storages.values.map (.storage a)) ++
  (st.areas.values.filter fun a => HasData a.load).map .load ++
  (st.areas.values.filter fun a => HasData a.wind).map .wind ++
  (st.areas.values.filter fun a => HasData a.solar).map .solar ++
  (st.links.values.filter fun l => ¬ IsBatteryLink st l).map .link

/-- name of the component -/
def AObject.name : AObject → String
  | .renewable _ r => r.id
  | .thermal _ t => t.id
  | .storage _ s => s.id
  | .load _ => "load"
  | .wind a => a.id
  | .solar a => a.id
  | .link l => l.id

/-- its model -/
def AObject.model : AObject → String
  | .renewable .. => "antares-historic.renewable"
  | .thermal .. => "antares-historic.thermal"
  | .storage .. => "antares-historic.short-term-storage"
  | .load _ => "antares-historic.load"
  | .wind _ => "antares-historic.wind"
  | .solar _ => "antares-historic.solar"
  | .link _ => "antares-historic.link"

/-- its parameters: a number, or the name of a file below the directory `input` of the study -/
def AObject.params : AObject → List (String × (Num ⊕ String))
  | .renewable _ r => [
    ("unit_count", .inl r.unitCount), ("p_max_unit", .inl r.nominalCapacity),
    ("generation", .inr ("renewables/series/" ++ r.areaId ++ "/" ++ r.id ++ "/series"))]
  | .thermal _ t =>
    let dir := "thermal/series/" ++ t.areaId ++ "/" ++ t.id
    [("p_min_cluster", .inr (dir ++ "/p_min_cluster")), ("nb_units_min", .inr (dir ++ "/nb_units_min")),
     ("nb_units_max", .inr (dir ++ "/nb_units_max")),
     ("nb_units_max_variation_forward", .inr (dir ++ "/nb_units_max_variation_forward")),
     ("nb_units_max_variation_backward", .inr (dir ++ "/nb_units_max_variation_backward")),
     ("unit_count", .inl (.fin t.unitCount)), ("p_min_unit", .inl t.minStablePower), ("efficiency", .inl t.efficiency),
     ("p_max_unit", .inl t.nominalCapacity), ("generation_cost", .inl t.marginalCost), ("fixed_cost", .inl t.fixedCost),
     ("startup_cost", .inl t.startupCost), ("d_min_up", .inl t.minUpTime), ("d_min_down", .inl t.minDownTime),
     ("p_max_cluster", .inr (dir ++ "/series"))]
  | .storage _ s =>
    let dir := "st-storage/series/" ++ s.areaId ++ "/" ++ s.id
    [("efficiency_injection", .inl s.efficiency), ("efficiency_withdrawal", .inl 1), ("initial_level", .inl s.initialLevel),
     ("reservoir_capacity", .inl s.reservoirCapacity), ("injection_nominal_capacity", .inl s.injectionNominalCapacity),
     ("withdrawal_nominal_capacity", .inl s.withdrawalNominalCapacity), ("inflows", .inr (dir ++ "/inflows")),
     ("lower_rule_curve", .inr (dir ++ "/lower-rule-curve")), ("upper_rule_curve", .inr (dir ++ "/upper-rule-curve")),
     ("p_max_injection_modulation", .inr (dir ++ "/PMAX-injection")),
     ("p_max_withdrawal_modulation", .inr (dir ++ "/PMAX-withdrawal"))]
  | .load a => [("load", .inr ("load/series/load_" ++ a.id))]
  | .wind a => [("wind", .inr ("wind/series/wind_" ++ a.id))]
  | .solar a => [("solar", .inr ("solar/series/solar_" ++ a.id))]
  | .link l =>
    let dir := "links/" ++ l.areaFrom ++ "/capacities/" ++ l.areaTo
    [("capacity_direct", .inr (dir ++ "_direct")), ("capacity_indirect", .inr (dir ++ "_indirect"))]

/-- `p` is the parameter: numbers are constant, files have values for all times and scenarios -/
def IsAntaresParam (st : AStudy) (x : String × (Num ⊕ String)) (p : InputParam) : Prop :=
  p.id = x.1 ∧ p.scenarioGroup = none ∧
  match x.2 with
  | .inl v => p.timeDependent = false ∧ p.scenarioDependent = false ∧ p.value = .number v
  | .inr f => p.timeDependent = true ∧ p.scenarioDependent = true ∧ p.value = .name (st.path ++ "/input/" ++ f)

/-- `c` is the component for the object -/
def IsAntaresComponent (st : AStudy) (o : AObject) (c : InputComponent) : Prop :=
  c.id = o.name ∧ c.model = o.model ∧ c.scenarioGroup = none ∧ List.Forall₂ (IsAntaresParam st) o.params c.parameters

/-- where the component is connected: its port and the area; wind and solar power use the name `wind` or `solar` -/
def AObject.connections : AObject → List InputConnection
  | .renewable _ r => [⟨r.id, "balance_port", r.areaId, "balance_port"⟩]
  | .thermal a t => [⟨t.id, "balance_port", a.id, "balance_port"⟩]
  | .storage a s => [⟨s.id, "injection_port", a.id, "balance_port"⟩]
  | .load a => [⟨"load", "balance_port", a.id, "balance_port"⟩]
  | .wind a => [⟨"wind", "balance_port", a.id, "balance_port"⟩]
  | .solar a => [⟨"solar", "balance_port", a.id, "balance_port"⟩]
  | .link l => [⟨l.id, "in_port", l.areaFrom, "balance_port"⟩, ⟨l.id, "out_port", l.areaTo, "balance_port"⟩]

/-- `c` is the node of the area -/
def IsAntaresNode (a : AArea) (c : InputComponent) : Prop :=
  c.id = a.id ∧ c.model = "antares-historic.area" ∧ c.scenarioGroup = none ∧
  c.parameters = [{ id := "ens_cost", value := .number a.energyCostUnsupplied }, { id := "spillage_cost", value := .number a.energyCostSpilled }]

/-! ## Batteries -/

/-- the largest number of a list -/
def IsMaximum (l : List Num) (v : Num) : Prop := v ∈ l ∧ ∀ w ∈ l, w.le v = true

/-- What describes the battery of an area. -/
structure BatteryData where
  /-- capacity of the cluster `z_batteries_batteries_<area>_1` of `z_batteries` -/
  reservoir : Num
  /-- first column of the direct capacities of the link to `z_batteries` -/
  injection : List Num
  /-- capacity of the cluster `<area>_batteries_inj` -/
  withdrawal : Num
  /-- weight of the link to `z_batteries` in the constraint `batteries_<area>` -/
  linkWeight : Num
  /-- weight of the cluster `<area>_batteries_inj` in this constraint -/
  clusterWeight : Num
  /-- first column of the series of the cluster of the reservoir -/
  level : List Num
  /-- first column of the series of the cluster `<area>_batteries_inj` -/
  production : List Num
  /-- first column of the parameters of the link -/
  cost : List Num

/-- the first column of a table -/
def firstColumn (f : Frame) : List Num := f.rows.map fun r => r.getD 0 .nan

/-- the series of a file, if the file can be read and has a column -/
def SeriesIs (st : AStudy) (file area : String) (cluster second : Option String) (l : List Num) : Prop :=
  ∃ f, st.readSeries file area cluster second = .ok f ∧ f.width ≠ 0 ∧ l = firstColumn f

/-- the capacity of a cluster -/
def CapacityIs (st : AStudy) (area cluster : String) (v : Num) : Prop :=
  ∃ a t, st.areas.get? area = some a ∧ a.thermals.get? cluster = some t ∧ t.nominalCapacity = v

/-- a weight of a constraint -/
def WeightIs (st : AStudy) (constraint term : String) (v : Num) : Prop :=
  ∃ d, st.bindings.get? constraint = some d ∧ d.get? term = some v

/-- `d` are the data of the battery of the area -/
structure BatteryOf (st : AStudy) (area : String) (d : BatteryData) : Prop where
  known : ∃ a, st.areas.get? area = some a
  reservoir : CapacityIs st "z_batteries" ("z_batteries_batteries_" ++ area ++ "_1") d.reservoir
  injection : SeriesIs st "links_capacities_direct" area none (some "z_batteries") d.injection
  withdrawal : CapacityIs st area (area ++ "_batteries_inj") d.withdrawal
  linkWeight : WeightIs st ("batteries_" ++ area) (area ++ "%z_batteries") d.linkWeight
  clusterWeight : WeightIs st ("batteries_" ++ area) (area ++ "." ++ area ++ "_batteries_inj") d.clusterWeight
  level : SeriesIs st "thermal_series" "z_batteries" (some ("z_batteries_batteries_" ++ area ++ "_1")) none d.level
  production : SeriesIs st "thermal_series" area (some (area ++ "_batteries_inj")) none d.production
  cost : SeriesIs st "links_parameters" area none (some "z_batteries") d.cost

/-- the directories of the files of a battery -/
def levelDir (st : AStudy) (area : String) : String :=
  st.seriesDir "thermal_series" "z_batteries" (some ("z_batteries_batteries_" ++ area ++ "_1")) none
/-- of the capacities of the link -/
def capacityDir (st : AStudy) (area : String) : String := st.seriesDir "links_capacities_direct" area none (some "z_batteries")
/-- of the production -/
def productionDir (st : AStudy) (area : String) : String := st.seriesDir "thermal_series" area (some (area ++ "_batteries_inj")) none
/-- of the costs -/
def costDir (st : AStudy) (area : String) : String := st.seriesDir "links_parameters" area none (some "z_batteries")

/-- `c` is the battery with the data `d`; `m` is the largest injection -/
def IsBattery (st : AStudy) (area : String) (d : BatteryData) (m : Num) (c : InputComponent) : Prop :=
  c.id = "battery_" ++ area ∧ c.model = "andromede-v1-models.battery" ∧ c.scenarioGroup = none ∧
  c.parameters = [
    { id := "reservoir_capacity", value := .number d.reservoir },
    { id := "injection_nominal_capacity", value := .number m },
    { id := "withdrawal_nominal_capacity", value := .number d.withdrawal },
    { id := "efficiency_injection", value := .number (d.linkWeight * (-1)) },
    { id := "efficiency_withdrawal", value := .number d.clusterWeight },
    { id := "lower_rule_curve", value := .number 0 },
    { id := "upper_rule_curve", timeDependent := true, value := .name (levelDir st area ++ "/upper_rule_curve_z_batteries") },
    { id := "p_max_injection_modulation", timeDependent := true,
      value := .name (capacityDir st area ++ "/p_max_injection_modulation_" ++ area) },
    { id := "p_max_withdrawal_modulation", timeDependent := true,
      value := .name (productionDir st area ++ "/p_max_withdrawal_modulation_" ++ area) },
    { id := "marginal_cost", timeDependent := true, value := .name (costDir st area ++ "/marginal_cost_" ++ area) }]

/-- one column -/
def columnOf (l : List Num) : Frame := ⟨1, l.map fun v => [v]⟩

/-- `a` divided by `b`, without exception: by zero, an infinity of the sign of `a`, and `nan` for zero by zero; the same for infinite `a`,
the zero being positive -/
def quotient : Num → Num → Num
  | .nan, _ | _, .nan => .nan
  | .fin a, .fin b => if b ≠ 0 then .fin (a / b) else if 0 < a then .pinf else if a < 0 then .ninf else .nan
  | .fin _, .pinf | .fin _, .ninf => .fin 0
  | .pinf, .fin b => if 0 ≤ b then .pinf else .ninf
  | .ninf, .fin b => if 0 ≤ b then .ninf else .pinf
  | _, _ => .nan

/-- the files of this battery: curves and modulations are relative to the capacities -/
def batteryFiles (st : AStudy) (area : String) (d : BatteryData) (m : Num) : List (String × Frame) := [
  (levelDir st area ++ "/upper_rule_curve_z_batteries.txt", columnOf (d.level.map fun v => quotient v d.reservoir)),
  (capacityDir st area ++ "/p_max_injection_modulation_" ++ area ++ ".txt", columnOf (d.injection.map fun v => quotient v m)),
  (productionDir st area ++ "/p_max_withdrawal_modulation_" ++ area ++ ".txt", columnOf (d.production.map fun v => quotient v d.withdrawal)),
  (costDir st area ++ "/marginal_cost_" ++ area ++ ".txt", columnOf d.cost)]

/-- the fields of a cluster that templates can name, and their values -/
inductive ClusterField (t : AThermal) : String → Num → Prop
  | capacity : ClusterField t "nominalcapacity" t.nominalCapacity
  | stable : ClusterField t "min-stable-power" t.minStablePower
  | up : ClusterField t "min-up-time" t.minUpTime
  | down : ClusterField t "min-down-time" t.minDownTime

end Verif
