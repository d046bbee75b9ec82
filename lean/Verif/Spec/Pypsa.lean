import Verif.Model.Pypsa

/-!
# What the conversion of a PyPSA network should give

The specification reads the network as the user gave it, before the converter renames its components and changes its tables.
-/

namespace Verif

/-- the number that an entry is, or that it spells (`pf` reads texts); `True` is 1 and `False` is 0 -/
def Cell.reads (pf : String → Option Num) : Cell → Option Num
  | .num v => some v
  | .bool true => some (.fin 1)
  | .bool false => some (.fin 0)
  | .str s => pf s

/-- the entry is the number `q`, where `True` is 1 and `False` is 0, and no text is a number -/
def Cell.Is : Cell → ℚ → Prop
  | .num v, q => v = .fin q
  | .bool true, q => q = 1
  | .bool false, q => q = 0
  | .str _, _ => False

/-- numbers are brought back into `[-1e20, 1e20]` -/
def clampNum : Num → Num
  | .fin q => .fin (max (-(10 ^ 20)) (min q (10 ^ 20)))
  | .pinf => .fin (10 ^ 20)
  | .ninf => .fin (-(10 ^ 20))
  | .nan => .nan

/-- How one type of PyPSA components is converted. -/
structure PKind where
  ty : PType
  /-- added to the names -/
  suffix : String
  model : String
  /-- attribute with the installed capacity, for types that can be extended -/
  capacity : Option String
  /-- PyPSA attribute of each parameter -/
  params : List (String × String)
  /-- PyPSA attribute with a bus, and port that is connected to the port `p_balance_port` of this bus -/
  buses : List (String × String)

/-- the same name is used for the parameter -/
def same (l : List String) : List (String × String) := l.map fun a => (a, a)

/-- The six types. -/
def pypsaKinds : List PKind :=
  [ { ty := .generators, suffix := "_generator", model := "generator", capacity := some "p_nom"
      params := same ["p_nom_min", "p_nom_max", "p_min_pu", "p_max_pu", "marginal_cost", "capital_cost", "e_sum_min", "e_sum_max",
        "sign", "efficiency"] ++ [("co2_emissions", "emission_factor")]
      buses := [("bus", "p_balance_port")] },
    { ty := .loads, suffix := "_load", model := "load", capacity := none
      params := same ["p_set", "q_set", "sign"]
      buses := [("bus", "p_balance_port")] },
    { ty := .buses, suffix := "", model := "bus", capacity := none
      params := same ["v_nom", "x", "y", "v_mag_pu_set", "v_mag_pu_min", "v_mag_pu_max"]
      buses := [] },
    { ty := .links, suffix := "", model := "link", capacity := some "p_nom"
      params := same ["efficiency", "p_nom_min", "p_nom_max", "p_min_pu", "p_max_pu", "marginal_cost", "capital_cost"]
      buses := [("bus0", "p0_port"), ("bus1", "p1_port")] },
    { ty := .storageUnits, suffix := "_storage", model := "storage_unit", capacity := some "p_nom"
      params := same ["p_nom_min", "p_nom_max", "p_min_pu", "p_max_pu", "sign", "efficiency_store", "efficiency_dispatch",
        "standing_loss", "max_hours", "marginal_cost", "capital_cost", "marginal_cost_storage", "spill_cost", "inflow"] ++
        [("co2_emissions", "emission_factor")]
      buses := [("bus", "p_balance_port")] },
    { ty := .stores, suffix := "_store", model := "store", capacity := some "e_nom"
      params := same ["sign", "e_nom_min", "e_nom_max", "e_min_pu", "e_max_pu", "standing_loss", "marginal_cost", "capital_cost",
        "marginal_cost_storage"] ++ [("co2_emissions", "emission_factor")]
      buses := [("bus", "p_balance_port")] } ]

/-- A data frame: each line has exactly the columns of the table. -/
def PTable.Frame (t : PTable) : Prop := ∀ r ∈ t.rows, ∀ col, (∃ c, r.2.get? col = some c) ↔ col ∈ t.columns

/-- Tables as PyPSA makes them, with all the attributes of each type; emissions are an attribute of carriers only. -/
structure PNetwork.Tables (n : PNetwork) : Prop where
  frames : ∀ ty, (n.table ty).Frame
  carriers : n.carriers.Frame
  capacities : ∀ k ∈ pypsaKinds, ∀ capa, k.capacity = some capa →
    capa ∈ (n.table k.ty).columns ∧ capa ++ "_extendable" ∈ (n.table k.ty).columns ∧ "carrier" ∈ (n.table k.ty).columns
  attributes : ∀ k ∈ pypsaKinds, ∀ a ∈ k.params.map (·.1) ++ k.buses.map (·.1), a ≠ "co2_emissions" → a ∈ (n.table k.ty).columns
  emissions : "co2_emissions" ∈ n.carriers.columns
  noEmissions : ∀ ty, "co2_emissions" ∉ (n.table ty).columns

/-- the carrier of a component: `null` if it has none -/
def carrierOf (row : Dict String Cell) : Option String :=
  match row.get? "carrier" with
  | some (.str s) => some (if s = "" then "null" else s)
  | _ => none

/-- emissions of a carrier; the carrier `null` has none, unless the network defines it -/
def emissionsOf (n : PNetwork) (carrier : String) : Cell :=
  match Dict.get? n.carriers.rows carrier with
  | some row => (row.get? "co2_emissions").getD (.num .nan)
  | none => if carrier = "null" then .num 0 else .num .nan

/-- the component cannot be extended -/
def Fixed (capacity : String) (row : Dict String Cell) : Prop := ∃ e, row.get? (capacity ++ "_extendable") = some e ∧ e.Is 0

open Classical in
/-- The value of an attribute that the converted component has to use: a component that cannot be extended keeps its capacity, at no
cost. -/
noncomputable def sourceCell (n : PNetwork) (capacity : Option String) (row : Dict String Cell) (attr : String) : Option Cell :=
  match capacity with
  | none => row.get? attr
  | some capa =>
    if attr = "co2_emissions" then (carrierOf row).map (emissionsOf n)
    else if Fixed capa row ∧ (attr = capa ++ "_min" ∨ attr = capa ++ "_max") then row.get? capa
    else if Fixed capa row ∧ attr = "capital_cost" then some (.num 0)
    else row.get? attr

/-- `vs` is the time series of an attribute of a component -/
def HasSeries (n : PNetwork) (ty : PType) (attr id : String) (vs : List Num) : Prop :=
  ∃ cols, (n.series ty).get? attr = some cols ∧ (id, vs) ∈ cols

/-- `p` is the parameter for the attribute `attr` of the component `id`: its time series if there is one, else its number. -/
def IsPypsaParam (pf : String → Option Num) (n : PNetwork) (k : PKind) (id : String) (row : Dict String Cell) (a : String × String)
    (p : InputParam) : Prop :=
  p.id = a.2 ∧ p.scenarioDependent = false ∧ p.scenarioGroup = none ∧
  (((∃ vs, HasSeries n k.ty a.1 id vs) ∧ p.timeDependent = true ∧ p.value = .name (n.name ++ "_" ++ (id ++ k.suffix) ++ "_" ++ a.1)) ∨
   ((¬ ∃ vs, HasSeries n k.ty a.1 id vs) ∧ p.timeDependent = false ∧
     ∃ c v, sourceCell n k.capacity row a.1 = some c ∧ c.reads pf = some v ∧ p.value = .number (clampNum v)))

/-- `c` is the conversion of one component -/
def IsPypsaComponent (pf : String → Option Num) (n : PNetwork) (k : PKind) (r : String × Dict String Cell) (c : InputComponent) : Prop :=
  c.id = r.1 ++ k.suffix ∧ c.model = "pypsa_models." ++ k.model ∧ c.scenarioGroup = none ∧
  List.Forall₂ (IsPypsaParam pf n k r.1 r.2) k.params c.parameters

/-- `x` connects the bus of the attribute `b` to the component -/
def IsBusConnection (k : PKind) (b : String × String) (r : String × Dict String Cell) (x : InputConnection) : Prop :=
  r.2.get? b.1 = some (.str x.component1) ∧ x.port1 = "p_balance_port" ∧ x.component2 = r.1 ++ k.suffix ∧ x.port2 = b.2

/-- components that count for the limits of emissions: those that have a carrier -/
def emitters (n : PNetwork) (ty : PType) (suffix : String) : List String :=
  ((n.table ty).rows.filter fun r => carrierOf r.2 ≠ some "null").map fun r => r.1 ++ suffix

/-- all of them -/
def allEmitters (n : PNetwork) : List String :=
  emitters n .generators "_generator" ++ emitters n .stores "_store" ++ emitters n .storageUnits "_storage"

/-- `c` is the conversion of a limit of emissions -/
def IsEmissionLimit (r : String × Dict String Cell) (c : InputComponent) : Prop :=
  c.id = r.1 ∧ c.scenarioGroup = none ∧
  ((r.2.get? "sense" = some (.str "<=") ∧ c.model = "pypsa_models.global_constraint_co2_max") ∨
   (r.2.get? "sense" = some (.str "==") ∧ c.model = "pypsa_models.global_constraint_co2_eq")) ∧
  ∃ k v, r.2.get? "constant" = some k ∧ c.parameters = [{ id := "quota", value := v }] ∧ ∀ q, k = .num q → v = .number q

/-- `s` is the conversion of the network `n`: components and connections, in this order. -/
structure IsStudy (pf : String → Option Num) (n : PNetwork) (s : PStudy) : Prop where
  nodes : s.system.nodes = []
  components : ∃ (parts : List (List InputComponent)) (limits : List InputComponent),
    s.system.components = parts.flatten ++ limits ∧
    List.Forall₂ (fun k cs => List.Forall₂ (IsPypsaComponent pf n k) (n.table k.ty).rows cs) pypsaKinds parts ∧
    List.Forall₂ IsEmissionLimit n.globalConstraints.rows limits
  connections : ∃ (parts : List (List (List InputConnection))),
    s.system.connections = parts.flatten.flatten ++
      n.globalConstraints.rows.flatMap (fun r => (allEmitters n).map fun e => ⟨r.1, "emission_port", e, "emission_port"⟩) ∧
    List.Forall₂ (fun k xs => List.Forall₂ (fun b ys => List.Forall₂ (IsBusConnection k b) (n.table k.ty).rows ys) k.buses xs)
      pypsaKinds parts
  files : ∀ name vs, (name, vs) ∈ s.files ↔ ∃ k ∈ pypsaKinds, ∃ attr ∈ k.params.map (·.1), ∃ id,
    HasSeries n k.ty attr id vs ∧ name = n.name ++ "_" ++ (id ++ k.suffix) ++ "_" ++ attr

/-- all values of a column are the number `q` -/
def PTable.AllEq (t : PTable) (col : String) (q : ℚ) : Prop :=
  col ∈ t.columns ∧ ∀ r ∈ t.rows, ∃ c, r.2.get? col = some c ∧ c.Is q

/-- The networks that the converter is made for: one investment period, weights 1, linear costs, no unit commitment, only active
generators, loads and links, cyclic storage, limits of emissions. -/
structure SupportedKind (n : PNetwork) : Prop where
  periods : n.investmentPeriods = []
  weights : ∀ w ∈ n.weightings, w.eqb 1 = true
  linear : ∀ ty ∈ [PType.generators, .storageUnits, .stores], (n.table ty).AllEq "marginal_cost_quadratic" 0
  active : ∀ ty ∈ [PType.generators, .loads, .links], (n.table ty).AllEq "active" 1
  committable : (n.table .generators).AllEq "committable" 0
  signs : ∀ ty ∈ [PType.storageUnits, .stores], (n.table ty).AllEq "sign" 1
  cyclic : (n.table .storageUnits).AllEq "cyclic_state_of_charge" 1 ∧ (n.table .stores).AllEq "e_cyclic" 1
  limits : ∀ r ∈ n.globalConstraints.rows, r.2.get? "type" = some (.str "primary_energy") ∧
    r.2.get? "carrier_attribute" = some (.str "co2_emissions")

/-- The data can be converted: names of buses and carriers are strings, other data are numbers, or can be read as numbers. -/
structure Convertible (pf : String → Option Num) (n : PNetwork) : Prop where
  carriers : ∀ k ∈ pypsaKinds, k.capacity ≠ none → ∀ r ∈ (n.table k.ty).rows, ∃ s, r.2.get? "carrier" = some (.str s)
  buses : ∀ k ∈ pypsaKinds, ∀ b ∈ k.buses, ∀ r ∈ (n.table k.ty).rows, ∃ s, r.2.get? b.1 = some (.str s)
  numbers : ∀ k ∈ pypsaKinds, ∀ r ∈ (n.table k.ty).rows, ∀ a ∈ k.params,
    (∃ vs, HasSeries n k.ty a.1 r.1 vs) ∨ ∃ c v, sourceCell n k.capacity r.2 a.1 = some c ∧ c.reads pf = some v
  limits : ∀ r ∈ n.globalConstraints.rows,
    (r.2.get? "sense" = some (.str "<=") ∨ r.2.get? "sense" = some (.str "==")) ∧ ∃ k, r.2.get? "constant" = some k

/-- the names in the study of the components of one type -/
def idsOf (n : PNetwork) (k : PKind) : List String := (n.table k.ty).rows.map fun r => r.1 ++ k.suffix

/-- all of them, with the limits of emissions -/
def allIds (n : PNetwork) : List String := pypsaKinds.flatMap (idsOf n) ++ n.globalConstraints.rows.map (·.1)

/-- the names that users give do not clash: they are distinct within each type, those of buses, links and limits of emissions are distinct,
and none of these ends like the names that the converter makes -/
structure DistinctNames (n : PNetwork) : Prop where
  within : ∀ ty, ((n.table ty).rows.map (·.1)).Nodup
  plain : ((n.table .buses).rows.map (·.1) ++ (n.table .links).rows.map (·.1) ++ n.globalConstraints.rows.map (·.1)).Nodup
  noSuffix : ∀ id ∈ (n.table .buses).rows.map (·.1) ++ (n.table .links).rows.map (·.1) ++ n.globalConstraints.rows.map (·.1),
    ∀ s ∈ ["_generator", "_load", "_storage", "_store"], ¬ s.toList <:+ id.toList

/-- all buses that components name are buses of the network -/
def BusesExist (n : PNetwork) : Prop :=
  ∀ k ∈ pypsaKinds, ∀ b ∈ k.buses, ∀ r ∈ (n.table k.ty).rows, ∀ s, r.2.get? b.1 = some (.str s) → s ∈ (n.table .buses).rows.map (·.1)

/-- time series are those of components of the network -/
def SeriesExist (n : PNetwork) : Prop :=
  ∀ ty attr id vs, HasSeries n ty attr id vs → id ∈ (n.table ty).rows.map (·.1)

end Verif
