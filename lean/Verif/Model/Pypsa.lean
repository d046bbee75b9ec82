import Verif.Model.System

/-!
# Conversion of PyPSA networks

Models `pypsa_converter/pypsa_converter.py` and `any_to_float` of `pypsa_converter/utils.py`.

A PyPSA network is what the converter reads of it: one table for each type of component, with an index of labels, and one set of
time series for each type.  `pandas` tables are lists of lines; labels of an index and names of columns are assumed to be strings.
Log messages are left out; files that are written are part of the result.
-/

namespace Verif

/-- One entry of a table. -/
inductive Cell where
  | num (v : Num)
  | str (s : String)
  | bool (b : Bool)
  deriving DecidableEq, Repr

/-- A data frame: names of the columns, and lines with their label. -/
structure PTable where
  columns : List String
  rows : List (String × Dict String Cell)
  deriving Repr

/-- Time series of a type of components: for each attribute, a frame with one column for each component. -/
abbrev PSeries := Dict String (List (String × List Num))

/-- The types of components that are converted. -/
inductive PType where
  | generators
  | loads
  | buses
  | links
  | storageUnits
  | stores
  deriving DecidableEq, Repr

/-- The part of `pypsa.Network` that is used. -/
structure PNetwork where
  name : String
  investmentPeriods : List String := []
  weightings : List Num := []
  carriers : PTable
  globalConstraints : PTable
  table : PType → PTable
  series : PType → PSeries

/-- `PYPSA_CONVERTER_MAX_FLOAT`: utils.py 19. -/
def pypsaMax : ℚ := 10 ^ 20

/-- `min(x, y)` of Python: the first one unless the second one is smaller. -/
def floatMin (x y : Num) : Num := if y.lt x then y else x

/-- `max(x, y)` of Python: the first one unless the second one is greater. -/
def floatMax (x y : Num) : Num := if x.lt y then y else x

/-- `float(el)`; `pf` is `float` on strings. -/
def Cell.toFloat (pf : String → Option Num) : Cell → Option Num
  | .num v => some v
  | .bool b => some (if b then 1 else 0)
  | .str s => pf s

/-- `any_to_float`: utils.py 22-29. -/
def anyToFloat (pf : String → Option Num) (el : Cell) : R Num :=
  match el.toFloat pf with
  | some v => .ok (floatMax (floatMin v (.fin pypsaMax)) (.fin (-pypsaMax)))
  | none => .error (.typeError "Could not convert to float")

/-- `el == q` for a number `q` -/
def Cell.eqNum : Cell → ℚ → Bool
  | .num v, q => v.eqb (.fin q)
  | .bool b, q => (if b then 1 else 0) = q
  | .str _, _ => false

/-- `el == s` for a string `s` -/
def Cell.eqStr : Cell → String → Bool
  | .str t, s => t = s
  | _, _ => false

/-- `df.loc[label, col]` on one line -/
def rowCell (row : Dict String Cell) (col : String) : R Cell := row.get col

/-- `if not all(df[col] == q): raise ValueError(...)`; a missing column is a `KeyError`. -/
def checkColumn (t : PTable) (col : String) (q : ℚ) : R Unit :=
  if col ∉ t.columns then .error (.keyError col)
  else if t.rows.all fun (_, row) => match row.get? col with
    | some c => c.eqNum q
    | none => false
  then .ok ()
  else .error (.valueError "Converter supports only ...")

/-- the loop on global constraints: pypsa_converter.py 137-147 -/
def assertConstraints : List (String × Dict String Cell) → R Unit
  | [] => .ok ()
  | (_, row) :: rows => do
    let ty ← rowCell row "type"
    if !ty.eqStr "primary_energy" then .error (.exception "AssertionError") else
    let attr ← rowCell row "carrier_attribute"
    if !attr.eqStr "co2_emissions" then .error (.exception "AssertionError") else
    assertConstraints rows

/-- `_pypsa_network_assertion`: pypsa_converter.py 95-147.  The column `active` of storage units and stores is not looked at: the code
tests the links again. -/
def pypsaAssertions (n : PNetwork) : R Unit := do
  if !n.investmentPeriods.isEmpty then .error (.exception "AssertionError") else
  if !(n.weightings.all fun w => w.eqb 1) then .error (.exception "AssertionError") else
  checkColumn (n.table .generators) "marginal_cost_quadratic" 0
  checkColumn (n.table .generators) "active" 1
  checkColumn (n.table .generators) "committable" 0
  checkColumn (n.table .loads) "active" 1
  checkColumn (n.table .links) "active" 1
  checkColumn (n.table .links) "active" 1
  checkColumn (n.table .storageUnits) "sign" 1
  checkColumn (n.table .storageUnits) "cyclic_state_of_charge" 1
  checkColumn (n.table .storageUnits) "marginal_cost_quadratic" 0
  checkColumn (n.table .links) "active" 1
  checkColumn (n.table .stores) "sign" 1
  checkColumn (n.table .stores) "e_cyclic" 1
  checkColumn (n.table .stores) "marginal_cost_quadratic" 0
  assertConstraints n.globalConstraints.rows

/-- `self.null_carrier_id`: pypsa_converter.py 80 -/
def nullCarrier : String := "null"

/-- `pypsa_network.add("Carrier", "null", co2_emissions=0, max_growth=any_to_float(inf))`: pypsa_converter.py 151-156.  The library adds
a line with these two attributes (the other ones get default values, here `nan`), unless there is one already. -/
def addNullCarrier (t : PTable) : PTable :=
  if nullCarrier ∈ t.rows.map (·.1) then t
  else
    let vals : Dict String Cell := t.columns.map fun c =>
      (c, if c = "co2_emissions" then .num 0 else if c = "max_growth" then .num (.fin pypsaMax) else .num .nan)
    { t with rows := t.rows ++ [(nullCarrier, vals)] }

/-- `carriers["carrier"] = carriers.index.values`: pypsa_converter.py 157-159 -/
def addCarrierColumn (t : PTable) : PTable where
  columns := if "carrier" ∈ t.columns then t.columns else t.columns ++ ["carrier"]
  rows := t.rows.map fun (id, row) => (id, row.set "carrier" (.str id))

/-- `df.index = df.index.astype(str) + suffix` -/
def PTable.rename (t : PTable) (suffix : String) : PTable := { t with rows := t.rows.map fun (id, row) => (id ++ suffix, row) }

/-- `for key, val in df_t.items(): val.columns = val.columns + suffix` -/
def renameSeries (s : PSeries) (suffix : String) : PSeries :=
  s.map fun (attr, cols) => (attr, cols.map fun (id, vs) => (id ++ suffix, vs))

/-- rename the components of one type, and their series -/
def PNetwork.rename (n : PNetwork) (ty : PType) (suffix : String) : PNetwork :=
  { n with table := Function.update n.table ty ((n.table ty).rename suffix),
           series := Function.update n.series ty (renameSeries (n.series ty) suffix) }

/-- `_pypsa_network_preprocessing`: pypsa_converter.py 149-183. -/
def pypsaPreprocess (n : PNetwork) : PNetwork :=
  let n := { n with carriers := addCarrierColumn (addNullCarrier n.carriers) }
  let n := n.rename .loads "_load"
  let n := n.rename .generators "_generator"
  let n := n.rename .storageUnits "_storage"
  n.rename .stores "_store"

/-- `if len(df.loc[comp, "carrier"]) == 0: df.loc[comp, "carrier"] = "null"`: pypsa_converter.py 188-190 -/
def fillCarrier (row : Dict String Cell) : R (Dict String Cell) := do
  let c ← rowCell row "carrier"
  match c with
  | .str s => if s = "" then .ok (row.set "carrier" (.str nullCarrier)) else .ok row
  | _ => .error (.typeError "object has no len()")

/-- the loop over the lines: pypsa_converter.py 188-190 -/
def fillCarriers : List (String × Dict String Cell) → R (List (String × Dict String Cell))
  | [] => .ok []
  | (id, row) :: rows => do
    let row ← fillCarrier row
    let rows ← fillCarriers rows
    .ok ((id, row) :: rows)

/-- name in the joined table of a column of the second one: `rsuffix="_carrier"` -/
def joinName (left : List String) (col : String) : String := if col ∈ left then col ++ "_carrier" else col

/-- the line of the carriers that `df.join` adds: the one whose label is the value of the column `carrier`, or `nan` -/
def joinedCells (left : List String) (carriers : PTable) (row : Dict String Cell) : Dict String Cell :=
  let found : Dict String Cell := match row.get? "carrier" with
    | some (.str c) => (Dict.get? carriers.rows c).getD []
    | _ => []
  carriers.columns.map fun col => (joinName left col, (found.get? col).getD (.num .nan))

/-- `df.join(carriers, on="carrier", how="left", rsuffix="_carrier")`: pypsa_converter.py 191-200.  The labels of the carriers are assumed
to be distinct, as well as the new names of their columns and those of the table. -/
def joinCarriers (t carriers : PTable) : R PTable :=
  if "carrier" ∉ t.columns then .error (.keyError "carrier")
  else .ok {
    columns := t.columns ++ carriers.columns.map (joinName t.columns)
    rows := t.rows.map fun (id, row) => (id, row ++ joinedCells t.columns carriers row) }

/-- `df.loc[df[ext] == False, field] = ...`, where `val` gives the new value of a line; a column that does not exist is created with `nan`
in the other lines. -/
def setWhereFixed (t : PTable) (ext field : String) (val : Dict String Cell → R Cell) : R PTable := do
  if ext ∉ t.columns then .error (.keyError ext) else
  let rec loop : List (String × Dict String Cell) → R (List (String × Dict String Cell))
    | [] => .ok []
    | (id, row) :: rows => do
      let e ← rowCell row ext
      let v ← val row
      let rows ← loop rows
      let row' := if e.eqNum 0 then row.set field v else if row.contains field then row else row.set field (.num .nan)
      .ok ((id, row') :: rows)
  let rows ← loop t.rows
  .ok ⟨if field ∈ t.columns then t.columns else t.columns ++ [field], rows⟩

/-- `_preprocess_pypsa_components`: pypsa_converter.py 185-205. -/
def pypsaPreprocessType (n : PNetwork) (ty : PType) (capa : String) : R PNetwork := do
  let t := n.table ty
  let rows ← fillCarriers t.rows
  let t ← joinCarriers { t with rows := rows } n.carriers
  if capa ∉ t.columns then .error (.keyError capa) else
  let t ← setWhereFixed t (capa ++ "_extendable") (capa ++ "_min") fun row => rowCell row capa
  let t ← setWhereFixed t (capa ++ "_extendable") (capa ++ "_max") fun row => rowCell row capa
  let t ← setWhereFixed t (capa ++ "_extendable") "capital_cost" fun _ => .ok (.num 0)
  .ok { n with table := Function.update n.table ty t }

/-- `PyPSAComponentData`: pypsa_converter.py 30-37. -/
structure PComponentData where
  constantData : PTable
  timeData : PSeries
  gemsModel : String
  params : List (String × String)
  connections : List (String × String × String)

/-- `_register_pypsa_components`: pypsa_converter.py 207-322.  The keys are those of the six calls, so that none is registered twice. -/
def pypsaComponentData (n : PNetwork) : List PComponentData :=
  [ { constantData := n.table .generators, timeData := n.series .generators, gemsModel := "generator"
      params := [("p_nom_min", "p_nom_min"), ("p_nom_max", "p_nom_max"), ("p_min_pu", "p_min_pu"), ("p_max_pu", "p_max_pu"),
        ("marginal_cost", "marginal_cost"), ("capital_cost", "capital_cost"), ("e_sum_min", "e_sum_min"), ("e_sum_max", "e_sum_max"),
        ("sign", "sign"), ("efficiency", "efficiency"), ("co2_emissions", "emission_factor")]
      connections := [("bus", "p_balance_port", "p_balance_port")] },
    { constantData := n.table .loads, timeData := n.series .loads, gemsModel := "load"
      params := [("p_set", "p_set"), ("q_set", "q_set"), ("sign", "sign")]
      connections := [("bus", "p_balance_port", "p_balance_port")] },
    { constantData := n.table .buses, timeData := n.series .buses, gemsModel := "bus"
      params := [("v_nom", "v_nom"), ("x", "x"), ("y", "y"), ("v_mag_pu_set", "v_mag_pu_set"), ("v_mag_pu_min", "v_mag_pu_min"),
        ("v_mag_pu_max", "v_mag_pu_max")]
      connections := [] },
    { constantData := n.table .links, timeData := n.series .links, gemsModel := "link"
      params := [("efficiency", "efficiency"), ("p_nom_min", "p_nom_min"), ("p_nom_max", "p_nom_max"), ("p_min_pu", "p_min_pu"),
        ("p_max_pu", "p_max_pu"), ("marginal_cost", "marginal_cost"), ("capital_cost", "capital_cost")]
      connections := [("bus0", "p0_port", "p_balance_port"), ("bus1", "p1_port", "p_balance_port")] },
    { constantData := n.table .storageUnits, timeData := n.series .storageUnits, gemsModel := "storage_unit"
      params := [("p_nom_min", "p_nom_min"), ("p_nom_max", "p_nom_max"), ("p_min_pu", "p_min_pu"), ("p_max_pu", "p_max_pu"),
        ("sign", "sign"), ("efficiency_store", "efficiency_store"), ("efficiency_dispatch", "efficiency_dispatch"),
        ("standing_loss", "standing_loss"), ("max_hours", "max_hours"), ("marginal_cost", "marginal_cost"),
        ("capital_cost", "capital_cost"), ("marginal_cost_storage", "marginal_cost_storage"), ("spill_cost", "spill_cost"),
        ("inflow", "inflow"), ("co2_emissions", "emission_factor")]
      connections := [("bus", "p_balance_port", "p_balance_port")] },
    { constantData := n.table .stores, timeData := n.series .stores, gemsModel := "store"
      params := [("sign", "sign"), ("e_nom_min", "e_nom_min"), ("e_nom_max", "e_nom_max"), ("e_min_pu", "e_min_pu"),
        ("e_max_pu", "e_max_pu"), ("standing_loss", "standing_loss"), ("marginal_cost", "marginal_cost"),
        ("capital_cost", "capital_cost"), ("marginal_cost_storage", "marginal_cost_storage"), ("co2_emissions", "emission_factor")]
      connections := [("bus", "p_balance_port", "p_balance_port")] } ]

/-- `PyPSAGlobalConstraintData`: pypsa_converter.py 52-61. -/
structure PConstraintData where
  name : String
  constant : Cell
  gemsModel : String
  contributors : List (String × String)

/-- `_add_contributors_to_globalconstraints`: pypsa_converter.py 324-332; the column `carrier` exists after the preprocessing. -/
def contributors (t : PTable) : List (String × String) :=
  (t.rows.filter fun (_, row) => match row.get? "carrier" with
    | some c => !c.eqStr nullCarrier
    | none => true).map fun (id, _) => (id, "emission_port")

/-- the data of one constraint: pypsa_converter.py 342-378 -/
def constraintOf (cs : List (String × String)) (id : String) (row : Dict String Cell) : R PConstraintData := do
  let sense ← rowCell row "sense"
  let attr ← rowCell row "carrier_attribute"
  if attr.eqStr "co2_emissions" && sense.eqStr "<=" then do
    let k ← rowCell row "constant"
    .ok ⟨id, k, "global_constraint_co2_max", cs⟩
  else if attr.eqStr "co2_emissions" && sense.eqStr "==" then do
    let k ← rowCell row "constant"
    .ok ⟨id, k, "global_constraint_co2_eq", cs⟩
  else .error (.valueError "Type of GlobalConstraint not supported.")

/-- the loop of `_register_pypsa_globalconstraints`: pypsa_converter.py 341-378; labels are distinct -/
def constraintData (cs : List (String × String)) (rows : List (String × Dict String Cell)) : R (List PConstraintData) :=
  appendAll (fun r => constraintOf cs r.1 r.2) rows

/-- `_register_pypsa_globalconstraints`: pypsa_converter.py 334-378. -/
def pypsaConstraintData (n : PNetwork) : R (List PConstraintData) :=
  constraintData (contributors (n.table .generators) ++ contributors (n.table .stores) ++ contributors (n.table .storageUnits))
    n.globalConstraints.rows

/-- `check_params_consistency`: pypsa_converter.py 39-49. -/
def checkParamsConsistency (d : PComponentData) : R Unit :=
  if (d.params.map (·.1) ++ d.connections.map (·.1)).all (d.constantData.columns.contains ·) then .ok ()
  else .error (.valueError "Parameter not available in constant data")

/-- the name of a time series: pypsa_converter.py 507 -/
def seriesName (system component param : String) : String := system ++ "_" ++ component ++ "_" ++ param

/-- `_write_and_register_timeseries`: pypsa_converter.py 498-515.  The parameters are a set in the code; they are taken in the order of
the table here, which changes neither the names nor the files as the names are distinct.  The result has, for each component and
parameter, the name and the values that are written. -/
def writeSeries (system : String) (d : PComponentData) : List ((String × String) × String × List Num) :=
  (d.params.map (·.1)).flatMap fun param =>
    match d.timeData.get? param with
    | none => []
    | some cols => cols.map fun (component, vs) => ((component, param), seriesName system component param, vs)

/-- one parameter of `_create_gems_components`: pypsa_converter.py 531-541 -/
def gemsParameter (pf : String → Option Num) (names : Dict (String × String) (String × List Num)) (component : String)
    (row : Dict String Cell) (p : String × String) : R InputParam :=
  match names.get? (component, p.1) with
  | some (name, _) => .ok { id := p.2, timeDependent := true, value := .name name }
  | none => do
    let c ← rowCell row p.1
    let v ← anyToFloat pf c
    .ok { id := p.2, timeDependent := false, value := .number v }

/-- `self.pypsalib_id`: pypsa_converter.py 79 -/
def pypsaLib : String := "pypsa_models"

/-- `_create_gems_components`: pypsa_converter.py 517-546. -/
def gemsComponents (pf : String → Option Num) (names : Dict (String × String) (String × List Num)) (d : PComponentData) :
    R (List InputComponent) :=
  appendAll (fun (id, row) => do
    let ps ← appendAll (gemsParameter pf names id row) d.params
    .ok { id := id, model := pypsaLib ++ "." ++ d.gemsModel, parameters := ps }) d.constantData.rows

/-- one connection of `_create_gems_connections`; `pydantic` refuses names that are not strings. -/
def gemsConnection (bus modelPort busPort : String) (component : String) (row : Dict String Cell) : R InputConnection := do
  let b ← rowCell row bus
  match b with
  | .str b => .ok ⟨b, busPort, component, modelPort⟩
  | _ => .error (.valueError "validation error")

/-- `_create_gems_connections`: pypsa_converter.py 548-568. -/
def gemsConnections (d : PComponentData) : R (List InputConnection) := do
  let cs ← appendAll (fun (bus, modelPort, busPort) =>
    appendAll (fun (id, row) => gemsConnection bus modelPort busPort id row) d.constantData.rows) d.connections
  .ok cs.flatten

/-- `_convert_pypsa_components_of_given_model`: pypsa_converter.py 428-463. -/
def convertComponents (pf : String → Option Num) (system : String) (d : PComponentData) :
    R (List InputComponent × List InputConnection × List (String × List Num)) := do
  checkParamsConsistency d
  let names := writeSeries system d
  let cs ← gemsConnections d
  let comps ← gemsComponents pf (Dict.ofItems names) d
  .ok (comps, cs, names.map (·.2))

/-- `_convert_pypsa_globalconstraint_of_given_model`: pypsa_converter.py 465-496; a string as quota is kept as a name. -/
def convertConstraint (d : PConstraintData) : List InputComponent × List InputConnection :=
  ([{ id := d.name, model := pypsaLib ++ "." ++ d.gemsModel,
      parameters := [{ id := "quota", value := match d.constant with
        | .num v => .number v
        | .str s => .name s
        | .bool b => .number (if b then 1 else 0) }] }],
    d.contributors.map fun (id, port) => ⟨d.name, "emission_port", id, port⟩)

/-- `PyPSAStudyConverter.__init__`: pypsa_converter.py 65-93; the network is changed in place, so that the new one is part of the
result. -/
def pypsaInit (n : PNetwork) : R (PNetwork × List PComponentData × List PConstraintData) := do
  pypsaAssertions n
  let n := pypsaPreprocess n
  let n ← pypsaPreprocessType n .generators "p_nom"
  let n ← pypsaPreprocessType n .stores "e_nom"
  let n ← pypsaPreprocessType n .storageUnits "p_nom"
  let n ← pypsaPreprocessType n .links "p_nom"
  let gs ← pypsaConstraintData n
  .ok (n, pypsaComponentData n, gs)

/-- A converted study: the system and the files (name and values). -/
structure PStudy where
  system : InputSystem
  files : List (String × List Num)

/-- `to_gems_study`: pypsa_converter.py 401-426. -/
def toGemsStudy (pf : String → Option Num) (n : PNetwork) (cs : List PComponentData) (gs : List PConstraintData) : R PStudy := do
  let parts ← appendAll (convertComponents pf n.name) cs
  let gcs := gs.map convertConstraint
  .ok {
    system := {
      components := parts.flatMap (·.1) ++ gcs.flatMap (·.1)
      connections := parts.flatMap (·.2.1) ++ gcs.flatMap (·.2) }
    files := parts.flatMap (·.2.2) }

/-- The whole conversion of a network. -/
def pypsaConvert (pf : String → Option Num) (n : PNetwork) : R PStudy := do
  let (n, cs, gs) ← pypsaInit n
  toGemsStudy pf n cs gs

end Verif
