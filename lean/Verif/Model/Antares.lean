import Verif.Model.Thermal

/-!
# Conversion of Antares studies

Models `input_converter/src/converter.py`, `input_converter/src/data_preprocessing/binding_constraints.py` and `dataclasses.py`,
`check_dataframe_validity` of `input_converter/src/utils.py`, and the template `input_converter/data/model_configuration/battery.yaml`.

The study is what the converter asks `antares.craft` for.  Paths are strings joined with `/` (names of objects are assumed to be plain
file names).  Files that are written are part of the result; they are assumed not to be read again during the conversion.
-/

namespace Verif

/-! ## The study -/

/-- `RenewableCluster`: converter.py 155-197 -/
structure ARenewable where
  id : String
  areaId : String
  unitCount : Num
  nominalCapacity : Num
  deriving Repr

/-- `ThermalCluster`: converter.py 216-315; the fourth column of the modulation matrix and the series matrix, the properties -/
structure AThermal where
  id : String
  areaId : String
  modulation : List Num
  series : Frame
  unitCount : Nat
  nominalCapacity : Num
  minStablePower : Num := 0
  efficiency : Num := 0
  marginalCost : Num := 0
  fixedCost : Num := 0
  startupCost : Num := 0
  minUpTime : Num := 0
  minDownTime : Num := 0
  deriving Repr

/-- `STStorage`: converter.py 327-425 -/
structure AStorage where
  id : String
  areaId : String
  efficiency : Num
  initialLevel : Num
  reservoirCapacity : Num
  injectionNominalCapacity : Num
  withdrawalNominalCapacity : Num
  deriving Repr

/-- `Area`; the series of load, wind and solar are `none` when the file does not exist. -/
structure AArea where
  id : String
  energyCostUnsupplied : Num
  energyCostSpilled : Num
  renewables : Dict String ARenewable := []
  thermals : Dict String AThermal := []
  storages : Dict String AStorage := []
  load : Option Frame := none
  wind : Option Frame := none
  solar : Option Frame := none
  deriving Repr

/-- `Link`: converter.py 441-495 -/
structure ALink where
  id : String
  areaFrom : String
  areaTo : String
  deriving Repr

/-- `Study`.  `bindings` has the weights of the terms of each binding constraint; `readSeries` is `read_timeseries` for a type of file, an
area, a cluster and a second area, `seriesDir` the directory of this file (binding_constraints.py 46-60). -/
structure AStudy where
  path : String
  areas : Dict String AArea
  links : Dict String ALink := []
  bindings : Dict String (Dict String Num) := []
  readSeries : String → String → Option String → Option String → R Frame
  seriesDir : String → String → Option String → Option String → String

/-! ## The template -/

/-- `s.replace(pat, rep)` on characters, for a pattern that is not empty; the number counts the characters of an occurrence that are still
to skip. -/
def replaceGo (pat rep : List Char) : Nat → List Char → List Char
  | _, [] => []
  | 0, c :: cs => if pat.isPrefixOf (c :: cs) then rep ++ replaceGo pat rep (pat.length - 1) cs else c :: replaceGo pat rep 0 cs
  | n + 1, _ :: cs => replaceGo pat rep n cs

/-- `s.replace(pat, rep)` -/
def pyReplace (s pat rep : String) : String := String.ofList (replaceGo pat.toList rep.toList 0 s.toList)

/-- `Union[str, float]`: dataclasses.py 11-12 -/
inductive Operand where
  | num (v : Num)
  | key (s : String)
  deriving DecidableEq, Repr

/-- `Operation`: dataclasses.py 8-12. -/
structure Operation where
  type : Option String := none
  multiplyBy : Option Operand := none
  divideBy : Option Operand := none
  deriving DecidableEq, Repr

/-- The value of a parameter of the template, after `type_to_data_class`: binding_constraints.py 28-33, dataclasses.py 52-75.  (The type
`timeseries` always gives the empty string, as `calculate_value` has no case for it, and is left out.) -/
inductive TemplateValue where
  | constant (v : Num)
  | thermal (area cluster : String) (column : Option Nat) (field : Option String) (op : Option Operation) (file : Option String)
  | binding (id field : String) (op : Option Operation)
  | link (column : Nat) (areaFrom areaTo : String) (file : String) (op : Option Operation)
  deriving DecidableEq, Repr

/-- A parameter of the template. -/
structure TemplateParam where
  id : String
  timeDependent : Bool := false
  scenarioDependent : Bool := false
  value : TemplateValue
  deriving DecidableEq, Repr

/-- A template: the part of the file that is used.  `parameters` are the template parameters with the areas that they exclude. -/
structure Template where
  model : String
  parameters : List (String × List String)
  componentId : String
  componentParams : List TemplateParam
  links : List String
  nodes : List String
  thermals : List String
  deriving DecidableEq, Repr

/-- `battery.yaml` 17-165. -/
def batteryTemplate : Template where
  model := "andromede-v1-models.battery"
  parameters := [("area", ["z_batteries", "z_batteries_pcomp"])]
  componentId := "battery_${area}"
  componentParams := [
    { id := "reservoir_capacity",
      value := .thermal "z_batteries" "z_batteries_batteries_${area}_1" none (some "nominalcapacity") none none },
    { id := "injection_nominal_capacity",
      value := .link 0 "${area}" "z_batteries" "links_capacities_direct" (some { type := some "max" }) },
    { id := "withdrawal_nominal_capacity",
      value := .thermal "${area}" "${area}_batteries_inj" none (some "nominalcapacity") none none },
    { id := "efficiency_injection",
      value := .binding "batteries_${area}" "${area}%z_batteries" (some { multiplyBy := some (.num (-1)) }) },
    { id := "efficiency_withdrawal",
      value := .binding "batteries_${area}" "${area}.${area}_batteries_inj" none },
    { id := "lower_rule_curve", value := .constant 0 },
    { id := "upper_rule_curve", timeDependent := true,
      value := .thermal "z_batteries" "z_batteries_batteries_${area}_1" (some 0) none (some { divideBy := some (.key "reservoir_capacity") })
        (some "thermal_series") },
    { id := "p_max_injection_modulation", timeDependent := true,
      value := .link 0 "${area}" "z_batteries" "links_capacities_direct" (some { divideBy := some (.key "injection_nominal_capacity") }) },
    { id := "p_max_withdrawal_modulation", timeDependent := true,
      value := .thermal "${area}" "${area}_batteries_inj" (some 0) none (some { divideBy := some (.key "withdrawal_nominal_capacity") })
        (some "thermal_series") },
    { id := "marginal_cost", timeDependent := true,
      value := .link 0 "${area}" "z_batteries" "links_parameters" none } ]
  links := ["${area}%z_batteries"]
  nodes := ["z_batteries"]
  thermals := ["${area}.${area}_batteries_inj", "z_batteries.z_batteries_batteries_${area}_1",
    "z_batteries.z_batteries_batteries_${area}_2"]

/-! `_match_area_pattern` (converter.py 78-91) on each part of the template; keys and identifiers of types have no pattern. -/

/-- on an operand -/
def Operand.subst (f : String → String) : Operand → Operand
  | .num v => .num v
  | .key s => .key (f s)

/-- on an operation -/
def Operation.subst (f : String → String) (o : Operation) : Operation :=
  ⟨o.type.map f, o.multiplyBy.map (·.subst f), o.divideBy.map (·.subst f)⟩

/-- on a value -/
def TemplateValue.subst (f : String → String) : TemplateValue → TemplateValue
  | .constant v => .constant v
  | .thermal a c col field op file => .thermal (f a) (f c) col (field.map f) (op.map (·.subst f)) (file.map f)
  | .binding i field op => .binding (f i) (f field) (op.map (·.subst f))
  | .link col a b file op => .link col (f a) (f b) (f file) (op.map (·.subst f))

/-- on a parameter -/
def TemplateParam.subst (f : String → String) (p : TemplateParam) : TemplateParam :=
  { p with id := f p.id, value := p.value.subst f }

/-- `self.bc_area_pattern`: converter.py 669; the list is not empty (`IndexError` otherwise). -/
def areaPattern (t : Template) : String := "${" ++ (t.parameters.map (·.1)).headD "" ++ "}"

/-! ## Values of the template -/

/-- `resolve`: dataclasses.py 19-29; `none` when there are no preprocessed values. -/
def Operand.resolve (pre : Option (Dict String Num)) : Operand → R Num
  | .num v => .ok v
  | .key s => match pre with
    | none => .error (.valueError "Missing value")
    | some d => match d.get? s with
      | none => .error (.valueError "Missing value")
      | some v => .ok v

/-- `max(l)` of Python on floats -/
def pyMaximum : List Num → R Num
  | [] => .error (.valueError "max() arg is an empty sequence")
  | v :: vs => .ok (vs.foldl (fun a b => if a.lt b then b else a) v)

/-- result of an operation on a series: `Union[float, pd.Series]` -/
inductive OpResult where
  | num (v : Num)
  | series (l : List Num)
  deriving DecidableEq, Repr

/-- `Operation.execute` on a series: dataclasses.py 14-42. -/
def Operation.onSeries (o : Operation) (l : List Num) (pre : Dict String Num) : R OpResult :=
  if o.type = some "max" then do
    let v ← pyMaximum l
    .ok (.num v)
  else match o.multiplyBy with
    | some x => do
      let v ← x.resolve (some pre)
      .ok (.series (l.map (· * v)))
    | none => match o.divideBy with
      | some x => do
        let v ← x.resolve (some pre)
        .ok (.series (l.map fun y => npDiv y v))
      | none => .error (.valueError "Operation must have at least one of 'multiply_by', 'divide_by', or 'type'")

/-- `Operation.execute` on a number, without preprocessed values: dataclasses.py 14-42, binding_constraints.py 99. -/
def Operation.onNum (o : Operation) (w : Num) : R Num :=
  if o.type = some "max" then .error (.typeError "'float' object is not iterable")
  else match o.multiplyBy with
    | some x => do
      let v ← x.resolve none
      .ok (w * v)
    | none => match o.divideBy with
      | some x => do
        let v ← x.resolve none
        w.div v
      | none => .error (.valueError "Operation must have at least one of 'multiply_by', 'divide_by', or 'type'")

/-- `df.iloc[:, column]`; `None` is not an index. -/
def frameColumn (f : Frame) : Option Nat → R (List Num)
  | none => .error (.typeError "cannot index with None")
  | some c => if c < f.width then .ok (f.rows.map fun r => r.getD c .nan) else .error .indexError

/-- what the conversion of the template changes: `preprocessed_values`, which belongs to the class, and the files -/
structure BState where
  pre : Dict String Num
  files : List (String × Frame) := []

/-- `series.to_csv(path)` -/
def seriesFrame (l : List Num) : Frame := ⟨1, l.map fun v => [v]⟩

/-- `_process_time_series`: binding_constraints.py 45-83. -/
def processSeries (st : AStudy) (s : BState) (paramId areaId file : String) (cluster second : Option String) (column : Option Nat)
    (op : Option Operation) : R (ParamValue × BState) := do
  let area ← st.areas.get areaId
  let f ← st.readSeries file areaId cluster second
  let l ← frameColumn f column
  let out := st.seriesDir file areaId cluster second ++ "/" ++ paramId ++ "_" ++ area.id
  match op with
  | none => .ok (.name out, { s with files := s.files ++ [(out ++ ".txt", seriesFrame l)] })
  | some o => do
    let r ← o.onSeries l s.pre
    match r with
    | .num v => .ok (.number v, { s with pre := s.pre.set paramId v })
    | .series l => .ok (.name out, { s with files := s.files ++ [(out ++ ".txt", seriesFrame l)] })

/-- `getattr(thermal.properties, FIELD_ALIAS_MAP[field])`: binding_constraints.py 22-27, 91-93 -/
def thermalField (t : AThermal) : Option String → R Num
  | some "nominalcapacity" => .ok t.nominalCapacity
  | some "min-stable-power" => .ok t.minStablePower
  | some "min-up-time" => .ok t.minUpTime
  | some "min-down-time" => .ok t.minDownTime
  | f => .error (.keyError (f.getD "None"))

/-- `calculate_value` and `convert_param_value`: binding_constraints.py 85-128. -/
def convertValue (st : AStudy) (s : BState) (paramId : String) : TemplateValue → R (ParamValue × BState)
  | .constant v => .ok (.number v, s)
  | .thermal a c col field op file =>
    match file with
    | some file => processSeries st s paramId a file (some c) none col op
    | none => do
      let area ← st.areas.get a
      let t ← area.thermals.get c
      let v ← thermalField t field
      .ok (.number v, { s with pre := s.pre.set paramId v })
  | .binding i field op => do
    let terms ← st.bindings.get i
    let w ← terms.get field
    match op with
    | none => .ok (.number w, s)
    | some o => do
      let v ← o.onNum w
      .ok (.number v, s)
  | .link col a b file op => processSeries st s paramId a file none (some b) (some col) op

/-- the parameters of one component: converter.py 627-639; what was changed before an exception stays. -/
def convertValues (st : AStudy) : List TemplateParam → BState → BState × R (List InputParam)
  | [], s => (s, .ok [])
  | p :: ps, s =>
    match convertValue st s p.id p.value with
    | .error e => (s, .error e)
    | .ok (v, s) =>
      let (s, r) := convertValues st ps s
      (s, do
        let rest ← r
        .ok ({ id := p.id, timeDependent := p.timeDependent, scenarioDependent := p.scenarioDependent, value := v } :: rest))

/-- `except (KeyError, FileNotFoundError)`: converter.py 650 -/
def Err.isSkipped : Err → Bool
  | .keyError _ => true
  | .exception m => m = "FileNotFoundError"
  | _ => false

/-! ## Conversion -/

/-- parameter with a number -/
def constParam (id : String) (v : Num) : InputParam := { id := id, value := .number v }

/-- parameter with a file of series -/
def seriesParam (id path : String) : InputParam := { id := id, timeDependent := true, scenarioDependent := true, value := .name path }

/-- `_legacy_component_to_exclude`: converter.py 93-104. -/
def legacyToExclude (st : AStudy) (pattern : String) (l : List String) : List String :=
  st.areas.values.flatMap fun a => l.map fun s => pyReplace s pattern a.id

/-- `antares_historic_lib_id`: converter.py 666 -/
def historicLib : String := "antares-historic"

/-- `_convert_area_to_component_list`: converter.py 116-145. -/
def convertAreas (st : AStudy) (t : Template) : List InputComponent :=
  (st.areas.values.filter fun a => !t.nodes.contains a.id).map fun a =>
    { id := a.id, model := historicLib ++ ".area",
      parameters := [constParam "ens_cost" a.energyCostUnsupplied, constParam "spillage_cost" a.energyCostSpilled] }

/-- what one conversion method returns, and the files -/
structure Converted where
  components : List InputComponent := []
  connections : List InputConnection := []
  files : List (String × Frame) := []
  deriving DecidableEq, Repr

/-- one after the other -/
def Converted.append (a b : Converted) : Converted := ⟨a.components ++ b.components, a.connections ++ b.connections, a.files ++ b.files⟩

/-- all of them -/
def Converted.concat (l : List Converted) : Converted := l.foldr Converted.append {}

/-- one renewable cluster: converter.py 156-198 -/
def convertRenewable (st : AStudy) (r : ARenewable) : Converted where
  components := [{ id := r.id, model := historicLib ++ ".renewable", parameters := [
    constParam "unit_count" r.unitCount, constParam "p_max_unit" r.nominalCapacity,
    seriesParam "generation" (st.path ++ "/input/renewables/series/" ++ r.areaId ++ "/" ++ r.id ++ "/series")] }]
  connections := [⟨r.id, "balance_port", r.areaId, "balance_port"⟩]

/-- `_convert_renewable_to_component_list`: converter.py 147-200. -/
def convertRenewables (st : AStudy) : Converted :=
  .concat (st.areas.values.flatMap fun a => a.renewables.values.map (convertRenewable st))

/-- the object given to `ThermalDataPreprocessing` -/
def AThermal.cluster (st : AStudy) (t : AThermal) : ThermalCluster where
  modulation := t.modulation
  series := t.series
  unitCount := t.unitCount
  nominalCapacity := t.nominalCapacity
  seriesPath := st.path ++ "/input/thermal/series/" ++ t.areaId ++ "/" ++ t.id

/-- one thermal cluster: converter.py 220-315 -/
def convertThermal (st : AStudy) (period : Int) (areaId : String) (t : AThermal) : R Converted := do
  let c := t.cluster st
  let p1 ← generateParameter c "p_min_cluster"
  let p2 ← generateParameter c "nb_units_min"
  let p3 ← generateParameter c "nb_units_max"
  let p4 ← generateParameter c "nb_units_max_variation_forward" period
  let p5 ← generateParameter c "nb_units_max_variation_backward" period
  .ok {
    components := [{ id := t.id, model := historicLib ++ ".thermal", parameters := [
      p1.1, p2.1, p3.1, p4.1, p5.1, constParam "unit_count" (.fin t.unitCount), constParam "p_min_unit" t.minStablePower,
      constParam "efficiency" t.efficiency, constParam "p_max_unit" t.nominalCapacity, constParam "generation_cost" t.marginalCost,
      constParam "fixed_cost" t.fixedCost, constParam "startup_cost" t.startupCost, constParam "d_min_up" t.minUpTime,
      constParam "d_min_down" t.minDownTime, seriesParam "p_max_cluster" (c.seriesPath ++ "/series")] }]
    connections := [⟨t.id, "balance_port", areaId, "balance_port"⟩]
    files := [p1.2, p2.2, p3.2, p4.2, p5.2] }

/-- the thermal clusters that are converted: converter.py 209-218 -/
def keptThermals (st : AStudy) (tpl : Template) (pattern : String) : List (String × AThermal) :=
  let excluded := legacyToExclude st pattern tpl.thermals
  st.areas.values.flatMap fun a => (a.thermals.values.filter fun t => !excluded.contains (a.id ++ "." ++ t.id)).map fun t => (a.id, t)

/-- `_convert_thermal_to_component_list`: converter.py 202-316. -/
def convertThermals (st : AStudy) (tpl : Template) (pattern : String) (period : Int) : R Converted := do
  let cs ← appendAll (fun x => convertThermal st period x.1 x.2) (keptThermals st tpl pattern)
  .ok (.concat cs)

/-- one storage: converter.py 328-425 -/
def convertStorage (st : AStudy) (areaId : String) (s : AStorage) : Converted :=
  let dir := st.path ++ "/input/st-storage/series/" ++ s.areaId ++ "/" ++ s.id
  { components := [{ id := s.id, model := historicLib ++ ".short-term-storage", parameters := [
      constParam "efficiency_injection" s.efficiency, constParam "efficiency_withdrawal" 1, constParam "initial_level" s.initialLevel,
      constParam "reservoir_capacity" s.reservoirCapacity, constParam "injection_nominal_capacity" s.injectionNominalCapacity,
      constParam "withdrawal_nominal_capacity" s.withdrawalNominalCapacity, seriesParam "inflows" (dir ++ "/inflows"),
      seriesParam "lower_rule_curve" (dir ++ "/lower-rule-curve"), seriesParam "upper_rule_curve" (dir ++ "/upper-rule-curve"),
      seriesParam "p_max_injection_modulation" (dir ++ "/PMAX-injection"),
      seriesParam "p_max_withdrawal_modulation" (dir ++ "/PMAX-withdrawal")] }]
    connections := [⟨s.id, "injection_port", areaId, "balance_port"⟩] }

/-- `_convert_st_storage_to_component_list`: converter.py 318-426. -/
def convertStorages (st : AStudy) : Converted :=
  .concat (st.areas.values.flatMap fun a => a.storages.values.map (convertStorage st a.id))

/-- one link: converter.py 444-495 -/
def convertLink (st : AStudy) (l : ALink) : Converted :=
  let dir := st.path ++ "/input/links/" ++ l.areaFrom ++ "/capacities/" ++ l.areaTo
  { components := [{ id := l.id, model := historicLib ++ ".link", parameters := [
      seriesParam "capacity_direct" (dir ++ "_direct"), seriesParam "capacity_indirect" (dir ++ "_indirect")] }]
    connections := [⟨l.id, "in_port", l.areaFrom, "balance_port"⟩, ⟨l.id, "out_port", l.areaTo, "balance_port"⟩] }

/-- the links that are converted: converter.py 435-443 -/
def keptLinks (st : AStudy) (tpl : Template) (pattern : String) : List ALink :=
  let excluded := legacyToExclude st pattern tpl.links
  st.links.values.filter fun l => !excluded.contains (l.areaFrom ++ "%" ++ l.areaTo)

/-- `_convert_link_to_component_list`: converter.py 428-496. -/
def convertLinks (st : AStudy) (tpl : Template) (pattern : String) : Converted := .concat ((keptLinks st tpl pattern).map (convertLink st))

/-- `check_dataframe_validity`: utils.py 35-46. -/
def frameValid (f : Frame) : Bool :=
  if f.width = 0 || f.rows.isEmpty || f.rows.all (fun r => r.all fun v => v.eqb 0) then false else true

/-- one area for load, wind or solar: converter.py 505-531, 542-569, 580-606.  `series` is the matrix if the file exists, `id` the name of the
component and `name` the one of the connection. -/
def convertMisc (st : AStudy) (kind id name areaId : String) (series : Option Frame) : Converted :=
  match series with
  | none => {}
  | some f =>
    if frameValid f then
      { components := [{ id := id, model := historicLib ++ "." ++ kind, parameters := [
          seriesParam kind (st.path ++ "/input/" ++ kind ++ "/series/" ++ kind ++ "_" ++ areaId)] }]
        connections := [⟨name, "balance_port", areaId, "balance_port"⟩] }
    else {}

/-- `_convert_load_to_component_list`: converter.py 573-608. -/
def convertLoads (st : AStudy) : Converted := .concat (st.areas.values.map fun a => convertMisc st "load" "load" "load" a.id a.load)

/-- `_convert_wind_to_component_list`: converter.py 498-533. -/
def convertWind (st : AStudy) : Converted := .concat (st.areas.values.map fun a => convertMisc st "wind" a.id "wind" a.id a.wind)

/-- `_convert_solar_to_component_list`: converter.py 535-571. -/
def convertSolar (st : AStudy) : Converted := .concat (st.areas.values.map fun a => convertMisc st "solar" a.id "solar" a.id a.solar)

/-- the loop of `_convert_cc_to_component_list`: converter.py 619-651.  It stops at the first area for which a `KeyError` or a
`FileNotFoundError` is raised. -/
def convertTemplates (st : AStudy) (tpl : Template) (pattern : String) : List AArea → BState → R (BState × Converted)
  | [], s => .ok (s, {})
  | a :: rest, s =>
    let f := fun x => pyReplace x pattern a.id
    match convertValues st (tpl.componentParams.map (·.subst f)) s with
    | (s, .error e) => if e.isSkipped then .ok (s, {}) else .error e
    | (s, .ok ps) => do
      let (s, c) ← convertTemplates st tpl pattern rest s
      .ok (s, Converted.append {
        components := [{ id := f tpl.componentId, model := f tpl.model, parameters := ps }]
        connections := [⟨f tpl.componentId, "injection_port", a.id, "balance_port"⟩] } c)

/-- `_extract_valid_areas_from_model_config`: converter.py 655-663. -/
def validAreas (st : AStudy) (tpl : Template) : List AArea :=
  match tpl.parameters.find? fun p => !p.2.isEmpty with
  | none => []
  | some p => (st.areas.filter fun x => !p.2.contains x.1).map (·.2)

/-- `_convert_cc_to_component_list`: converter.py 610-653; `pre` is the value of the class attribute `preprocessed_values` before. -/
def convertBatteries (st : AStudy) (tpl : Template) (pattern : String) (pre : Dict String Num) : R Converted := do
  let (s, c) ← convertTemplates st tpl pattern (validAreas st tpl) { pre := pre }
  .ok { c with files := s.files }

/-- `self.period`: converter.py 62 -/
def periodOf : Option Int → Int
  | none => 168
  | some p => if p = 0 then 168 else p

/-- `convert_study_to_input_study`: converter.py 665-707; also the files that are written. -/
def convertStudy (st : AStudy) (tpl : Template) (period : Option Int) (pre : Dict String Num) :
    R (InputSystem × List (String × Frame)) := do
  let pattern := areaPattern tpl
  let nodes := convertAreas st tpl
  let thermals ← convertThermals st tpl pattern (periodOf period)
  let batteries ← convertBatteries st tpl pattern pre
  let all := Converted.concat [convertRenewables st, thermals, convertStorages st, convertLoads st, convertWind st, convertSolar st,
    convertLinks st tpl pattern, batteries]
  .ok ({ nodes := nodes, components := all.components, connections := all.connections }, all.files)

end Verif
