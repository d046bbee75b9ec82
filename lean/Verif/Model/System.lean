import Verif.Model.Data

/-!
# Systems and their data

Models `study/resolve_components.py` and the classes of `study/parsing.py` and `model/library.py` it uses.  Files are
abstracted: `load` is `load_ts_from_txt` (data.py 135-147) for the time series directory of the study.
-/

namespace Verif

/-- `Library`: model/library.py 18-22. -/
structure Library where
  id : String
  portTypes : Dict String PortType := []
  models : Dict String Model := []
  deriving Repr

/-- `value: Union[float, str]` of an input parameter: study/parsing.py 48 -/
inductive ParamValue where
  | number (v : Num)
  | name (s : String)
  deriving DecidableEq, Repr

/-- `InputComponentParameter`: study/parsing.py 44-49. -/
structure InputParam where
  id : String
  timeDependent : Bool := false
  scenarioDependent : Bool := false
  value : ParamValue
  scenarioGroup : Option String := none
  deriving DecidableEq, Repr

/-- `InputComponent`: study/parsing.py 52-56; `parameters` absent is the empty list. -/
structure InputComponent where
  id : String
  model : String
  scenarioGroup : Option String := none
  parameters : List InputParam := []
  deriving DecidableEq, Repr

/-- `InputPortConnections`: study/parsing.py 37-41. -/
structure InputConnection where
  component1 : String
  port1 : String
  component2 : String
  port2 : String
  deriving DecidableEq, Repr

/-- `InputSystem`: study/parsing.py 59-63. -/
structure InputSystem where
  nodes : List InputComponent := []
  components : List InputComponent := []
  connections : List InputConnection := []
  deriving DecidableEq, Repr

/-- `System`: resolve_components.py 42-46. -/
structure System where
  components : Dict String Component
  nodes : Dict String Component
  connections : List PortsConnection

/-- `s.split(".")` on the characters of the string -/
def splitDots : List Char → List (List Char)
  | [] => [[]]
  | c :: cs =>
    if c = '.' then [] :: splitDots cs
    else match splitDots cs with
      | [] => [[c]]
      | w :: ws => (c :: w) :: ws

/-- `_resolve_component`: resolve_components.py 79-88; unpacking a list that does not have 2 elements is `ValueError`. -/
def resolveComponent (libs : Dict String Library) (c : InputComponent) : R Component :=
  match splitDots c.model.toList with
  | [lib, model] => do
    let l ← libs.get (String.ofList lib)
    let m ← l.models.get (String.ofList model)
    .ok ⟨m, c.id⟩
  | _ => .error (.valueError "not enough values to unpack")

/-- `_get_component_by_id`: resolve_components.py 109-113. -/
def componentById (all : List Component) (id : String) : Option Component :=
  Dict.get? (Dict.ofItems (all.map fun c => (c.id, c))) id

/-- `_resolve_connections`: resolve_components.py 91-106; a failed `assert` is `AssertionError`. -/
def resolveConnection (all : List Component) (c : InputConnection) : R PortsConnection :=
  match componentById all c.component1, componentById all c.component2 with
  | some c1, some c2 => PortsConnection.make ⟨c1, c.port1⟩ ⟨c2, c.port2⟩
  | _, _ => .error (.exception "AssertionError")

/-- `resolve_system` and `system`: resolve_components.py 49-76. -/
def resolveSystem (inp : InputSystem) (libs : Dict String Library) : R System := do
  let comps ← appendAll (resolveComponent libs) inp.components
  let nodes ← appendAll (resolveComponent libs) inp.nodes
  let cnx ← appendAll (resolveConnection (comps ++ nodes)) inp.connections
  .ok ⟨Dict.ofItems (comps.map fun c => (c.id, c)), Dict.ofItems (nodes.map fun c => (c.id, c)), cnx⟩

/-- `consistency_check`: resolve_components.py 116-130. -/
def consistencyCheck (study : Dict String Component) (models : Dict String Model) : R Bool :=
  match study with
  | [] => .ok true
  | (_, c) :: rest =>
    if !models.contains c.model.id then .error (.valueError "Component has invalid model ID")
    else consistencyCheck rest models

/-- the last loop of `build_network`: resolve_components.py 144-145 -/
def connectAll : List PortsConnection → Network → R Network
  | [], n => .ok n
  | c :: cs, n => do
    let n ← n.connect c.port1 c.port2
    connectAll cs n

/-- `build_network`: resolve_components.py 133-146. -/
def buildNetwork (s : System) : R Network :=
  let n : Network := { id := "study" }
  let n := s.nodes.foldl (fun n (id, c) => n.addNode ⟨c.model, id⟩) n
  let n := s.components.values.foldl (fun n c => n.addComponent c) n
  connectAll s.connections n

/-- `_build_data`: resolve_components.py 168-195. -/
def buildData (load : String → R Frame) (p : InputParam) (z : Option Scenarization := none) : R Data :=
  match p.value with
  | .name s => do
    let ts ← load s
    if p.timeDependent && p.scenarioDependent then .ok (.timeScenarioSeries ts z)
    else if p.timeDependent then do
      let d ← ts.toTimeSeries
      .ok (.timeSeries d)
    else if p.scenarioDependent then do
      let d ← ts.toScenarioSeries
      .ok (.scenarioSeries d z)
    else .error (.valueError "A float value is expected for constant data")
  | .number v =>
    if p.timeDependent || p.scenarioDependent then .error (.valueError "A timeseries name is expected")
    else .ok (.const v)

/-- the inner loop of `build_data_base`: resolve_components.py 156-163 -/
def addParams (load : String → R Frame) (c : String) : List InputParam → DataBase → R DataBase
  | [], db => .ok db
  | p :: ps, db => do
    let d ← buildData load p
    addParams load c ps (db.addData c p.id d)

/-- the outer loop of `build_data_base` -/
def addComponents (load : String → R Frame) : List InputComponent → DataBase → R DataBase
  | [], db => .ok db
  | c :: cs, db => do
    let db ← addParams load c.id c.parameters db
    addComponents load cs db

/-- `build_data_base`: resolve_components.py 149-165. -/
def buildDataBase (load : String → R Frame) (inp : InputSystem) : R DataBase :=
  addComponents load (inp.components ++ inp.nodes) []

/-- A line `name, year, scenario` of the scenario builder. -/
structure BuilderLine where
  name : String
  year : Int
  scenario : Int
  deriving DecidableEq, Repr

/-- the loop of `_resolve_scenarization`: resolve_components.py 201-207 -/
def resolveScenarizationLoop : List BuilderLine → Dict String Scenarization → R (Dict String Scenarization)
  | [], out => .ok out
  | r :: rs, out =>
    match out.get? r.name with
    | some z => do
      let z ← z.addYear r.year r.scenario
      resolveScenarizationLoop rs (out.set r.name z)
    | none => resolveScenarizationLoop rs (out.set r.name [(r.year, r.scenario)])

/-- `_resolve_scenarization`: resolve_components.py 198-207. -/
def resolveScenarization (rows : List BuilderLine) : R (Dict String Scenarization) := resolveScenarizationLoop rows []

/-- `if group: scenarization = scenarizations[group]`: resolve_components.py 219-221, 225-226; an empty name is false -/
def updateGroup (zs : Dict String Scenarization) (group : Option String) (z : Option Scenarization) :
    R (Option Scenarization) :=
  match group with
  | none => .ok z
  | some g => if g = "" then .ok z else do
    let z ← zs.get g
    .ok (some z)

/-- the inner loop of `build_scenarized_data_base`: resolve_components.py 224-234; the variable `scenarization` keeps its
value from one parameter to the next. -/
def addScenarizedParams (load : String → R Frame) (zs : Dict String Scenarization) (c : String) :
    List InputParam → Option Scenarization → DataBase → R DataBase
  | [], _, db => .ok db
  | p :: ps, z, db => do
    let z ← updateGroup zs p.scenarioGroup z
    let d ← buildData load p z
    addScenarizedParams load zs c ps z (db.addData c p.id d)

/-- the outer loop of `build_scenarized_data_base`: resolve_components.py 218-234 -/
def addScenarizedComponents (load : String → R Frame) (zs : Dict String Scenarization) :
    List InputComponent → DataBase → R DataBase
  | [], db => .ok db
  | c :: cs, db => do
    let z ← updateGroup zs c.scenarioGroup none
    let db ← addScenarizedParams load zs c.id c.parameters z db
    addScenarizedComponents load zs cs db

/-- `build_scenarized_data_base`: resolve_components.py 210-236. -/
def buildScenarizedDataBase (load : String → R Frame) (inp : InputSystem) (rows : List BuilderLine) : R DataBase := do
  let zs ← resolveScenarization rows
  addScenarizedComponents load zs inp.components []

end Verif
