import Verif.Model.Library

/-!
# Library and system files

Models the reading of library and system files (`parse_yaml_library` of `model/parsing.py`, `parse_yaml_components` of `study/parsing.py`,
the classes that both files define and their base class in `utils.py`), and the writing of system files by the converters
(`transform_to_yaml` of `input_converter/src/utils.py` and `pypsa_converter/utils.py`).

A file is the tree that its YAML text describes: going from the text to the tree is not modelled (PyYAML), nor are tags that give Python
objects (`!!binary`, `!!set`, `!!omap`, ...).  The checks of the classes are done by pydantic 2.10.6 (requirements.txt).  Values that have not
the type of the field and that pydantic may still convert are left open (`Lenient`).
-/

namespace Verif

/-- The tree of a YAML file.  The entries of a mapping are in the order of the file and a key may come several times; the key of an entry is
`none` when it is not a text.  `other` is a value of another type, for instance a date. -/
inductive Doc where
  | null
  | bool (b : Bool)
  | int (n : Int)
  | float (v : Num)
  | str (s : String)
  | seq (l : List Doc)
  | map (l : List (Option String × Doc))
  | other

/-- The entries of a mapping. -/
abbrev Entries := List (Option String × Doc)

/-- Conversions that pydantic makes or not: the boolean for a number or a text (1, `yes` between quotes, ...) and the number for a boolean. -/
structure Lenient where
  ofInt : Int → Option Bool
  ofFloat : Num → Option Bool
  ofText : String → Option Bool
  number : Bool → Option Num

/-- `_to_kebab`: utils.py 76-77. -/
def toKebab (s : String) : String := String.ofList (s.toList.map fun c => if c = '_' then '-' else c)

/-- `ValidationError` of pydantic, which is a `ValueError`. -/
abbrev invalid : Err := .valueError "validation"

namespace Doc

/-- the value of a key in the dictionary that `safe_load` makes of a mapping: the last one of the file -/
def lookup (l : Entries) (k : String) : Option Doc := (l.reverse.find? fun e => e.1 == some k).map (·.2)

/-- The value of a field: under its alias, or else under its name (`alias_generator` and `populate_by_name`, utils.py 82-84). -/
def field (l : Entries) (name : String) : Option Doc :=
  match lookup l (toKebab name) with
  | some d => some d
  | none => lookup l name

/-- a field without default value -/
def required {α} (l : Entries) (name : String) (f : Doc → R α) : R α :=
  match field l name with
  | some d => f d
  | none => .error invalid

/-- a field with a default value: `none` when it is not set -/
def optional {α} (l : Entries) (name : String) (f : Doc → R α) : R (Option α) :=
  match field l name with
  | some d => do
    let a ← f d
    .ok (some a)
  | none => .ok none

/-- `extra = "forbid"`: utils.py 83.  A key is known when it is the alias of a field, or its name and the alias is not there. -/
def forbidExtra (names : List String) (l : Entries) : R Unit :=
  if l.all fun e => match e.1 with
    | none => false
    | some k => names.any fun n => k == toKebab n || (k == n && (lookup l (toKebab n)).isNone)
  then .ok () else .error invalid

/-- the entries of a mapping: the classes are read from mappings only -/
def entries : Doc → R Entries
  | .map l => .ok l
  | _ => .error invalid

/-- a field of type `str` -/
def text : Doc → R String
  | .str s => .ok s
  | _ => .error invalid

/-- a field of type `str` of a class with `coerce_numbers_to_str`: model/parsing.py 43-44; `num` is Python's `str` of a float -/
def textOrNumber (num : Num → String) : Doc → R String
  | .str s => .ok s
  | .int n => .ok (toString n)
  | .float v => .ok (num v)
  | _ => .error invalid

/-- a field of type `Optional[...]` -/
def orNull {α} (f : Doc → R α) : Doc → R (Option α)
  | .null => .ok none
  | d => do
    let a ← f d
    .ok (some a)

/-- the result of a conversion, if there is one -/
def orInvalid {α} : Option α → R α
  | some a => .ok a
  | none => .error invalid

/-- a field of type `bool` -/
def boolean (L : Lenient) : Doc → R Bool
  | .bool b => .ok b
  | .int n => orInvalid (L.ofInt n)
  | .float v => orInvalid (L.ofFloat v)
  | .str s => orInvalid (L.ofText s)
  | _ => .error invalid

/-- a field of type `Union[float, str]`: a text stays a text, even if it is the text of a number -/
def numberOrText (L : Lenient) : Doc → R ParamValue
  | .float v => .ok (.number v)
  | .int n => .ok (.number (.fin n))
  | .str s => .ok (.name s)
  | .bool b => orInvalid ((L.number b).map .number)
  | _ => .error invalid

/-- a field of type `List[...]` -/
def listOf {α} (f : Doc → R α) : Doc → R (List α)
  | .seq l => appendAll f l
  | _ => .error invalid

end Doc

open Doc

/-! ### System files -/

/-- An instance of `InputComponentParameter`: study/parsing.py 44-49.  Fields with a default value are `none` when they were not set. -/
structure SetParam where
  id : String
  timeDependent : Option Bool := none
  scenarioDependent : Option Bool := none
  value : ParamValue
  scenarioGroup : Option (Option String) := none

/-- An instance of `InputComponent`: study/parsing.py 52-56. -/
structure SetComponent where
  id : String
  model : String
  scenarioGroup : Option (Option String) := none
  parameters : Option (Option (List SetParam)) := none

/-- An instance of `InputSystem`: study/parsing.py 59-63. -/
structure SetSystem where
  modelLibraries : Option (Option String) := none
  nodes : Option (List SetComponent) := none
  components : Option (List SetComponent) := none
  connections : Option (List InputConnection) := none

/-- the values of the fields: study/parsing.py 44-49 -/
def SetParam.values (p : SetParam) : InputParam :=
  ⟨p.id, p.timeDependent.getD false, p.scenarioDependent.getD false, p.value, p.scenarioGroup.getD none⟩

/-- the values of the fields: study/parsing.py 52-56 -/
def SetComponent.values (c : SetComponent) : InputComponent :=
  ⟨c.id, c.model, c.scenarioGroup.getD none, ((c.parameters.getD none).getD []).map (·.values)⟩

/-- the values of the fields: study/parsing.py 59-63; `model_libraries` is not used -/
def SetSystem.values (s : SetSystem) : InputSystem :=
  ⟨(s.nodes.getD []).map (·.values), (s.components.getD []).map (·.values), s.connections.getD []⟩

/-- `InputPortConnections`: study/parsing.py 37-41. -/
def readConnection (d : Doc) : R InputConnection := do
  let l ← entries d
  let _ ← forbidExtra ["component1", "port1", "component2", "port2"] l
  let c1 ← required l "component1" text
  let p1 ← required l "port1" text
  let c2 ← required l "component2" text
  let p2 ← required l "port2" text
  .ok ⟨c1, p1, c2, p2⟩

/-- `InputComponentParameter`: study/parsing.py 44-49. -/
def readParam (L : Lenient) (d : Doc) : R SetParam := do
  let l ← entries d
  let _ ← forbidExtra ["id", "time_dependent", "scenario_dependent", "value", "scenario_group"] l
  let id ← required l "id" text
  let time ← optional l "time_dependent" (boolean L)
  let scen ← optional l "scenario_dependent" (boolean L)
  let v ← required l "value" (numberOrText L)
  let g ← optional l "scenario_group" (orNull text)
  .ok ⟨id, time, scen, v, g⟩

/-- `InputComponent`: study/parsing.py 52-56. -/
def readComponent (L : Lenient) (d : Doc) : R SetComponent := do
  let l ← entries d
  let _ ← forbidExtra ["id", "model", "scenario_group", "parameters"] l
  let id ← required l "id" text
  let m ← required l "model" text
  let g ← optional l "scenario_group" (orNull text)
  let ps ← optional l "parameters" (orNull (listOf (readParam L)))
  .ok ⟨id, m, g, ps⟩

/-- `InputSystem`: study/parsing.py 59-63. -/
def readSystem (L : Lenient) (d : Doc) : R SetSystem := do
  let l ← entries d
  let _ ← forbidExtra ["model_libraries", "nodes", "components", "connections"] l
  let m ← optional l "model_libraries" (orNull text)
  let ns ← optional l "nodes" (listOf (readComponent L))
  let cs ← optional l "components" (listOf (readComponent L))
  let ks ← optional l "connections" (listOf readConnection)
  .ok ⟨m, ns, cs, ks⟩

/-- `tree[key]`: only a mapping has keys that are texts -/
def subscript (key : String) : Doc → R Doc
  | .map l => match lookup l key with
    | some d => .ok d
    | none => .error (.keyError key)
  | _ => .error (.typeError "not subscriptable")

/-- `parse_yaml_components`: study/parsing.py 26-28. -/
def parseYamlComponents (L : Lenient) (tree : Doc) : R InputSystem := do
  let d ← subscript "system" tree
  let s ← readSystem L d
  .ok s.values

/-! ### Writing system files -/

namespace Doc

/-- an entry for a field that is set: `exclude_unset=True` -/
def entry (key : String) : Option Doc → Entries
  | some d => [(some key, d)]
  | none => []

/-- a text or `null` -/
def ofText? : Option String → Doc
  | some s => .str s
  | none => .null

/-- a number or a text -/
def ofValue : ParamValue → Doc
  | .number v => .float v
  | .name s => .str s

end Doc

/-- `model_dump(by_alias=True, exclude_unset=True)` of a parameter, in the order of `yaml.dump`: study/parsing.py 44-49 -/
def dumpParam (p : SetParam) : Doc :=
  .map ([(some "id", .str p.id)] ++ entry "scenario-dependent" (p.scenarioDependent.map .bool) ++
    entry "scenario-group" (p.scenarioGroup.map ofText?) ++ entry "time-dependent" (p.timeDependent.map .bool) ++ [(some "value", ofValue p.value)])

/-- the same of a component: study/parsing.py 52-56 -/
def dumpComponent (c : SetComponent) : Doc :=
  .map ([(some "id", .str c.id), (some "model", .str c.model)] ++
    entry "parameters" (c.parameters.map fun ps => match ps with
      | some ps => .seq (ps.map dumpParam)
      | none => .null) ++
    entry "scenario-group" (c.scenarioGroup.map ofText?))

/-- the same of a connection: study/parsing.py 37-41 -/
def dumpConnection (k : InputConnection) : Doc :=
  .map [(some "component1", .str k.component1), (some "component2", .str k.component2), (some "port1", .str k.port1), (some "port2", .str k.port2)]

/-- the same of a system: study/parsing.py 59-63 -/
def dumpSystem (s : SetSystem) : Doc :=
  .map (entry "components" (s.components.map fun l => .seq (l.map dumpComponent)) ++
    entry "connections" (s.connections.map fun l => .seq (l.map dumpConnection)) ++
    entry "model-libraries" (s.modelLibraries.map ofText?) ++
    entry "nodes" (s.nodes.map fun l => .seq (l.map dumpComponent)))

/-- `transform_to_yaml`: input_converter/src/utils.py 49-55, pypsa_converter/utils.py 32-38. -/
def transformToYaml (s : SetSystem) : Doc := .map [(some "system", dumpSystem s)]

/-! ### Library files -/

/-- `InputParameter`: model/parsing.py 29-32. -/
def readParameter (L : Lenient) (d : Doc) : R InputParameter := do
  let l ← entries d
  let _ ← forbidExtra ["id", "time_dependent", "scenario_dependent"] l
  let id ← required l "id" text
  let time ← optional l "time_dependent" (boolean L)
  let scen ← optional l "scenario_dependent" (boolean L)
  .ok ⟨id, time.getD false, scen.getD false⟩

/-- `InputVariable`: model/parsing.py 35-44. -/
def readVariable (L : Lenient) (num : Num → String) (d : Doc) : R InputVariable := do
  let l ← entries d
  let _ ← forbidExtra ["id", "time_dependent", "scenario_dependent", "lower_bound", "upper_bound", "variable_type"] l
  let id ← required l "id" (textOrNumber num)
  let time ← optional l "time_dependent" (boolean L)
  let scen ← optional l "scenario_dependent" (boolean L)
  let lb ← optional l "lower_bound" (orNull (textOrNumber num))
  let ub ← optional l "upper_bound" (orNull (textOrNumber num))
  let ty ← optional l "variable_type" (textOrNumber num)
  .ok ⟨id, time.getD true, scen.getD true, lb.getD none, ub.getD none, ty.getD "continuous"⟩

/-- `InputConstraint`: model/parsing.py 47-51. -/
def readConstraint (d : Doc) : R InputConstraint := do
  let l ← entries d
  let _ ← forbidExtra ["id", "expression", "lower_bound", "upper_bound"] l
  let id ← required l "id" text
  let e ← required l "expression" text
  let lb ← optional l "lower_bound" (orNull text)
  let ub ← optional l "upper_bound" (orNull text)
  .ok ⟨id, e, lb.getD none, ub.getD none⟩

/-- `InputField`: model/parsing.py 54-55. -/
def readField (d : Doc) : R String := do
  let l ← entries d
  let _ ← forbidExtra ["id"] l
  required l "id" text

/-- `InputPortType`: model/parsing.py 58-61; the description is not used. -/
def readPortType (d : Doc) : R InputPortType := do
  let l ← entries d
  let _ ← forbidExtra ["id", "fields", "description"] l
  let id ← required l "id" text
  let fs ← optional l "fields" (listOf readField)
  let _ ← optional l "description" (orNull text)
  .ok ⟨id, fs.getD []⟩

/-- `InputModelPort`: model/parsing.py 64-66. -/
def readModelPort (d : Doc) : R InputModelPort := do
  let l ← entries d
  let _ ← forbidExtra ["id", "type"] l
  let id ← required l "id" text
  let ty ← required l "type" text
  .ok ⟨id, ty⟩

/-- `InputPortFieldDefinition`: model/parsing.py 69-72. -/
def readFieldDefinition (d : Doc) : R InputPortFieldDefinition := do
  let l ← entries d
  let _ ← forbidExtra ["port", "field", "definition"] l
  let p ← required l "port" text
  let f ← required l "field" text
  let e ← required l "definition" text
  .ok ⟨p, f, e⟩

/-- `InputModel`: model/parsing.py 75-84; the description is not used. -/
def readModel (L : Lenient) (num : Num → String) (d : Doc) : R InputModel := do
  let l ← entries d
  let _ ← forbidExtra ["id", "parameters", "variables", "ports", "port_field_definitions", "binding_constraints", "constraints", "objective",
    "description"] l
  let id ← required l "id" text
  let ps ← optional l "parameters" (listOf (readParameter L))
  let vs ← optional l "variables" (listOf (readVariable L num))
  let ports ← optional l "ports" (listOf readModelPort)
  let defs ← optional l "port_field_definitions" (listOf readFieldDefinition)
  let bs ← optional l "binding_constraints" (listOf readConstraint)
  let cs ← optional l "constraints" (listOf readConstraint)
  let o ← optional l "objective" (orNull text)
  let _ ← optional l "description" (orNull text)
  .ok ⟨id, ps.getD [], vs.getD [], ports.getD [], defs.getD [], bs.getD [], cs.getD [], o.getD none⟩

/-- `InputLibrary`: model/parsing.py 87-92; the description is not used. -/
def readLibrary (L : Lenient) (num : Num → String) (d : Doc) : R InputLibrary := do
  let l ← entries d
  let _ ← forbidExtra ["id", "dependencies", "port_types", "models", "description"] l
  let id ← required l "id" text
  let ds ← optional l "dependencies" (listOf text)
  let ts ← optional l "port_types" (listOf readPortType)
  let ms ← optional l "models" (listOf (readModel L num))
  let _ ← optional l "description" (orNull text)
  .ok ⟨id, ds.getD [], ts.getD [], ms.getD []⟩

/-- `parse_yaml_library`: model/parsing.py 21-26.  A `ValidationError` is raised again as a `ValueError`; the error of `tree["library"]` is not
one. -/
def parseYamlLibrary (L : Lenient) (num : Num → String) (tree : Doc) : R InputLibrary := do
  let d ← subscript "library" tree
  match readLibrary L num d with
  | .ok l => .ok l
  | .error _ => .error (.valueError "An error occurred during parsing")

end Verif
