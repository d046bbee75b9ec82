import Verif.Model.Document

/-!
# What library and system files say

Independent of how they are read: which values a mapping gives for a field, and which components, parameters, models, ... a tree describes.
-/

namespace Verif

/-- a tree inside a tree -/
inductive Doc.Inside : Doc → Doc → Prop
  | here {d} : Doc.Inside d d
  | item {d x l} : x ∈ l → Doc.Inside d x → Doc.Inside d (.seq l)
  | value {d k x l} : (k, x) ∈ l → Doc.Inside d x → Doc.Inside d (.map l)

/-- no key twice, the two spellings of a key (`time-dependent` and `time_dependent`) being the same key -/
def Entries.Clear (l : Entries) : Prop := (l.map fun e => e.1.map toKebab).Nodup

/-- no key twice in any mapping of the tree -/
def Doc.Clear (d : Doc) : Prop := ∀ l, Doc.Inside (.map l) d → Entries.Clear l

/-- the mapping gives this value for the field -/
def Entries.Gives (l : Entries) (name : String) (d : Doc) : Prop := (some (toKebab name), d) ∈ l ∨ (some name, d) ∈ l

/-- every entry of the mapping is about one of these fields -/
def Entries.About (l : Entries) (names : List String) : Prop := ∀ e ∈ l, ∃ n ∈ names, e.1 = some (toKebab n) ∨ e.1 = some n

/-- the mapping gives a value for the field, with this property -/
def Entries.Needs (l : Entries) (name : String) (P : Doc → Prop) : Prop := ∃ d, l.Gives name d ∧ P d

/-- the mapping gives a value for the field, with this property, or gives no value and the field has its default value -/
def Entries.May (l : Entries) (name : String) (P : Doc → Prop) (default : Prop) : Prop :=
  (∃ d, l.Gives name d ∧ P d) ∨ (¬ ∃ d, l.Gives name d) ∧ default

/-- the boolean `b`, or another value that is taken for it -/
def SaysBool (L : Lenient) (b : Bool) (d : Doc) : Prop :=
  d = .bool b ∨ (∃ n, d = .int n ∧ L.ofInt n = some b) ∨ (∃ v, d = .float v ∧ L.ofFloat v = some b) ∨ ∃ s, d = .str s ∧ L.ofText s = some b

/-- the text -/
def SaysText (s : String) (d : Doc) : Prop := d = .str s

/-- the text, or the number that this text is the Python text of -/
def SaysTextOrNumber (num : Num → String) (s : String) (d : Doc) : Prop :=
  d = .str s ∨ (∃ n : Int, d = .int n ∧ s = toString n) ∨ ∃ v, d = .float v ∧ s = num v

/-- nothing, or a value -/
def SaysOption {α} (P : α → Doc → Prop) (o : Option α) (d : Doc) : Prop := (d = .null ∧ o = none) ∨ ∃ a, o = some a ∧ d ≠ .null ∧ P a d

/-- a number, or the name of a time series -/
def SaysValue (L : Lenient) (v : ParamValue) (d : Doc) : Prop :=
  match v with
  | .number x => d = .float x ∨ (∃ n : Int, d = .int n ∧ x = .fin n) ∨ ∃ b, d = .bool b ∧ L.number b = some x
  | .name s => d = .str s

/-- a list, item by item -/
def SaysList {α} (P : α → Doc → Prop) (as : List α) (d : Doc) : Prop := ∃ l, d = .seq l ∧ List.Forall₂ P as l

/-- a parameter of a component -/
def SaysParam (L : Lenient) (p : InputParam) (d : Doc) : Prop := ∃ l : Entries, d = .map l ∧
  l.About ["id", "time_dependent", "scenario_dependent", "value", "scenario_group"] ∧
  l.Needs "id" (SaysText p.id) ∧
  l.May "time_dependent" (SaysBool L p.timeDependent) (p.timeDependent = false) ∧
  l.May "scenario_dependent" (SaysBool L p.scenarioDependent) (p.scenarioDependent = false) ∧
  l.Needs "value" (SaysValue L p.value) ∧
  l.May "scenario_group" (SaysOption SaysText p.scenarioGroup) (p.scenarioGroup = none)

/-- a component; its parameters may be left empty -/
def SaysComponent (L : Lenient) (c : InputComponent) (d : Doc) : Prop := ∃ l : Entries, d = .map l ∧
  l.About ["id", "model", "scenario_group", "parameters"] ∧
  l.Needs "id" (SaysText c.id) ∧
  l.Needs "model" (SaysText c.model) ∧
  l.May "scenario_group" (SaysOption SaysText c.scenarioGroup) (c.scenarioGroup = none) ∧
  l.May "parameters" (fun x => (x = .null ∧ c.parameters = []) ∨ SaysList (SaysParam L) c.parameters x) (c.parameters = [])

/-- a connection -/
def SaysConnection (k : InputConnection) (d : Doc) : Prop := ∃ l : Entries, d = .map l ∧
  l.About ["component1", "port1", "component2", "port2"] ∧
  l.Needs "component1" (SaysText k.component1) ∧ l.Needs "port1" (SaysText k.port1) ∧
  l.Needs "component2" (SaysText k.component2) ∧ l.Needs "port2" (SaysText k.port2)

/-- a system; the names of libraries are not used -/
def SaysSystem (L : Lenient) (s : InputSystem) (d : Doc) : Prop := ∃ l : Entries, d = .map l ∧
  l.About ["model_libraries", "nodes", "components", "connections"] ∧
  l.May "model_libraries" (fun x => ∃ o, SaysOption SaysText o x) True ∧
  l.May "nodes" (SaysList (SaysComponent L) s.nodes) (s.nodes = []) ∧
  l.May "components" (SaysList (SaysComponent L) s.components) (s.components = []) ∧
  l.May "connections" (SaysList SaysConnection s.connections) (s.connections = [])

/-- a parameter of a model -/
def SaysParameter (L : Lenient) (p : InputParameter) (d : Doc) : Prop := ∃ l : Entries, d = .map l ∧
  l.About ["id", "time_dependent", "scenario_dependent"] ∧
  l.Needs "id" (SaysText p.id) ∧
  l.May "time_dependent" (SaysBool L p.timeDependent) (p.timeDependent = false) ∧
  l.May "scenario_dependent" (SaysBool L p.scenarioDependent) (p.scenarioDependent = false)

/-- a variable of a model: it depends on time and scenario unless the file says otherwise -/
def SaysVariable (L : Lenient) (num : Num → String) (v : InputVariable) (d : Doc) : Prop := ∃ l : Entries, d = .map l ∧
  l.About ["id", "time_dependent", "scenario_dependent", "lower_bound", "upper_bound", "variable_type"] ∧
  l.Needs "id" (SaysTextOrNumber num v.id) ∧
  l.May "time_dependent" (SaysBool L v.timeDependent) (v.timeDependent = true) ∧
  l.May "scenario_dependent" (SaysBool L v.scenarioDependent) (v.scenarioDependent = true) ∧
  l.May "lower_bound" (SaysOption (SaysTextOrNumber num) v.lowerBound) (v.lowerBound = none) ∧
  l.May "upper_bound" (SaysOption (SaysTextOrNumber num) v.upperBound) (v.upperBound = none) ∧
  l.May "variable_type" (SaysTextOrNumber num v.variableType) (v.variableType = "continuous")

/-- a constraint of a model -/
def SaysConstraint (c : InputConstraint) (d : Doc) : Prop := ∃ l : Entries, d = .map l ∧
  l.About ["id", "expression", "lower_bound", "upper_bound"] ∧
  l.Needs "id" (SaysText c.id) ∧
  l.Needs "expression" (SaysText c.expression) ∧
  l.May "lower_bound" (SaysOption SaysText c.lowerBound) (c.lowerBound = none) ∧
  l.May "upper_bound" (SaysOption SaysText c.upperBound) (c.upperBound = none)

/-- a field of a port type -/
def SaysField (f : String) (d : Doc) : Prop := ∃ l : Entries, d = .map l ∧ l.About ["id"] ∧ l.Needs "id" (SaysText f)

/-- a port type -/
def SaysPortType (p : InputPortType) (d : Doc) : Prop := ∃ l : Entries, d = .map l ∧
  l.About ["id", "fields", "description"] ∧
  l.Needs "id" (SaysText p.id) ∧
  l.May "fields" (SaysList SaysField p.fields) (p.fields = []) ∧
  l.May "description" (fun x => ∃ o, SaysOption SaysText o x) True

/-- a port of a model -/
def SaysModelPort (p : InputModelPort) (d : Doc) : Prop := ∃ l : Entries, d = .map l ∧
  l.About ["id", "type"] ∧ l.Needs "id" (SaysText p.id) ∧ l.Needs "type" (SaysText p.type)

/-- the definition of a field of a port -/
def SaysFieldDefinition (p : InputPortFieldDefinition) (d : Doc) : Prop := ∃ l : Entries, d = .map l ∧
  l.About ["port", "field", "definition"] ∧ l.Needs "port" (SaysText p.port) ∧ l.Needs "field" (SaysText p.field) ∧
  l.Needs "definition" (SaysText p.definition)

/-- a model -/
def SaysModel (L : Lenient) (num : Num → String) (m : InputModel) (d : Doc) : Prop := ∃ l : Entries, d = .map l ∧
  l.About ["id", "parameters", "variables", "ports", "port_field_definitions", "binding_constraints", "constraints", "objective",
    "description"] ∧
  l.Needs "id" (SaysText m.id) ∧
  l.May "parameters" (SaysList (SaysParameter L) m.parameters) (m.parameters = []) ∧
  l.May "variables" (SaysList (SaysVariable L num) m.variables_) (m.variables_ = []) ∧
  l.May "ports" (SaysList SaysModelPort m.ports) (m.ports = []) ∧
  l.May "port_field_definitions" (SaysList SaysFieldDefinition m.portFieldDefinitions) (m.portFieldDefinitions = []) ∧
  l.May "binding_constraints" (SaysList SaysConstraint m.bindingConstraints) (m.bindingConstraints = []) ∧
  l.May "constraints" (SaysList SaysConstraint m.constraints) (m.constraints = []) ∧
  l.May "objective" (SaysOption SaysText m.objective) (m.objective = none) ∧
  l.May "description" (fun x => ∃ o, SaysOption SaysText o x) True

/-- a library -/
def SaysLibrary (L : Lenient) (num : Num → String) (b : InputLibrary) (d : Doc) : Prop := ∃ l : Entries, d = .map l ∧
  l.About ["id", "dependencies", "port_types", "models", "description"] ∧
  l.Needs "id" (SaysText b.id) ∧
  l.May "dependencies" (SaysList SaysText b.dependencies) (b.dependencies = []) ∧
  l.May "port_types" (SaysList SaysPortType b.portTypes) (b.portTypes = []) ∧
  l.May "models" (SaysList (SaysModel L num) b.models) (b.models = []) ∧
  l.May "description" (fun x => ∃ o, SaysOption SaysText o x) True

/-- a file with this part under this key of its outermost mapping -/
def Doc.Part (key : String) (d tree : Doc) : Prop := ∃ l, tree = .map l ∧ (some key, d) ∈ l

/-- every key of every mapping of the tree is one of these -/
def KeysIn (names : List String) (d : Doc) : Prop := ∀ l, Doc.Inside (.map l) d → Entries.About l names

/-- the keys of system files -/
def systemKeys : List String := ["model_libraries", "nodes", "components", "connections", "id", "model", "scenario_group", "parameters",
  "time_dependent", "scenario_dependent", "value", "component1", "port1", "component2", "port2"]

/-- the keys of library files -/
def libraryKeys : List String := ["id", "dependencies", "port_types", "models", "description", "fields", "parameters", "variables", "ports",
  "port_field_definitions", "binding_constraints", "constraints", "objective", "time_dependent", "scenario_dependent", "lower_bound",
  "upper_bound", "variable_type", "expression", "type", "port", "field", "definition"]

mutual
/-- the same data: keys in another order or in the other spelling -/
inductive Doc.Same : Doc → Doc → Prop
  | refl (d) : Doc.Same d d
  | seq {l l'} : Doc.SameItems l l' → Doc.Same (.seq l) (.seq l')
  | map {l m l'} : List.Perm l m → Doc.SameEntries m l' → Doc.Same (.map l) (.map l')
/-- the same data, item by item -/
inductive Doc.SameItems : List Doc → List Doc → Prop
  | nil : Doc.SameItems [] []
  | cons {d d' l l'} : Doc.Same d d' → Doc.SameItems l l' → Doc.SameItems (d :: l) (d' :: l')
/-- the same data, entry by entry; a key is written `a_b_c` or `a-b-c` -/
inductive Doc.SameEntries : List (Option String × Doc) → List (Option String × Doc) → Prop
  | nil : Doc.SameEntries [] []
  | cons {k d d' l l'} : Doc.Same d d' → Doc.SameEntries l l' → Doc.SameEntries ((k, d) :: l) ((k, d') :: l')
  | kebab {k d d' l l'} : '-' ∉ k.toList → Doc.Same d d' → Doc.SameEntries l l' → Doc.SameEntries ((some k, d) :: l) ((some (toKebab k), d') :: l')
  | snake {k d d' l l'} : '-' ∉ k.toList → Doc.Same d d' → Doc.SameEntries l l' → Doc.SameEntries ((some (toKebab k), d) :: l) ((some k, d') :: l')
end

end Verif
