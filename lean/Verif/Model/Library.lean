import Verif.Model.System

/-!
# Libraries

Models `model/resolve_library.py` and the classes of `model/parsing.py` it reads.  The expression parser is a parameter
(`Parser`).  Python sets of strings have no specified order: the order in which `set.pop()` and `for x in set` go through a
set is an argument (`SetOrder`), chosen afresh at each iteration of the loop.
-/

namespace Verif

/-- `parse_expression(text, ModelIdentifiers(variables, parameters))`. -/
abbrev Parser := (variables_ parameters : List String) → String → R Expr

/-- `InputParameter`: model/parsing.py 29-32. -/
structure InputParameter where
  id : String
  timeDependent : Bool := false
  scenarioDependent : Bool := false
  deriving DecidableEq, Repr

/-- `InputVariable`: model/parsing.py 35-44. -/
structure InputVariable where
  id : String
  timeDependent : Bool := true
  scenarioDependent : Bool := true
  lowerBound : Option String := none
  upperBound : Option String := none
  variableType : String := "continuous"
  deriving DecidableEq, Repr

/-- `InputConstraint`: model/parsing.py 47-51. -/
structure InputConstraint where
  id : String
  expression : String
  lowerBound : Option String := none
  upperBound : Option String := none
  deriving DecidableEq, Repr

/-- `InputPortType`: model/parsing.py 58-61, with `InputField` (54-55) reduced to its id. -/
structure InputPortType where
  id : String
  fields : List String := []
  deriving DecidableEq, Repr

/-- `InputModelPort`: model/parsing.py 64-66. -/
structure InputModelPort where
  id : String
  type : String
  deriving DecidableEq, Repr

/-- `InputPortFieldDefinition`: model/parsing.py 69-72. -/
structure InputPortFieldDefinition where
  port : String
  field : String
  definition : String
  deriving DecidableEq, Repr

/-- `InputModel`: model/parsing.py 75-84. -/
structure InputModel where
  id : String
  parameters : List InputParameter := []
  variables_ : List InputVariable := []
  ports : List InputModelPort := []
  portFieldDefinitions : List InputPortFieldDefinition := []
  bindingConstraints : List InputConstraint := []
  constraints : List InputConstraint := []
  objective : Option String := none
  deriving DecidableEq, Repr

/-- `InputLibrary`: model/parsing.py 87-92. -/
structure InputLibrary where
  id : String
  dependencies : List String := []
  portTypes : List InputPortType := []
  models : List InputModel := []
  deriving DecidableEq, Repr

/-- `_convert_port_type`: resolve_library.py 159-166. -/
def convertPortType (p : InputPortType) : PortType := ⟨p.id, p.fields⟩

/-- `_resolve_model_port`: resolve_library.py 193-196. -/
def resolveModelPort (types : Dict String PortType) (p : InputModelPort) : R ModelPort := do
  let t ← types.get p.type
  .ok ⟨t, p.id⟩

/-- `_resolve_field_definition`: resolve_library.py 199-206. -/
def resolveFieldDefinition (parse : String → R Expr) (d : InputPortFieldDefinition) : R PortFieldDefinition := do
  let e ← parse d.definition
  PortFieldDefinition.make ⟨⟨d.port, d.field⟩, e⟩

/-- `_to_parameter`: resolve_library.py 209-214. -/
def toParameter (p : InputParameter) : Parameter := ⟨p.id, .continuous, ⟨p.timeDependent, p.scenarioDependent⟩⟩

/-- `_to_expression_if_present`: resolve_library.py 217-222; an empty string is false. -/
def toExpressionIfPresent (parse : String → R Expr) : Option String → R (Option Expr)
  | none => .ok none
  | some s => if s = "" then .ok none else do
    let e ← parse s
    .ok (some e)

/-- `_to_variable`: resolve_library.py 225-235. -/
def toVariable (parse : String → R Expr) (v : InputVariable) : R Variable := do
  let ty ← Dict.get [("continuous", ValueType.continuous), ("integer", ValueType.integer)] v.variableType
  let lb ← toExpressionIfPresent parse v.lowerBound
  let ub ← toExpressionIfPresent parse v.upperBound
  Variable.make ⟨v.id, ty, lb, ub, ⟨v.timeDependent, v.scenarioDependent⟩, .operational⟩

/-- `_to_constraint`: resolve_library.py 238-248. -/
def toConstraint (parse : String → R Expr) (c : InputConstraint) : R Constraint := do
  let lb ← toExpressionIfPresent parse c.lowerBound
  let ub ← toExpressionIfPresent parse c.upperBound
  let e ← parse c.expression
  Constraint.make { name := c.id, expression := e, lowerBound := lb.getD (.lit .ninf), upperBound := ub.getD (.lit .pinf) }

/-- `_resolve_model`: resolve_library.py 169-190. -/
def resolveModel (parser : Parser) (types : Dict String PortType) (m : InputModel) : R Model := do
  let parse := parser (m.variables_.map (·.id)) (m.parameters.map (·.id))
  let vars ← appendAll (toVariable parse) m.variables_
  let ports ← appendAll (resolveModelPort types) m.ports
  let defs ← appendAll (resolveFieldDefinition parse) m.portFieldDefinitions
  let binding ← appendAll (toConstraint parse) m.bindingConstraints
  let cons ← appendAll (toConstraint parse) m.constraints
  let obj ← toExpressionIfPresent parse m.objective
  mkModel
    { id := m.id
      parameters := m.parameters.map toParameter
      variables_ := vars
      ports := ports
      portFieldsDefinitions := defs
      bindingConstraints := binding
      constraints := cons
      objectiveOperational := obj }

/-- `_resolve_lib`: resolve_library.py 124-146, where `inherited` is `current_lib.port_types` on entry; returns the
library. -/
def resolveLib (parser : Parser) (inherited : Dict String PortType) (l : InputLibrary) : R Library :=
  let own := Dict.ofItems (l.portTypes.map fun p => (p.id, convertPortType p))
  if own.keys.any fun k => inherited.contains k then .error (.exception "Port(s) is(are) defined twice.")
  else if (l.models.map (·.id)).any fun i => (l.models.map (·.id)).count i > 1 then
    .error (.exception "Model is defined twice")
  else do
    let types := inherited.update own
    let ms ← appendAll (resolveModel parser types) l.models
    .ok ⟨l.id, types, Dict.ofItems (ms.map fun m => (m.id, m))⟩

/-- The order of the sets handled in one iteration: `pick` is `set.pop()` (resolve_library.py 152), `order` the iteration
of resolve_library.py 114. -/
structure SetOrder where
  pick : List String → String
  order : List String → List String

/-- what Python guarantees: `pop` returns an element, iterating goes through the elements -/
structure SetOrder.Valid (o : SetOrder) : Prop where
  pick_mem : ∀ l, l ≠ [] → o.pick l ∈ l
  order_mem : ∀ l x, x ∈ o.order l ↔ x ∈ l

/-- The local variables of `resolve_library`.  `remaining` is `remaining_lib_ids` from its end, `stack` is `import_stack`
from its top. -/
structure LibState where
  remaining : List String
  stack : List String := []
  treated : List String := []
  out : Dict String Library

/-- `_add_resolved_dependent_port_types_to_current_lib`: resolve_library.py 107-115 -/
def addDependencyTypes (out : Dict String Library) : List String → Dict String PortType → R (Dict String PortType)
  | [], types => .ok types
  | d :: ds, types => do
    let l ← out.get d
    addDependencyTypes out ds (types.update l.portTypes)

/-- One iteration of the loops of `resolve_library` (resolve_library.py 71-96); `none` when the loops are over. -/
def libStep (parser : Parser) (libs : Dict String InputLibrary) (preloaded : Dict String PortType) (o : SetOrder)
    (st : LibState) : R (Option LibState) :=
  match st.stack with
  | [] =>
    match st.remaining with
    | [] => .ok none
    | k :: rest =>
      if st.treated.contains k then .ok (some { st with remaining := rest })
      else .ok (some { st with remaining := rest, stack := [k] })
  | top :: rest => do
    let cur ← libs.get top
    let inherited ← addDependencyTypes st.out (o.order (cur.dependencies.filter fun d => st.treated.contains d))
      (Dict.update [] preloaded)
    let todo := cur.dependencies.filter fun d => !st.treated.contains d
    if todo ≠ [] then
      let d := o.pick todo
      if st.stack.contains d then .error (.exception "Circular import in yaml libraries")
      else .ok (some { st with stack := d :: st.stack })
    else do
      let l ← resolveLib parser inherited cur
      .ok (some { st with stack := rest, treated := top :: st.treated, out := st.out.set l.id l })

/-- `fuel` iterations, the `i`-th with the set order `os i`; `none` if the loops are not over. -/
def runLib (parser : Parser) (libs : Dict String InputLibrary) (preloaded : Dict String PortType) (os : Nat → SetOrder) :
    Nat → Nat → LibState → Option (R (Dict String Library))
  | 0, _, _ => none
  | fuel + 1, i, st =>
    match libStep parser libs preloaded (os i) st with
    | .error e => some (.error e)
    | .ok none => some (.ok st.out)
    | .ok (some st') => runLib parser libs preloaded os fuel (i + 1) st'

/-- `dict((l.id, l) for l in input_libs)`: resolve_library.py 56 -/
def libDict (input : List InputLibrary) : Dict String InputLibrary := Dict.ofItems (input.map fun l => (l.id, l))

/-- resolve_library.py 58-61 -/
def preloadedTypes (preloaded : List Library) : Dict String PortType :=
  preloaded.foldl (fun d l => d.update l.portTypes) []

/-- `resolve_library`: resolve_library.py 47-98, stopped after `fuel` iterations. -/
def resolveLibrary (parser : Parser) (os : Nat → SetOrder) (fuel : Nat) (input : List InputLibrary)
    (preloaded : List Library := []) : Option (R (Dict String Library)) :=
  runLib parser (libDict input) (preloadedTypes preloaded) os fuel 0
    { remaining := (libDict input).keys.reverse
      out := Dict.ofItems (preloaded.map fun l => (l.id, l)) }

end Verif
