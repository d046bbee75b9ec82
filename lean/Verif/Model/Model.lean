import Verif.Model.Visitors

/-!
# User-defined models

Models `model/common.py`, `model/parameter.py`, `model/variable.py`, `model/constraint.py`, `model/port.py` and
`model/model.py`.  A dataclass with a `__post_init__` is a structure plus a `make` function that returns the
(possibly modified) object or the exception raised.
-/

namespace Verif

/-- `ValueType`: model/common.py 19-22. -/
inductive ValueType where
  | continuous
  | integer
  | boolean
  deriving DecidableEq, Repr

/-- `ProblemContext`: model/common.py 25-28. -/
inductive ProblemContext where
  | operational
  | investment
  | coupling
  deriving DecidableEq, Repr

/-- `Parameter`: model/parameter.py 20-30. -/
structure Parameter where
  name : String
  type : ValueType
  structure_ : Idx
  deriving DecidableEq, Repr

/-- `Variable`: model/variable.py 23-34. -/
structure Variable where
  name : String
  dataType : ValueType
  lowerBound : Option Expr
  upperBound : Option Expr
  structure_ : Idx
  context : ProblemContext
  deriving Repr

/-- one test of `Variable.__post_init__`: `if bound and not is_constant(bound): raise` (variable.py 37-40); an
expression node is always true in a boolean context, so only `None` is skipped. -/
def checkConstantBound (msg : String) : Option Expr → R Unit
  | none => .ok ()
  | some b => do
    let c ← isConstant b
    if !c then .error (.valueError msg) else .ok ()

/-- `Variable.__post_init__`: variable.py 36-40. -/
def Variable.make (v : Variable) : R Variable := do
  checkConstantBound "Lower bounds of variables must be constant" v.lowerBound
  checkConstantBound "Upper bounds of variables must be constant" v.upperBound
  .ok v

/-- `int_variable`: variable.py 57-66. -/
def intVariable (name : String) (lb ub : Option Expr := none) (st : Idx := ⟨true, true⟩)
    (ctx : ProblemContext := .operational) : R Variable :=
  Variable.make ⟨name, .integer, lb, ub, st, ctx⟩

/-- `bool_var`: variable.py 69-74. -/
def boolVar (name : String) (st : Idx := ⟨true, true⟩) (ctx : ProblemContext := .operational) : R Variable :=
  Variable.make ⟨name, .boolean, some (.lit 0), some (.lit 1), st, ctx⟩

/-- `float_variable`: variable.py 77-86. -/
def floatVariable (name : String) (lb ub : Option Expr := none) (st : Idx := ⟨true, true⟩)
    (ctx : ProblemContext := .operational) : R Variable :=
  Variable.make ⟨name, .continuous, lb, ub, st, ctx⟩

/-- `Constraint`: model/constraint.py 33-45. -/
structure Constraint where
  name : String
  expression : Expr
  lowerBound : Expr := .lit .ninf
  upperBound : Expr := .lit .pinf
  context : ProblemContext := .operational
  deriving Repr

/-- `Constraint.__post_init__`: constraint.py 47-81. -/
def Constraint.make (c : Constraint) : R Constraint :=
  match c.expression with
  | .cmp l r k =>
    if !c.lowerBound.isUnbounded || !c.upperBound.isUnbounded then
      .error (.valueError "Both comparison between two expressions and a bound are specfied")
    else
      match k with
      | .le => .ok { c with expression := l.subOp r, upperBound := .lit 0, lowerBound := .lit .ninf }
      | .ge => .ok { c with expression := l.subOp r, lowerBound := .lit 0, upperBound := .lit .pinf }
      | .eq => .ok { c with expression := l.subOp r, lowerBound := .lit 0, upperBound := .lit 0 }
  | _ => do
    let cl ← isConstant c.lowerBound
    if !cl then .error (.valueError "The bounds of a constraint should not contain variables")
    else do
      let cu ← isConstant c.upperBound
      if !cu then .error (.valueError "The bounds of a constraint should not contain variables")
      else if c.lowerBound.isUnbounded && c.lowerBound.isNonNegative then
        .error (.valueError "Lower bound should not be +Inf")
      else if c.upperBound.isUnbounded && !c.upperBound.isNonNegative then
        .error (.valueError "Upper bound should not be -Inf")
      else .ok c

/-- `Constraint.replicate()` without changes: `dataclasses.replace` calls `__init__`, hence `__post_init__`
(constraint.py 83-84). -/
def Constraint.replicate (c : Constraint) : R Constraint := Constraint.make c

/-- `Constraint.__eq__`: constraint.py 86-94 (the context is not compared). -/
def Constraint.eqb (a b : Constraint) : Bool :=
  a.name == b.name && exprEq 0 0 a.expression b.expression && exprEq 0 0 a.lowerBound b.lowerBound &&
    exprEq 0 0 a.upperBound b.upperBound

/-- `PortType`: model/port.py 50-61, with `PortField` (port.py 45-47) reduced to its name. -/
structure PortType where
  id : String
  fields : List String
  deriving DecidableEq, Repr

/-- `PortFieldId`: model/port.py 64-70. -/
structure PortFieldId where
  port : String
  field : String
  deriving DecidableEq, Repr

/-- `PortFieldDefinition`: model/port.py 73-80. -/
structure PortFieldDefinition where
  portField : PortFieldId
  definition : Expr
  deriving Repr

mutual
/-- `_PortFieldExpressionChecker`: model/port.py 95-169. -/
def checkPortExpr : Expr → R Unit
  | .lit _ => .ok ()
  | .neg e => checkPortExpr e
  | .add es => checkPortExprList es
  | .mul l r => do
    checkPortExpr l
    checkPortExpr r
  | .div l r => do
    checkPortExpr l
    checkPortExpr r
  | .cmp .. => .error (.valueError "Port definition cannot contain a comparison operator.")
  | .var _ => .ok ()
  | .par _ => .ok ()
  | .cpar .. => .error (.valueError "Port definition must not contain a parameter associated to a component.")
  | .cvar .. => .error (.valueError "Port definition must not contain a variable associated to a component.")
  | .ppar .. => .error (.valueError "Port definition must not contain a parameter associated to a component.")
  | .pvar .. => .error (.valueError "Port definition must not contain a variable associated to a component.")
  | .shift e _ => checkPortExpr e
  | .evalT e _ => checkPortExpr e
  | .tsum e _ _ => checkPortExpr e
  | .allsum e => checkPortExpr e
  | .scen e _ => checkPortExpr e
  | .portField .. => .error (.valueError "Port definition cannot reference another port field.")
  | .agg .. => .error (.valueError "Port definition cannot contain port field aggregation.")
/-- the loop of port.py 111-113 -/
def checkPortExprList : List Expr → R Unit
  | [] => .ok ()
  | e :: es => do
    checkPortExpr e
    checkPortExprList es
end

/-- `PortFieldDefinition.__post_init__`: port.py 82-83, 172-173; also `port_field_def` (port.py 89-92). -/
def PortFieldDefinition.make (d : PortFieldDefinition) : R PortFieldDefinition := do
  checkPortExpr d.definition
  .ok d

/-- `ModelPort`: model/model.py 75-88. -/
structure ModelPort where
  portType : PortType
  portName : String
  deriving DecidableEq, Repr

/-- `Model`: model/model.py 91-109. -/
structure Model where
  id : String
  constraints : Dict String Constraint := []
  bindingConstraints : Dict String Constraint := []
  interBlockDyn : Bool := false
  parameters : Dict String Parameter := []
  variables_ : Dict String Variable := []
  objectiveOperational : Option Expr := none
  objectiveInvestment : Option Expr := none
  ports : Dict String ModelPort := []
  portFieldsDefinitions : Dict PortFieldId PortFieldDefinition := []
  deriving Repr

/-- `_make_structure_provider`: model/model.py 33-55. -/
def Model.structures (m : Model) : StructProvider where
  par n := do
    let p ← m.parameters.get n
    .ok p.structure_
  var n := do
    let v ← m.variables_.get n
    .ok v.structure_
  cvar _ _ := .error (.notImplemented "Cannot have variables associated to components in models.")
  cpar _ _ := .error (.notImplemented "Cannot have parameters associated to components in models.")

/-- `_is_objective_contribution_valid`: model/model.py 58-72. -/
def objectiveValid (m : Model) (e : Expr) : R Unit := do
  let lin ← isLinear e
  if !lin then .error (.valueError "Objective contribution must be a linear expression.")
  else do
    let i ← computeIndexation m.structures e
    if i ≠ ⟨false, false⟩ then .error (.valueError "Objective contribution should be a real-valued expression.")
    else .ok ()

/-- `if self.objective_...: _is_objective_contribution_valid(...)`: model/model.py 112-120 -/
def objectiveCheck (m : Model) : Option Expr → R Unit
  | none => .ok ()
  | some e => objectiveValid m e

/-- the loop over port field definitions: model/model.py 122-131 -/
def checkDefinitions (ports : Dict String ModelPort) : List PortFieldDefinition → R Unit
  | [] => .ok ()
  | d :: ds =>
    match ports.get? d.portField.port with
    | none => .error (.valueError "Invalid port in port field definition")
    | some p =>
      if !p.portType.fields.contains d.portField.field then
        .error (.valueError "Invalid port field in port field definition")
      else checkDefinitions ports ds

/-- `Model.__post_init__`: model/model.py 111-131. -/
def Model.make (m : Model) : R Model := do
  objectiveCheck m m.objectiveOperational
  objectiveCheck m m.objectiveInvestment
  checkDefinitions m.ports m.portFieldsDefinitions.values
  .ok m

/-- `get_all_constraints`: model/model.py 133-139. -/
def Model.allConstraints (m : Model) : List Constraint := m.bindingConstraints.values ++ m.constraints.values

/-- the loop on ports of `model()`: model/model.py 161-170 -/
def collectPorts : List ModelPort → Dict String ModelPort → R (Dict String ModelPort)
  | [], acc => .ok acc
  | p :: ps, acc =>
    if acc.contains p.portName then .error (.valueError "2 ports have the same name inside the model")
    else collectPorts ps (acc.set p.portName p)

/-- arguments of `model()`; an omitted or empty iterable gives an empty dict -/
structure ModelArgs where
  id : String
  constraints : List Constraint := []
  bindingConstraints : List Constraint := []
  parameters : List Parameter := []
  variables_ : List Variable := []
  objectiveOperational : Option Expr := none
  objectiveInvestment : Option Expr := none
  interBlockDyn : Bool := false
  ports : List ModelPort := []
  portFieldsDefinitions : List PortFieldDefinition := []

/-- `model()`: model/model.py 146-186. -/
def mkModel (a : ModelArgs) : R Model := do
  let ports ← collectPorts a.ports []
  Model.make
    { id := a.id
      constraints := Dict.ofItems (a.constraints.map fun c => (c.name, c))
      bindingConstraints := Dict.ofItems (a.bindingConstraints.map fun c => (c.name, c))
      parameters := Dict.ofItems (a.parameters.map fun p => (p.name, p))
      variables_ := Dict.ofItems (a.variables_.map fun v => (v.name, v))
      objectiveOperational := a.objectiveOperational
      objectiveInvestment := a.objectiveInvestment
      interBlockDyn := a.interBlockDyn
      ports := ports
      portFieldsDefinitions := Dict.ofItems (a.portFieldsDefinitions.map fun d => (d.portField, d)) }

end Verif
