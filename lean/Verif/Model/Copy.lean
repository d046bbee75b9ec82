import Verif.Model.Visitors

/-!
# Copying visitors

Models `expression/copy.py` and the subclasses of `CopyVisitor` that override leaf methods only:
`expression/context_adder.py`, `expression/port_resolver.py`, `expression/evaluate_parameters.py` and the three
`Apply*` visitors of `expression/operators_expansion.py`.  Method overriding is modelled by a record of hooks.
-/

namespace Verif

/-- The methods of `CopyVisitor` that subclasses override.  `agg := none` means the inherited
`port_field_aggregator` (copy.py 95-96), which visits the operand. -/
structure Hooks where
  var : String → R Expr
  par : String → R Expr
  cvar : String → String → R Expr
  cpar : String → String → R Expr
  pvar : String → String → TIdx → SIdx → R Expr
  ppar : String → String → TIdx → SIdx → R Expr
  portField : String → String → R Expr
  agg : Option (Expr → PortAgg → R Expr)

/-- `CopyVisitor` without overriding: copy.py 43-96. -/
def copyHooks : Hooks where
  var n := .ok (.var n)
  par n := .ok (.par n)
  cvar c n := .ok (.cvar c n)
  cpar c n := .ok (.cpar c n)
  pvar c n ti si := .ok (.pvar c n ti si)
  ppar c n ti si := .ok (.ppar c n ti si)
  portField p f := .ok (.portField p f)
  agg := none

mutual
/-- `CopyVisitor` (copy.py 37-96) with the arithmetic of `ExpressionVisitorOperations`
(visitor.py 206-230): sums are rebuilt with the `+` operator of expressions. -/
def copyWith (h : Hooks) : Expr → R Expr
  | .lit v => .ok (.lit v)
  | .var n => h.var n
  | .par n => h.par n
  | .cvar c n => h.cvar c n
  | .cpar c n => h.cpar c n
  | .pvar c n ti si => h.pvar c n ti si
  | .ppar c n ti si => h.ppar c n ti si
  | .portField p f => h.portField p f
  | .neg e => do
    let e' ← copyWith h e
    .ok e'.negOp
  | .add es => do
    let es' ← copyWithList h es
    foldAdd Expr.addOp es'
  | .mul l r => do
    let l' ← copyWith h l
    let r' ← copyWith h r
    .ok (l'.mulOp r')
  | .div l r => do
    let l' ← copyWith h l
    let r' ← copyWith h r
    .ok (l'.divOp r')
  | .cmp l r c => do
    let l' ← copyWith h l
    let r' ← copyWith h r
    .ok (.cmp l' r' c)
  | .shift e k => do
    let e' ← copyWith h e
    let k' ← copyWith h k
    .ok (.shift e' k')
  | .evalT e k => do
    let e' ← copyWith h e
    let k' ← copyWith h k
    .ok (.evalT e' k')
  | .tsum e a b => do
    let e' ← copyWith h e
    let a' ← copyWith h a
    let b' ← copyWith h b
    .ok (.tsum e' a' b')
  | .allsum e => do
    let e' ← copyWith h e
    .ok (.allsum e')
  | .scen e op => do
    let e' ← copyWith h e
    .ok (.scen e' op)
  | .agg e a =>
    match h.agg with
    | some f => f e a
    | none => do
      let e' ← copyWith h e
      .ok (.agg e' a)

/-- the list comprehension of visitor.py 216 -/
def copyWithList (h : Hooks) : List Expr → R (List Expr)
  | [] => .ok []
  | e :: es => do
    let e' ← copyWith h e
    let es' ← copyWithList h es
    .ok (e' :: es')
end

/-- `copy_expression`: copy.py 99-100. -/
def copyExpression (e : Expr) : R Expr := copyWith copyHooks e

/-- `ContextAdder`: context_adder.py 28-61. -/
def contextHooks (id : String) : Hooks :=
  { copyHooks with
    var := fun n => .ok (.cvar id n)
    par := fun n => .ok (.cpar id n)
    cvar := fun _ _ => .error (.valueError "This expression has already been associated to another component.")
    cpar := fun _ _ => .error (.valueError "This expression has already been associated to another component.")
    pvar := fun _ _ _ _ => .error (.valueError "This expression has already been associated to another component.")
    ppar := fun _ _ _ _ => .error (.valueError "This expression has already been associated to another component.") }

/-- `add_component_context`: context_adder.py 64-65. -/
def addComponentContext (id : String) (e : Expr) : R Expr := copyWith (contextHooks id) e

/-- `PortFieldId`: model/port.py, and `PortFieldKey`: port_resolver.py 25-32. -/
structure PortFieldKey where
  component : String
  port : String
  field : String
  deriving DecidableEq, Repr

/-- `ports_expressions: Dict[PortFieldKey, List[ExpressionNode]]` -/
abbrev PortExprs := Dict PortFieldKey (List Expr)

/-- `PortResolver`: port_resolver.py 35-72. -/
def portHooks (cid : String) (ports : PortExprs) : Hooks :=
  { copyHooks with
    portField := fun p f => do
      let es ← ports.get ⟨cid, p, f⟩
      match es with
      | [e] => .ok e
      | _ => .error (.valueError "Invalid number of expression for port")
    agg := some fun e a =>
      match a with
      | .portSum =>
        match e with
        | .portField p f =>
          .ok (Expr.sumExpressions ((ports.get? ⟨cid, p, f⟩).getD []))
        | _ => .error (.valueError "Should be a portFieldNode")
      | .base => .error (.notImplemented "Only PortSum is supported.") }

/-- `resolve_port`: port_resolver.py 75-80. -/
def resolvePort (e : Expr) (cid : String) (ports : PortExprs) : R Expr :=
  copyWith (portHooks cid ports) e

/-- `ParameterResolver`: evaluate_parameters.py 38-54; the provider is the parameter part of a
`ValueProvider`. -/
def paramHooks (par : String → R Num) (cpar : String → String → R Num) : Hooks :=
  { copyHooks with
    par := fun n => do
      let v ← par n
      .ok (.lit v)
    cpar := fun c n => do
      let v ← cpar c n
      .ok (.lit v) }

/-- `resolve_parameters`: evaluate_parameters.py 57-60. -/
def resolveParameters (e : Expr) (par : String → R Num) (cpar : String → String → R Num) : R Expr :=
  copyWith (paramHooks par cpar) e

/-- `_apply_timeshift`: operators_expansion.py 161-173. -/
def TIdx.applyShift (k : Int) : TIdx → TIdx
  | .shift j => .shift (j + k)
  | .step t => .step (t + k)
  | .none => .none

/-- `ApplyTimeShift`: operators_expansion.py 153-179. -/
def shiftHooks (k : Int) : Hooks :=
  { copyHooks with
    pvar := fun c n ti si => .ok (.pvar c n (ti.applyShift k) si)
    ppar := fun c n ti si => .ok (.ppar c n (ti.applyShift k) si) }

/-- `apply_timeshift`: operators_expansion.py 182-183. -/
def applyTimeshift (e : Expr) (k : Int) : R Expr := copyWith (shiftHooks k) e

/-- `_apply_timestep`: operators_expansion.py 195-209. -/
def TIdx.applyStep (t : Int) (allowExisting : Bool) : TIdx → R TIdx
  | .shift k => .ok (.step (k + t))
  | .step u =>
    if !allowExisting then
      .error (.valueError "Cannot override a previously defined timestep (for example (x[0])[1]).")
    else .ok (.step u)
  | .none => .ok .none

/-- `ApplyTimeStep`: operators_expansion.py 186-215. -/
def stepHooks (t : Int) (allowExisting : Bool) : Hooks :=
  { copyHooks with
    pvar := fun c n ti si => do
      let ti' ← ti.applyStep t allowExisting
      .ok (.pvar c n ti' si)
    ppar := fun c n ti si => do
      let ti' ← ti.applyStep t allowExisting
      .ok (.ppar c n ti' si) }

/-- `apply_timestep`: operators_expansion.py 218-221. -/
def applyTimestep (e : Expr) (t : Int) (allowExisting : Bool := false) : R Expr :=
  copyWith (stepHooks t allowExisting) e

/-- scenario index rewriting of `ApplyScenario`: operators_expansion.py 228-236. -/
def SIdx.applyScenario (s : Int) : SIdx → SIdx
  | .none => .none
  | _ => .one s

/-- `ApplyScenario`: operators_expansion.py 224-236. -/
def scenarioHooks (s : Int) : Hooks :=
  { copyHooks with
    pvar := fun c n ti si => .ok (.pvar c n ti (si.applyScenario s))
    ppar := fun c n ti si => .ok (.ppar c n ti (si.applyScenario s)) }

/-- `apply_scenario`: operators_expansion.py 239-240. -/
def applyScenario (e : Expr) (s : Int) : R Expr := copyWith (scenarioHooks s) e

end Verif
