import Verif.Model.Instantiate
import Verif.Model.Linearize
import Verif.Model.Data

/-!
# Construction of the optimization problem

Models `simulation/optimization.py` (except `fusion_problems`) and `simulation/strategy.py`.

The OR-Tools solver object is modelled by the observable effect of the calls the code makes on it: the list of its
variables (a variable is its column number), the list of its rows, and its objective.
-/

namespace Verif

/-- a Python loop `for x in l: ...` with a mutable state, whose body may raise -/
def loop {σ α} (f : σ → α → R σ) : List α → σ → R σ
  | [], st => .ok st
  | x :: xs, st => do
    let st ← f st x
    loop f xs st

/-! ## Strategies -/

/-- `ModelSelectionStrategy`: strategy.py 20-50; the two abstract methods. -/
structure Strategy where
  keep : ProblemContext → Bool
  objectives : Model → List (Option Expr)

/-- `get_variables`: strategy.py 29-32. -/
def Strategy.getVariables (s : Strategy) (m : Model) : List Variable := m.variables_.values.filter fun v => s.keep v.context

/-- `get_constraints`: strategy.py 34-37. -/
def Strategy.getConstraints (s : Strategy) (m : Model) : List Constraint :=
  m.allConstraints.filter fun c => s.keep c.context

/-- `MergedProblemStrategy`: strategy.py 50-58. -/
def mergedStrategy : Strategy := ⟨fun _ => true, fun m => [m.objectiveOperational, m.objectiveInvestment]⟩

/-- `InvestmentProblemStrategy`: strategy.py 61-70. -/
def investmentStrategy : Strategy := ⟨fun c => c == .investment || c == .coupling, fun m => [m.objectiveInvestment]⟩

/-- `OperationalProblemStrategy`: strategy.py 73-82. -/
def operationalStrategy : Strategy := ⟨fun c => c == .operational || c == .coupling, fun m => [m.objectiveOperational]⟩

/-- `RiskManagementStrategy`: strategy.py 85-100, as the function it applies. -/
abbrev Risk := Expr → Expr

/-- `UniformRisk`: strategy.py 103-105. -/
def uniformRisk : Risk := fun e => e

/-- `ExpectedValue(prob)`: strategy.py 108-113. -/
def expectedValue (prob : Num) : Risk := fun e => (Expr.lit prob).mulOp e

/-! ## Context -/

/-- `OptimizationContext.__init__`: optimization.py 162-196, the arguments only (the mutable mappings are in `OptState`,
the port expressions are passed along).  `cycle` is `border_management == CYCLE`; `scenarios` is a natural number. -/
structure OptCtx where
  network : Network
  database : DataBase
  timesteps : List Int
  scenarios : Nat
  cycle : Bool := true
  strategy : Strategy := mergedStrategy
  risk : Risk := uniformRisk
  treeNode : String := ""
  fullVarName : Bool := true

namespace OptCtx

/-- `block_length`: optimization.py 218-219. -/
def blockLength (x : OptCtx) : Nat := x.timesteps.length

/-- `get_actual_block_timestep`: optimization.py 236-240, and `_manage_border_timesteps`: 246-250.  Python's `%` with a
positive modulus is `Int.emod`; a zero modulus raises. -/
def actualTimestep (x : OptCtx) (t : Int) : R Int :=
  if x.cycle then (if x.blockLength = 0 then .error .zeroDivision else .ok (t % x.blockLength))
  else .error (.notImplemented "")

/-- `block_timestep_to_absolute_timestep`: optimization.py 226-234. -/
def absoluteTimestep (x : OptCtx) : Option Int → R (Option Int)
  | none => .ok none
  | some t => do
    let u ← x.actualTimestep t
    let a ← pyIndex x.timesteps u
    .ok (some a)

/-- `_get_parameter_value`: optimization.py 61-70. -/
def parameterValue (x : OptCtx) (t s : Option Int) (c n : String) : R Num := do
  let d ← x.database.getData c n
  let a ← x.absoluteTimestep t
  d.getValue a s x.treeNode

/-- `_make_value_provider`: optimization.py 73-106. -/
def valueProvider (x : OptCtx) (t s : Option Int) : ValueProvider where
  cvar _ _ := .error (.notImplemented "Cannot provide variable value at problem build time.")
  cpar c n := x.parameterValue t s c n
  var _ := .error (.notImplemented "Cannot provide variable value at problem build time.")
  par _ := .error (.valueError "Parameter must be associated to its component before resolution.")

/-- `_compute_expression_value`: optimization.py 109-117. -/
def expressionValue (x : OptCtx) (e : Expr) (t s : Option Int) : R Num := evaluate (x.valueProvider t s) e

/-- `_make_data_structure_provider`: optimization.py 311-338. -/
def structures (x : OptCtx) : StructProvider where
  cvar c n := do
    let k ← x.network.getComponent c
    let v ← k.model.variables_.get n
    .ok v.structure_
  cpar c n := do
    let k ← x.network.getComponent c
    let p ← k.model.parameters.get n
    .ok p.structure_
  par _ := .error (.runtimeError "Component context should have been initialized.")
  var _ := .error (.runtimeError "Component context should have been initialized.")

/-- `_make_constant_value_provider`: optimization.py 384-418. -/
def constantProvider (x : OptCtx) : ValueProvider where
  cvar _ _ := .error (.notImplemented "Cannot provide variable value at problem build time.")
  cpar c n := do
    let i ← x.structures.cpar c n
    if i.time || i.scenario then .error (.valueError "Parameter is not constant.")
    else x.parameterValue none none c n
  var _ := .error (.notImplemented "Cannot provide variable value at problem build time.")
  par _ := .error (.valueError "Parameter must be associated to its component before resolution.")

end OptCtx

/-- `float_to_int`: optimization.py 145-149. -/
def floatToInt : Num → R Int
  | .fin q => if q.den = 1 then .ok q.num else .error (.valueError "not an integer.")
  | _ => .error (.valueError "not an integer.")

namespace OptCtx

/-- `evaluate_time_bound`: optimization.py 307-309. -/
def evaluateTimeBound (x : OptCtx) (e : Expr) : R Int := do
  let v ← evaluate x.constantProvider e
  floatToInt v

/-- arguments of `expand_operators`: optimization.py 340-348. -/
def expandCtx (x : OptCtx) : ExpandCtx := ⟨x.blockLength, x.scenarios, x.evaluateTimeBound, x.structures⟩

/-- `expand_operators`: optimization.py 340-348. -/
def expandOperators (x : OptCtx) (e : Expr) : R Expr := expand x.expandCtx e

/-- `linearize_expression` with the parameter getter: optimization.py 350-379. -/
def linearize (x : OptCtx) (e : Expr) (t s : Option Int) : R LinExpr :=
  linearizeExpression e t s (some fun c n t s => x.parameterValue t s c n)

/-- `compute_indexing`: optimization.py 381-382. -/
def computeIndexing (x : OptCtx) (e : Expr) : R Idx := computeIndexation x.structures e

/-- `get_time_indices`: optimization.py 252-253. -/
def timeIndices (x : OptCtx) (i : Idx) : List Int := if i.time then pyRange 0 x.blockLength else pyRange 0 1

/-- `get_scenario_indices`: optimization.py 255-256. -/
def scenarioIndices (x : OptCtx) (i : Idx) : List Int := if i.scenario then pyRange 0 x.scenarios else pyRange 0 1

/-- `_compute_indexing`: optimization.py 421-428.  `a or b or c` is `a`: an `IndexingStructure` is always true in a
boolean context. -/
def constraintIndexing (x : OptCtx) (c : Constraint) : R Idx := x.computeIndexing c.expression

end OptCtx

/-! ## Solver and state -/

/-- an `lp.Variable`: name, bounds, integrality -/
structure SolverVar where
  name : String
  lb : Num
  ub : Num
  integer : Bool
  deriving DecidableEq, Repr

/-- an `lp.Constraint`: name, coefficient per column, bounds -/
structure Row where
  name : String
  coefs : Dict Nat Num
  lb : Num
  ub : Num
  deriving DecidableEq, Repr

/-- an `lp.Solver`: columns, rows, objective -/
structure Solver where
  vars : List SolverVar := []
  rows : List Row := []
  objective : Dict Nat Num := []
  offset : Num := 0
  deriving DecidableEq, Repr

/-- `SolverVariableInfo`: optimization.py 131-142. -/
structure VarInfo where
  name : String
  columnId : Nat
  isInObjective : Bool
  deriving DecidableEq, Repr

/-- the mutable part of the problem: solver, `_component_variables`, `_solver_variables` (optimization.py 184-185) -/
structure OptState where
  solver : Solver := {}
  columns : Dict TermKey Nat := []
  infos : Dict String VarInfo := []
  deriving DecidableEq, Repr

/-- `GetCoefficient(var)` of a row or an objective: 0 when never set -/
def coefOf (d : Dict Nat Num) (i : Nat) : Num := (d.get? i).getD 0

namespace OptCtx

/-- `get_component_variable`: optimization.py 258-271. -/
def componentVariable (x : OptCtx) (cols : Dict TermKey Nat) (k : TermKey) : R Nat :=
  match k.time with
  | none => cols.get k
  | some t => do
    let u ← x.actualTimestep t
    cols.get { k with time := some u }

/-- `_solver_variable_name`: optimization.py 615-639. -/
def solverVariableName (x : OptCtx) (c v : String) (t s : Option Int) : String :=
  let componentPrefix := if x.fullVarName && c ≠ "" then c ++ "_" else ""
  let treePrefix := if x.fullVarName && x.treeNode ≠ "" then x.treeNode ++ "_" else ""
  let scenarioSuffix := match s with
    | some s => if x.scenarios > 1 then "_s" ++ toString s else ""
    | none => ""
  let blockSuffix := match t with
    | some t => if x.blockLength > 1 then "_t" ++ toString t else ""
    | none => ""
  treePrefix ++ componentPrefix ++ v ++ blockSuffix ++ scenarioSuffix

end OptCtx

/-- `register_component_variable`, for the column `col` named `name`: optimization.py 278-293. -/
def OptState.register (st : OptState) (k : TermKey) (name : String) (col : Nat) : OptState :=
  { st with
    infos := if st.columns.contains k then st.infos else st.infos.set name ⟨name, st.infos.length, false⟩
    columns := st.columns.set k col }

/-- `BoolVar`, `IntVar`, `NumVar`: the new column gets the next number -/
def OptState.addColumn (st : OptState) (v : SolverVar) : OptState :=
  { st with solver := { st.solver with vars := st.solver.vars ++ [v] } }

namespace OptCtx

/-- `if bound: _instantiate_model_expression(bound)`: optimization.py 650-657 -/
def instantiateBound (cid : String) (ports : PortExprs) : Option Expr → R (Option Expr)
  | none => .ok none
  | some e => do
    let e' ← instantiate e cid ports
    .ok (some e')

/-- `if instantiated_bound: bound = _compute_expression_value(...)`: optimization.py 668-677 -/
def boundValue (x : OptCtx) (dflt : Num) (b : Option Expr) (t s : Option Int) : R Num :=
  match b with
  | none => .ok dflt
  | some e => x.expressionValue e t s

/-- the solver variable created for given bounds: optimization.py 688-703; `BoolVar` ignores them. -/
def solverVar (ty : ValueType) (name : String) (lb ub : Num) : SolverVar :=
  match ty with
  | .boolean => ⟨name, 0, 1, true⟩
  | .integer => ⟨name, lb, ub, true⟩
  | .continuous => ⟨name, lb, ub, false⟩

/-- body of the innermost loop of `_create_variables`: optimization.py 666-706. -/
def createVariable (x : OptCtx) (cid : String) (v : Variable) (lb ub : Option Expr) (st : OptState)
    (ts : Option Int × Option Int) : R OptState := do
  let lower ← x.boundValue .ninf lb ts.1 ts.2
  let upper ← x.boundValue .pinf ub ts.1 ts.2
  let name := x.solverVariableName cid v.name ts.1 ts.2
  if upper.lt lower then .error (.valueError "Upper bound must be strictly greater than lower bound")
  else
    let col := st.solver.vars.length
    let st := st.addColumn (solverVar v.dataType name lower upper)
    .ok (st.register ⟨cid, v.name, ts.1, ts.2⟩ name col)

/-- time indices of a variable: optimization.py 658-660 -/
def variableTimes (x : OptCtx) (i : Idx) : List (Option Int) :=
  if i.time then (x.timeIndices i).map some else [none]

/-- scenario indices of a variable: optimization.py 662-664 -/
def variableScenarios (x : OptCtx) (i : Idx) : List (Option Int) :=
  if i.scenario then (x.scenarioIndices i).map some else [none]

/-- `itertools.product(time_indices, scenario_indices)`: optimization.py 666 -/
def variableIndices (x : OptCtx) (i : Idx) : List (Option Int × Option Int) :=
  (x.variableTimes i).flatMap fun t => (x.variableScenarios i).map fun s => (t, s)

/-- one variable of a component: optimization.py 645-706 -/
def createVariablesOf (x : OptCtx) (ports : PortExprs) (cid : String) (st : OptState) (v : Variable) : R OptState := do
  let lb ← instantiateBound cid ports v.lowerBound
  let ub ← instantiateBound cid ports v.upperBound
  loop (x.createVariable cid v lb ub) (x.variableIndices v.structure_) st

/-- `_create_variables`: optimization.py 641-706. -/
def createVariables (x : OptCtx) (ports : PortExprs) (st : OptState) : R OptState :=
  loop (fun st c => loop (x.createVariablesOf ports c.id) (x.strategy.getVariables c.model) st) x.network.allComponents st

/-- the loop over the terms in `make_constraint`: optimization.py 553-559 -/
def rowCoefs (x : OptCtx) (cols : Dict TermKey Nat) (terms : List Term) (coefs : Dict Nat Num) : R (Dict Nat Num) :=
  loop (fun coefs term => do
    let i ← x.componentVariable cols term.key
    .ok (coefs.set i (term.coefficient + coefOf coefs i))) terms coefs

/-- `make_constraint`: optimization.py 539-564.  `constant = 0; constant += e.constant` is the constant. -/
def makeConstraint (x : OptCtx) (st : OptState) (t s : Int) (name : String) (lower upper : Num) (l : LinExpr) :
    R OptState := do
  let coefs ← x.rowCoefs st.columns l.terms.values []
  let constant := 0 + l.constant
  let row : Row := ⟨name ++ "_t" ++ toString t ++ "_s" ++ toString s, coefs, lower - constant, upper - constant⟩
  .ok { st with solver := { st.solver with rows := st.solver.rows ++ [row] } }

/-- body of the loops of `_create_constraint`: optimization.py 462-488 -/
def createRow (x : OptCtx) (c : Constraint) (expanded : Expr) (t : Int) (st : OptState) (s : Int) : R OptState := do
  let l ← x.linearize expanded (some t) (some s)
  let lower ← x.expressionValue c.lowerBound (some t) (some s)
  let upper ← x.expressionValue c.upperBound (some t) (some s)
  x.makeConstraint st t s c.name lower upper l

/-- `_create_constraint`: optimization.py 448-488. -/
def createConstraint (x : OptCtx) (st : OptState) (c : Constraint) : R OptState := do
  let expanded ← x.expandOperators c.expression
  let i ← x.constraintIndexing c
  loop (fun st t => loop (x.createRow c expanded t) (x.scenarioIndices i) st) (x.timeIndices i) st

/-- one constraint of a component: optimization.py 713-733.  Building the instantiated `Constraint` runs its
`__post_init__` again; the context is left to its default. -/
def createConstraintOf (x : OptCtx) (ports : PortExprs) (cid : String) (st : OptState) (c : Constraint) : R OptState := do
  let e ← instantiate c.expression cid ports
  let lb ← instantiate c.lowerBound cid ports
  let ub ← instantiate c.upperBound cid ports
  let k ← Constraint.make { name := cid ++ "_" ++ c.name, expression := e, lowerBound := lb, upperBound := ub }
  x.createConstraint st k

/-- `_create_constraints`: optimization.py 708-733. -/
def createConstraints (x : OptCtx) (ports : PortExprs) (st : OptState) : R OptState :=
  loop (fun st c => loop (x.createConstraintOf ports c.id) (x.strategy.getConstraints c.model) st) x.network.allComponents st

/-- body of the loop over the terms of `_create_objective`: optimization.py 504-513 -/
def objectiveTerm (x : OptCtx) (st : OptState) (term : Term) : R OptState := do
  let i ← x.componentVariable st.columns term.key
  match st.solver.vars[i]? with
  | none => .error .indexError
  | some v => do
    let info ← st.infos.get v.name
    .ok { st with
      infos := st.infos.set v.name { info with isInObjective := true }
      solver := { st.solver with
        objective := st.solver.objective.set i (coefOf st.solver.objective i + term.coefficient) } }

/-- `_create_objective`: optimization.py 491-516. -/
def createObjective (x : OptCtx) (ports : PortExprs) (cid : String) (st : OptState) (e : Expr) : R OptState := do
  let e1 ← instantiate e cid ports
  let e2 ← x.expandOperators e1
  let l ← x.linearize e2 none none
  let st ← loop x.objectiveTerm l.terms.values st
  .ok { st with solver := { st.solver with offset := l.constant + st.solver.offset } }

/-- body of the loop of `_create_objectives`: optimization.py 739-746 -/
def createObjectiveOf (x : OptCtx) (ports : PortExprs) (cid : String) (st : OptState) : Option Expr → R OptState
  | none => .ok st
  | some e => x.createObjective ports cid st (x.risk e)

/-- `_create_objectives`: optimization.py 735-746. -/
def createObjectives (x : OptCtx) (ports : PortExprs) (st : OptState) : R OptState :=
  loop (fun st c => loop (x.createObjectiveOf ports c.id) (x.strategy.objectives c.model) st) x.network.allComponents st

/-- `OptimizationProblem.__init__`: optimization.py 572-585. -/
def makeProblem (x : OptCtx) : R OptState := do
  let ports ← registerConnections x.network.connections []
  let st ← x.createVariables ports {}
  let st ← x.createConstraints ports st
  x.createObjectives ports st

/-- `build_problem`: optimization.py 755-788 (the creation of the solver object is not modelled). -/
def buildProblem (x : OptCtx) : R OptState := do
  x.database.requirementsConsistency x.network
  x.makeProblem

end OptCtx
end Verif
