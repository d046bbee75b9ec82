import Verif.Spec.Network
import Verif.Spec.Model
import Verif.Spec.Lin
import Verif.Spec.Data
import Verif.Model.Optim

/-!
# What a solver problem and a study mean

The first part says which points a solver problem accepts and what they cost.  The second part says, without any
reference to the construction of the problem, which values of the variables of a study are feasible and what they cost:
constraints and bounds are read mathematically (`mden`), the block is cyclic, parameters have the values of the data.
-/

namespace Verif

/-! ## Solver problems -/

/-- `x` is above the (possibly infinite) lower bound -/
def Num.isBelow : Num → ℚ → Prop
  | .fin b, x => b ≤ x
  | .ninf, _ => True
  | .pinf, _ => False
  | .nan, _ => False

/-- `x` is below the (possibly infinite) upper bound -/
def Num.isAbove : Num → ℚ → Prop
  | .fin b, x => x ≤ b
  | .pinf, _ => True
  | .ninf, _ => False
  | .nan, _ => False

/-- value of a linear form given by its coefficients, at a point (a value per column) -/
def linForm (coefs : Dict Nat Num) (x : Nat → ℚ) : ℚ := (coefs.map fun kv => kv.2.toQ * x kv.1).sum

/-- the point satisfies the row -/
def Row.Sat (r : Row) (x : Nat → ℚ) : Prop := r.lb.isBelow (linForm r.coefs x) ∧ r.ub.isAbove (linForm r.coefs x)

/-- the value is allowed for the column -/
def SolverVar.Sat (v : SolverVar) (q : ℚ) : Prop :=
  v.lb.isBelow q ∧ v.ub.isAbove q ∧ (v.integer = true → ∃ n : ℤ, q = n)

/-- the point satisfies all columns and rows -/
def Solver.Feasible (sv : Solver) (x : Nat → ℚ) : Prop :=
  (∀ (i : Nat) (v : SolverVar), sv.vars[i]? = some v → v.Sat (x i)) ∧ ∀ r ∈ sv.rows, r.Sat x

/-- objective value of a point -/
def Solver.cost (sv : Solver) (x : Nat → ℚ) : ℚ := linForm sv.objective x + sv.offset.toQ

/-! ## Studies -/

namespace OptCtx

/-- number of timesteps of the block -/
def T (x : OptCtx) : Nat := x.timesteps.length

/-- the absolute timestep of timestep `t` of the (cyclic) block -/
def blockTime (x : OptCtx) (t : Int) : Int := x.timesteps.getD (t % x.T).toNat 0

/-- value given by the data to a parameter at a (cyclic) block timestep and a scenario -/
def dataValue (x : OptCtx) (c n : String) (t s : Option Int) : ℚ :=
  match x.database.get? (c, n) with
  | none => 0
  | some d =>
    match d.getValue (t.map x.blockTime) s x.treeNode with
    | .ok v => v.toQ
    | .error _ => 0

/-- declared structure of a variable of a component -/
def varIdx (x : OptCtx) (c n : String) : Idx :=
  match x.network.getComponent c with
  | .ok k => ((k.model.variables_.get? n).map (·.structure_)).getD ⟨false, false⟩
  | .error _ => ⟨false, false⟩

/-- declared structure of a parameter of a component (an undeclared one is read at all indices) -/
def parIdx (x : OptCtx) (c n : String) : Idx :=
  match x.network.getComponent c with
  | .ok k => ((k.model.parameters.get? n).map (·.structure_)).getD ⟨true, true⟩
  | .error _ => ⟨true, true⟩

/-- Reading of the study when the variables have the values `var` at any timestep, inside or outside of the block. -/
def unwrapped (x : OptCtx) (var : String → String → Option Int → Option Int → ℚ) : DenCtx where
  env := ⟨var, fun c n t s => x.dataValue c n t s⟩
  vidx := x.varIdx
  pidx := x.parIdx
  T := x.T
  S := x.scenarios
  amt := fun _ => 0

/-- Mathematical reading of the study when the instances of the variables have the values `σ`: the block is cyclic, so
timestep `t` of a variable is its instance at `t` modulo the length of the block; parameters have the values of the
data. -/
def reading (x : OptCtx) (σ : TermKey → ℚ) : DenCtx := x.unwrapped fun c v t s => σ ⟨c, v, t.map (· % x.T), s⟩

/-- reading of the model expressions of component `c`, with what the connections bring to its ports -/
def readAs (x : OptCtx) (D : DenCtx) (c : Component) : MCtx := componentCtx D c.id (attached D x.network.connections c.id)

/-- reading of the model expressions of component `c` in the cyclic block -/
def readIn (x : OptCtx) (σ : TermKey → ℚ) (c : Component) : MCtx := x.readAs (x.reading σ) c

/-- the instance of variable `v` of component `c` at `(t, s)` -/
def instanceAt (c : Component) (v : Variable) (t s : Int) : TermKey := ⟨c.id, v.name, atT v.structure_ t, atS v.structure_ s⟩

/-- `q` satisfies the optional declared lower bound `b` -/
def aboveOpt (M : MCtx) (b : Option Expr) (q : ℚ) (t s : Int) : Prop :=
  match b with
  | none => True
  | some b => aboveBound M b q t s

/-- `q` satisfies the optional declared upper bound `b` -/
def belowOpt (M : MCtx) (b : Option Expr) (q : ℚ) (t s : Int) : Prop :=
  match b with
  | none => True
  | some b => belowBound M b q t s

/-- the value is of the declared type -/
def ofType : ValueType → ℚ → Prop
  | .continuous, _ => True
  | .integer, q => ∃ n : ℤ, q = n
  | .boolean, q => q = 0 ∨ q = 1

/-- The values `σ` of the instances of the selected variables satisfy, at every timestep of the block and every
scenario, the declared bounds and types, and all selected constraints of all components. -/
structure MathFeasible (x : OptCtx) (σ : TermKey → ℚ) : Prop where
  vars : ∀ c ∈ x.network.allComponents, ∀ v ∈ x.strategy.getVariables c.model, ∀ t s : Nat, t < x.T → s < x.scenarios →
    aboveOpt (x.readIn σ c) v.lowerBound (σ (instanceAt c v t s)) t s ∧
    belowOpt (x.readIn σ c) v.upperBound (σ (instanceAt c v t s)) t s ∧ ofType v.dataType (σ (instanceAt c v t s))
  constraints : ∀ c ∈ x.network.allComponents, ∀ k ∈ x.strategy.getConstraints c.model, ∀ t s : Nat,
    t < x.T → s < x.scenarios → k.Holds (x.readIn σ c) t s

/-- the selected objective contributions of a component, as modified by the risk strategy -/
def contributions (x : OptCtx) (c : Component) : List Expr := ((x.strategy.objectives c.model).filterMap id).map x.risk

/-- Mathematical cost: the sum of all contributions of all components. -/
def mathCost (x : OptCtx) (σ : TermKey → ℚ) : ℚ :=
  (x.network.allComponents.map fun c => ((x.contributions c).map fun e => mden (x.readIn σ c) e 0 0).sum).sum

/-! ## Instances of the variables -/

/-- an instance of a variable: a timestep when it depends on time, a scenario when it depends on the scenario -/
structure Inst where
  comp : Component
  var : Variable
  t : Option Int
  s : Option Int

/-- what identifies an instance -/
def Inst.key (n : Inst) : TermKey := ⟨n.comp.id, n.var.name, n.t, n.s⟩

/-- `0, ..., n-1`, or no index -/
def indexList (dep : Bool) (n : Nat) : List (Option Int) := if dep then (List.range n).map fun (i : Nat) => some (i : Int) else [none]

/-- all instances of the selected variables of all components -/
def instances (x : OptCtx) : List Inst :=
  x.network.allComponents.flatMap fun c => (x.strategy.getVariables c.model).flatMap fun v =>
    (indexList v.structure_.time x.T).flatMap fun t => (indexList v.structure_.scenario x.scenarios).map fun s => ⟨c, v, t, s⟩

/-- the solver name of an instance -/
def instName (x : OptCtx) (n : Inst) : String := x.solverVariableName n.comp.id n.var.name n.t n.s

/-! ## Well-formed studies -/

/-- The network is consistent: components and nodes are stored under their id, no id is used twice, variables are stored
under their name, connections come from `connect` and port field definitions are accepted definitions, with finite numbers and without
sum over the block, evaluation at a timestep or expectation. -/
structure NetworkOk (x : OptCtx) : Prop where
  ids : (x.network.allComponents.map (·.id)).Nodup
  keyed : ∀ k c, (k, c) ∈ x.network.nodes ∨ (k, c) ∈ x.network.components → c.id = k
  vars : ∀ c ∈ x.network.allComponents, ∀ n v, (n, v) ∈ c.model.variables_ → v.name = n
  varsNodup : ∀ c ∈ x.network.allComponents, c.model.variables_.keys.Nodup
  accepted : ∀ c ∈ x.network.connections, c.Accepted
  clean : ∀ c ∈ x.network.connections, ∀ r f d, (r = c.port1 ∨ r = c.port2) → r.fieldDef f = some d →
    (∀ y ∈ d.subs, y.isPortRef = false ∧ y.isCmp = false ∧ y.hasComponent = false) ∧ Expr.add [] ∉ d.subs ∧
      Expr.FinLits d ∧ ∀ y ∈ d.subs, y.isTimeFixing = false ∧ y.isScen = false

/-- The data are finite numbers, and vary in time or scenario only if the parameter is declared so (as the data base
checks for components). -/
structure DataOk (x : OptCtx) : Prop where
  cycle : x.cycle = true
  block : x.timesteps ≠ []
  finite : ∀ c n d, x.database.get? (c, n) = some d → ∀ t s v, d.getValue t s x.treeNode = .ok v → v.isFin = true
  time : ∀ c n k p d, x.network.getComponent c = .ok k → k.model.parameters.get? n = some p →
    x.database.get? (c, n) = some d → d.needsTime = true → p.structure_.time = true
  scenario : ∀ c n k p d, x.network.getComponent c = .ok k → k.model.parameters.get? n = some p →
    x.database.get? (c, n) = some d → d.needsScenario = true → p.structure_.scenario = true

/-- Model expressions covered by the theorems on the whole problem: sums over connections of port fields only, no
comparison inside, finite numbers, and operators nested as the expansion supports. -/
structure ExprOk (e : Expr) : Prop where
  agg : e.AggPort
  cmp : ∀ y ∈ e.subs, y.isCmp = false
  fin : Expr.FinLits e
  nested : Expr.WellNested e

/-- A bound: an infinite literal, or an expression as above. -/
def BoundOk (b : Expr) : Prop := b.IsInfinite ∨ ExprOk b

/-- No tiny coefficient in `e` at `(t, s)`: increasing one instance of a variable by one unit, all others unchanged,
either leaves the value of `e` unchanged or changes it by at least `1e-16`.  Smaller coefficients are dropped. -/
def NoTiny (x : OptCtx) (c : Component) (e : Expr) (t s : Int) : Prop :=
  ∀ (var : String → String → Option Int → Option Int → ℚ) (k : TermKey),
    let var' := fun c v t s => if k = ⟨c, v, t, s⟩ then var c v t s + 1 else var c v t s
    let change := mden (x.readAs (x.unwrapped var') c) e t s - mden (x.readAs (x.unwrapped var) c) e t s
    change = 0 ∨ 1 / 10 ^ 16 ≤ |change|

/-- The indexing reported for the expression of constraint `k` in component `c` covers its bounds: when the expression
is reported independent of time (of the scenario), the bounds have the same value at all timesteps (in all scenarios). -/
structure Covered (x : OptCtx) (ports : PortExprs) (c : Component) (k : Constraint) : Prop where
  time : ∀ e i, instantiate k.expression c.id ports = .ok e → computeIndexation x.structures e = .ok i → i.time = false →
    ∀ b, b = k.lowerBound ∨ b = k.upperBound → ∀ σ t t' s, mden (x.readIn σ c) b t s = mden (x.readIn σ c) b t' s
  scenario : ∀ e i, instantiate k.expression c.id ports = .ok e → computeIndexation x.structures e = .ok i →
    i.scenario = false →
    ∀ b, b = k.lowerBound ∨ b = k.upperBound → ∀ σ t s s', mden (x.readIn σ c) b t s = mden (x.readIn σ c) b t s'

/-- Hypotheses on the selected variables: bounds as above; the declared bounds of booleans allow 0 and 1 (they are
ignored). -/
structure VarsOk (x : OptCtx) : Prop where
  bounds : ∀ c ∈ x.network.allComponents, ∀ v ∈ x.strategy.getVariables c.model, ∀ b,
    v.lowerBound = some b ∨ v.upperBound = some b → BoundOk b
  boolean : ∀ c ∈ x.network.allComponents, ∀ v ∈ x.strategy.getVariables c.model, v.dataType = .boolean →
    ∀ σ q t s, q = 0 ∨ q = 1 → aboveOpt (x.readIn σ c) v.lowerBound q t s ∧ belowOpt (x.readIn σ c) v.upperBound q t s

/-- Hypotheses on the selected constraints. -/
structure ConstraintsOk (x : OptCtx) : Prop where
  scenarios : 0 < x.scenarios
  exprs : ∀ c ∈ x.network.allComponents, ∀ k ∈ x.strategy.getConstraints c.model,
    ExprOk k.expression ∧ BoundOk k.lowerBound ∧ BoundOk k.upperBound
  noTiny : ∀ c ∈ x.network.allComponents, ∀ k ∈ x.strategy.getConstraints c.model, ∀ t s : Nat, t < x.T → s < x.scenarios →
    x.NoTiny c k.expression t s
  covered : ∀ ports, registerConnections x.network.connections [] = .ok ports →
    ∀ c ∈ x.network.allComponents, ∀ k ∈ x.strategy.getConstraints c.model, x.Covered ports c k

/-- Hypotheses on the selected objective contributions: as for the expressions of constraints; found independent of time and
scenario (as `model` checks). -/
structure ObjectivesOk (x : OptCtx) : Prop where
  exprs : ∀ c ∈ x.network.allComponents, ∀ e ∈ x.contributions c, ExprOk e ∧ x.NoTiny c e 0 0
  index : ∀ c ∈ x.network.allComponents, ∀ e ∈ x.contributions c, computeIndexation c.model.structures e = .ok ⟨false, false⟩

end OptCtx
end Verif
