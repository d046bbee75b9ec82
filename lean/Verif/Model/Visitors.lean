import Verif.Model.Expr
import Verif.Model.Dict

/-!
# Analyses of expressions: evaluation, degree, indexing, equality

Models `expression/evaluate.py`, `expression/degree.py`, `expression/indexing.py`,
`expression/indexing_structure.py`, `expression/equality.py`.

Each visitor is a pair of mutually recursive functions, the second one on the list of operands of a
sum (a list comprehension `[visit(o, self) for o in node.operands]` in the code); `visit`
(visitor.py 132-174) is the pattern matching itself.
-/

namespace Verif

/-- `ValueProvider`: evaluate.py 42-62. -/
structure ValueProvider where
  var : String → R Num
  par : String → R Num
  cvar : String → String → R Num
  cpar : String → String → R Num

/-- `EvaluationContext`: evaluate.py 65-85. -/
def evaluationContext (vars pars : Dict String Num) : ValueProvider where
  var n := vars.get n
  par n := pars.get n
  cvar _ _ := .error (.notImplemented "")
  cpar _ _ := .error (.notImplemented "")

/-- The loop of `ExpressionVisitorOperations.addition` (visitor.py 215-220) once the operands are
visited: `operands[0]` then successive `+`; an empty list raises `IndexError`. -/
def foldAdd {α} (plus : α → α → α) : List α → R α
  | [] => .error .indexError
  | o :: os => .ok (os.foldl plus o)

mutual
/-- `EvaluationVisitor` (evaluate.py 88-140) with the operations of `ExpressionVisitorOperations`
(visitor.py 206-230). -/
def evaluate (p : ValueProvider) : Expr → R Num
  | .lit v => .ok v
  | .var n => p.var n
  | .par n => p.par n
  | .cvar c n => p.cvar c n
  | .cpar c n => p.cpar c n
  | .pvar .. => .error (.valueError "Should not reach here.")
  | .ppar .. => .error (.valueError "Should not reach here.")
  | .portField .. => .error (.notImplemented "")
  | .neg e => do
    let v ← evaluate p e
    .ok (-v)
  | .add es => do
    let vs ← evaluateList p es
    foldAdd (· + ·) vs
  | .mul l r => do
    let a ← evaluate p l
    let b ← evaluate p r
    .ok (a * b)
  | .div l r => do
    let a ← evaluate p l
    let b ← evaluate p r
    Num.div a b
  | .cmp .. => .error (.valueError "Cannot evaluate comparison operator.")
  | .shift .. => .error (.notImplemented "")
  | .evalT .. => .error (.notImplemented "")
  | .tsum .. => .error (.notImplemented "")
  | .allsum .. => .error (.notImplemented "")
  | .scen .. => .error (.notImplemented "")
  | .agg .. => .error (.notImplemented "")

/-- the list comprehension of visitor.py 216 -/
def evaluateList (p : ValueProvider) : List Expr → R (List Num)
  | [] => .ok []
  | e :: es => do
    let v ← evaluate p e
    let vs ← evaluateList p es
    .ok (v :: vs)
end

/-- `max(degrees)`: Python's `max` of a list raises `ValueError` when empty (degree.py 56). -/
def pyMax : List Nat → R Nat
  | [] => .error (.valueError "max() arg is an empty sequence")
  | d :: ds => .ok (ds.foldl max d)

/-- `degree()` of the scenario operator classes: scenario_operator.py 26-29, 37-39, 47-49. -/
def ScenOp.degree : ScenOp → R Nat
  | .expectation => .ok 1
  | .variance => .ok 2
  | .base => .error (.notImplemented "")

mutual
/-- `ExpressionDegreeVisitor`: degree.py 42-111 (degrees are never negative, hence `Nat`). -/
def computeDegree : Expr → R Nat
  | .lit _ => .ok 0
  | .var _ => .ok 1
  | .par _ => .ok 0
  | .cvar .. => .ok 1
  | .cpar .. => .ok 0
  | .pvar .. => .ok 1
  | .ppar .. => .ok 0
  | .portField .. => .ok 1
  | .neg e => computeDegree e
  | .add es => do
    let ds ← computeDegreeList es
    pyMax ds
  | .mul l r => do
    let a ← computeDegree l
    let b ← computeDegree r
    .ok (a + b)
  | .div l r => do
    let b ← computeDegree r
    if b ≠ 0 then .error (.valueError "Degree computation not implemented for divisions.")
    else computeDegree l
  | .cmp l r _ => do
    let a ← computeDegree l
    let b ← computeDegree r
    .ok (max a b)
  | .shift e _ => computeDegree e
  | .evalT e _ => computeDegree e
  | .tsum e _ _ => computeDegree e
  | .allsum e => computeDegree e
  | .scen e op => do
    let k ← op.degree
    let d ← computeDegree e
    .ok (k * d)
  | .agg e _ => computeDegree e

/-- the list comprehension of degree.py 55 -/
def computeDegreeList : List Expr → R (List Nat)
  | [] => .ok []
  | e :: es => do
    let d ← computeDegree e
    let ds ← computeDegreeList es
    .ok (d :: ds)
end

/-- `is_constant`: degree.py 118-122. -/
def isConstant (e : Expr) : R Bool := do
  let d ← computeDegree e
  .ok (d == 0)

/-- `is_linear`: degree.py 125-129. -/
def isLinear (e : Expr) : R Bool := do
  let d ← computeDegree e
  .ok (decide (d ≤ 1))

/-- `IndexingStructure`: indexing_structure.py 16-40. -/
structure Idx where
  time : Bool
  scenario : Bool
  deriving DecidableEq, Repr

namespace Idx
/-- `__or__`: indexing_structure.py 25-28. -/
def or (a b : Idx) : Idx := ⟨a.time || b.time, a.scenario || b.scenario⟩
/-- `is_time_scenario_varying`: indexing_structure.py 36-37. -/
def isTimeScenarioVarying (a : Idx) : Bool := a.time && a.scenario
/-- `is_constant`: indexing_structure.py 39-40. -/
def isConstant (a : Idx) : Bool := !a.time && !a.scenario
end Idx

/-- `IndexingStructureProvider`: indexing.py 44-63. -/
structure StructProvider where
  par : String → R Idx
  var : String → R Idx
  cvar : String → String → R Idx
  cpar : String → String → R Idx

mutual
/-- `TimeScenarioIndexingVisitor`: indexing.py 66-160. -/
def computeIndexation (p : StructProvider) : Expr → R Idx
  | .lit _ => .ok ⟨false, false⟩
  | .var n => p.var n
  | .par n => p.par n
  | .cvar c n => p.cvar c n
  | .cpar c n => p.cpar c n
  | .pvar .. => .error (.valueError "Not relevant to compute indexation on already instantiated problem variables.")
  | .ppar .. => .error (.valueError "Not relevant to compute indexation on already instantiated problem parameters.")
  | .portField .. => .error (.valueError "Port fields must be resolved before computing indexing structure.")
  | .neg e => computeIndexation p e
  | .add es => combineFirst p es
  | .mul l r => do
    let a ← computeIndexation p l
    if a.isTimeScenarioVarying then .ok a
    else do
      let b ← computeIndexation p r
      .ok (a.or b)
  | .div l r => do
    let a ← computeIndexation p l
    if a.isTimeScenarioVarying then .ok a
    else do
      let b ← computeIndexation p r
      .ok (a.or b)
  | .cmp l r _ => do
    let a ← computeIndexation p l
    if a.isTimeScenarioVarying then .ok a
    else do
      let b ← computeIndexation p r
      .ok (a.or b)
  | .shift e _ => computeIndexation p e
  | .evalT e _ => do
    let a ← computeIndexation p e
    .ok ⟨false, a.scenario⟩
  | .tsum e _ _ => computeIndexation p e
  | .allsum e => do
    let a ← computeIndexation p e
    .ok ⟨false, a.scenario⟩
  | .scen e _ => do
    let a ← computeIndexation p e
    .ok ⟨a.time, false⟩
  | .agg .. => .error (.valueError "Port fields aggregators must be resolved before computing indexing structure.")

/-- `_combine(operands)`: indexing.py 80-90 (first operand and early return).  For the two-operand
calls of lines 98-105 the same code is written out in `computeIndexation`. -/
def combineFirst (p : StructProvider) : List Expr → R Idx
  | [] => .ok ⟨false, false⟩
  | e :: es => do
    let a ← computeIndexation p e
    if a.isTimeScenarioVarying then .ok a else combineRest p a es

/-- the loop of `_combine`: indexing.py 86-90. -/
def combineRest (p : StructProvider) (res : Idx) : List Expr → R Idx
  | [] => .ok res
  | e :: es => do
    let b ← computeIndexation p e
    if (res.or b).isTimeScenarioVarying then .ok (res.or b) else combineRest p (res.or b) es
end

/-- `math.isclose(a, b, abs_tol, rel_tol)` (CPython): equal values are close, an infinity or a nan is
close to nothing else, otherwise `|a-b| <= max(rel_tol*max(|a|,|b|), abs_tol)`.  The tolerances are
finite here; negative ones raise `ValueError`. -/
def isclose (absTol relTol : ℚ) (a b : Num) : Bool :=
  if a.eqb b then true
  else match a, b with
    | .fin x, .fin y =>
      decide (|x - y| ≤ relTol * |y|) || decide (|x - y| ≤ relTol * |x|) || decide (|x - y| ≤ absTol)
    | _, _ => false

mutual
/-- `EqualityVisitor.visit`: equality.py 59-216.  Different node classes are different. -/
def exprEq (at_ rt : ℚ) : Expr → Expr → Bool
  | .lit a, .lit b => isclose at_ rt a b
  | .neg a, .neg b => exprEq at_ rt a b
  | .add as, .add bs => (as.length == bs.length) && exprEqZip at_ rt as bs
  | .div a b, .div c d => exprEq at_ rt a c && exprEq at_ rt b d
  | .mul a b, .mul c d => exprEq at_ rt a c && exprEq at_ rt b d
  | .cmp a b k, .cmp c d k' => decide (k = k') && (exprEq at_ rt a c && exprEq at_ rt b d)
  | .var n, .var m => n == m
  | .par n, .par m => n == m
  | .cvar c n, .cvar d m => n == m && c == d
  | .cpar c n, .cpar d m => n == m && c == d
  | .pvar c n ti si, .pvar d m tj sj => n == m && c == d && decide (ti = tj) && decide (si = sj)
  | .ppar c n ti si, .ppar d m tj sj => n == m && c == d && decide (ti = tj) && decide (si = sj)
  | .shift e k, .shift f l => exprEq at_ rt k l && exprEq at_ rt e f
  | .evalT e k, .evalT f l => exprEq at_ rt k l && exprEq at_ rt e f
  | .tsum e a b, .tsum f c d => exprEq at_ rt a c && exprEq at_ rt b d && exprEq at_ rt e f
  | .allsum e, .allsum f => exprEq at_ rt e f
  | .scen e o, .scen f o' => decide (o = o') && exprEq at_ rt e f
  | .portField p f, .portField q g => p == q && f == g
  | .agg e a, .agg f b => decide (a = b) && exprEq at_ rt e f
  | _, _ => false

/-- `all(self.visit(l, r) for l, r in zip(left_ops, right_ops))`: equality.py 132-134. -/
def exprEqZip (at_ rt : ℚ) : List Expr → List Expr → Bool
  | a :: as, b :: bs => exprEq at_ rt a b && exprEqZip at_ rt as bs
  | _, _ => true
end

/-- `expressions_equal` (equality.py 219-225) with the tolerance checks of `__post_init__`
(equality.py 49-57). -/
def expressionsEqual (l r : Expr) (absTol relTol : ℚ := 0) : R Bool :=
  if absTol < 0 then .error (.valueError "Absolute comparison tolerance must be >= 0")
  else if relTol < 0 then .error (.valueError "Relative comparison tolerance must be >= 0")
  else .ok (exprEq absTol relTol l r)

/-- `expressions_equal_if_present`: equality.py 228-236. -/
def expressionsEqualIfPresent : Option Expr → Option Expr → R Bool
  | none, none => .ok true
  | some l, some r => expressionsEqual l r
  | _, _ => .ok false

end Verif
