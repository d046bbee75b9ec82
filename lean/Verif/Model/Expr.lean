import Verif.Model.Num

/-!
# Expression trees and the operators that build them

Models `/repo/src/andromede/expression/expression.py`.
-/

namespace Verif

/-- `TimeIndex` and its subclasses `NoTimeIndex`, `TimeShift`, `TimeStep`:
expression.py 194-230. -/
inductive TIdx where
  | none
  | shift (k : Int)
  | step (t : Int)
  deriving DecidableEq, Repr

/-- `ScenarioIndex` and its subclasses `NoScenarioIndex`, `CurrentScenarioIndex`,
`OneScenarioIndex`: expression.py 233-269. -/
inductive SIdx where
  | none
  | current
  | one (s : Int)
  deriving DecidableEq, Repr

/-- `Comparator`: expression.py 377-380. -/
inductive Cmp where
  | le
  | eq
  | ge
  deriving DecidableEq, Repr

/-- Names accepted by `ScenarioOperatorNode.__post_init__` (expression.py 429-444): the classes of
scenario_operator.py.  Other names raise at construction, so they never occur in a tree. -/
inductive ScenOp where
  | expectation
  | variance
  | base            -- the abstract class `ScenarioOperator` itself is accepted as a name
  deriving DecidableEq, Repr

/-- Names accepted by `PortFieldAggregatorNode.__post_init__` (expression.py 348-363): the classes of
port_operator.py. -/
inductive PortAgg where
  | portSum
  | base            -- the abstract class `PortAggregator` itself is accepted as a name
  deriving DecidableEq, Repr

/-- `ExpressionNode` and its subclasses: expression.py 27-444, one constructor per concrete class. -/
inductive Expr where
  | lit (v : Num)                                             -- LiteralNode 326-328
  | var (name : String)                                       -- VariableNode 144-146
  | par (name : String)                                       -- ParameterNode 167-169
  | cvar (c name : String)                                    -- ComponentVariableNode 290-301
  | cpar (c name : String)                                    -- ComponentParameterNode 176-187
  | pvar (c name : String) (ti : TIdx) (si : SIdx)            -- ProblemVariableNode 308-317
  | ppar (c name : String) (ti : TIdx) (si : SIdx)            -- ProblemParameterNode 272-281
  | portField (port field : String)                           -- PortFieldNode 153-160
  | neg (e : Expr)                                            -- NegationNode 366-368
  | add (es : List Expr)                                      -- AdditionNode 388-390
  | mul (l r : Expr)                                          -- MultiplicationNode 393-395
  | div (l r : Expr)                                          -- DivisionNode 398-400
  | cmp (l r : Expr) (c : Cmp)                                -- ComparisonNode 383-385
  | shift (e k : Expr)                                        -- TimeShiftNode 403-405
  | evalT (e k : Expr)                                        -- TimeEvalNode 408-410
  | tsum (e a b : Expr)                                       -- TimeSumNode 413-416
  | allsum (e : Expr)                                         -- AllTimeSumNode 419-426
  | scen (e : Expr) (op : ScenOp)                             -- ScenarioOperatorNode 429-444
  | agg (e : Expr) (a : PortAgg)                              -- PortFieldAggregatorNode 348-363
  deriving Repr

namespace Expr

instance : Inhabited Expr := ⟨lit 0⟩

/-- `x.operands if isinstance(x, AdditionNode) else [x]` in `__add__`/`__sub__`:
expression.py 46-47, 58-59. -/
def operands : Expr → List Expr
  | add es => es
  | e => [e]

/-- `__add__`: expression.py 42-48 (both sides already wrapped in nodes). -/
def addOp (l r : Expr) : Expr := add (l.operands ++ r.operands)

/-- `__neg__`: expression.py 39-40. -/
def negOp (e : Expr) : Expr := neg e

/-- `__sub__`: expression.py 54-61. -/
def subOp (l r : Expr) : Expr := add (l.operands ++ r.operands.map negOp)

/-- `__mul__`: expression.py 67-68. -/
def mulOp (l r : Expr) : Expr := mul l r

/-- `__truediv__`: expression.py 73-74. -/
def divOp (l r : Expr) : Expr := div l r

/-- `_wrap_in_node` of a Python number: expression.py 127-132. -/
def wrapNum (x : Num) : Expr := lit x

/-- `__radd__`, for `number + expr`: expression.py 50-52. -/
def raddOp (self : Expr) (lhs : Num) : Expr := addOp (wrapNum lhs) self

/-- `__rsub__`, for `number - expr`: expression.py 63-65.  The code returns `lhs + self`. -/
def rsubOp (self : Expr) (lhs : Num) : Expr := addOp (wrapNum lhs) self

/-- `__rmul__`, for `number * expr`: expression.py 70-71. -/
def rmulOp (self : Expr) (lhs : Num) : Expr := mul (wrapNum lhs) self

/-- `__rtruediv__`, for `number / expr`: expression.py 76-77. -/
def rdivOp (self : Expr) (lhs : Num) : Expr := div (wrapNum lhs) self

/-- `__le__`: expression.py 79-82. -/
def leOp (l r : Expr) : Expr := cmp l r .le
/-- `__ge__`: expression.py 84-87. -/
def geOp (l r : Expr) : Expr := cmp l r .ge
/-- `__eq__`: expression.py 89-90. -/
def eqOp (l r : Expr) : Expr := cmp l r .eq

/-- `time_sum(from_shift, to_shift)`: expression.py 92-105. -/
def timeSum (e : Expr) : Option Expr → Option Expr → R Expr
  | none, none => .ok (allsum e)
  | some a, some b => .ok (tsum e a b)
  | _, _ => .error (.valueError "Both time bounds of a time sum must be defined.")

/-- `sum_connections`: expression.py 107-112. -/
def sumConnections : Expr → R Expr
  | portField p f => .ok (agg (portField p f) .portSum)
  | _ => .error (.valueError "sum_connections() applies only for PortFieldNode")

/-- `shift`: expression.py 114-115. -/
def shiftOp (e k : Expr) : Expr := shift e k
/-- `eval`: expression.py 117-118. -/
def evalOp (e k : Expr) : Expr := evalT e k
/-- `expec`: expression.py 120-121. -/
def expecOp (e : Expr) : Expr := scen e .expectation
/-- `variance`: expression.py 123-124. -/
def varianceOp (e : Expr) : Expr := scen e .variance

/-- `is_unbounded`: expression.py 335-336. -/
def isUnbounded : Expr → Bool
  | lit v => v.abs.eqb .pinf
  | _ => false

/-- `is_non_negative`: expression.py 339-340. -/
def isNonNegative : Expr → Bool
  | lit v => (0 : Num).le v
  | _ => false

/-- `sum_expressions`: expression.py 447-452. -/
def sumExpressions : List Expr → Expr
  | [] => lit 0
  | [e] => e
  | es => add es

/-- Induction principle for expression trees (the operands of a sum are a list). -/
theorem ind {P : Expr → Prop}
    (lit : ∀ v, P (.lit v)) (var : ∀ n, P (.var n)) (par : ∀ n, P (.par n))
    (cvar : ∀ c n, P (.cvar c n)) (cpar : ∀ c n, P (.cpar c n))
    (pvar : ∀ c n ti si, P (.pvar c n ti si)) (ppar : ∀ c n ti si, P (.ppar c n ti si))
    (portField : ∀ p f, P (.portField p f))
    (neg : ∀ e, P e → P (.neg e)) (add : ∀ es, (∀ e ∈ es, P e) → P (.add es))
    (mul : ∀ l r, P l → P r → P (.mul l r)) (div : ∀ l r, P l → P r → P (.div l r))
    (cmp : ∀ l r c, P l → P r → P (.cmp l r c))
    (shift : ∀ e k, P e → P k → P (.shift e k))
    (evalT : ∀ e k, P e → P k → P (.evalT e k))
    (tsum : ∀ e a b, P e → P a → P b → P (.tsum e a b))
    (allsum : ∀ e, P e → P (.allsum e)) (scen : ∀ e op, P e → P (.scen e op))
    (agg : ∀ e a, P e → P (.agg e a)) : ∀ e, P e :=
  Expr.rec (motive_1 := P) (motive_2 := fun es => ∀ e ∈ es, P e)
    lit var par cvar cpar pvar ppar portField neg (fun es h => add es h) mul div
    (fun l r c hl hr => cmp l r c hl hr) shift evalT tsum allsum (fun e op h => scen e op h)
    (fun e a h => agg e a h)
    (by intro e he; cases he)
    (by
      intro e es h hs x hx
      cases hx with
      | head => exact h
      | tail _ hx => exact hs x hx)

end Expr
end Verif
