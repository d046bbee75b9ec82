import Verif.Model.Expr

/-!
# Printing expressions

Models `expression/print.py`.  The text of a number, `str(value)`, is a parameter.
-/

namespace Verif

/-- `_COMPARISON_OPERATOR_TO_STRING`: print.py 44-48. -/
def Cmp.printed : Cmp → String
  | .le => "<="
  | .eq => "=="
  | .ge => ">="

/-- `str(node.name)` of a scenario operator, the name of its class: print.py 125, expression.py 430-443. -/
def ScenOp.printed : ScenOp → String
  | .expectation => "Expectation"
  | .variance => "Variance"
  | .base => "ScenarioOperator"

/-- `node.aggregator`, the name of a class: print.py 131, expression.py 349-361. -/
def PortAgg.printed : PortAgg → String
  | .portSum => "PortSum"
  | .base => "PortAggregator"

mutual
/-- `PrinterVisitor` and `print_expr`: print.py 51-135. -/
def printExpr (str : Num → String) : Expr → String
  | .lit v => str v                                                                                        -- 59-60
  | .neg e => "-(" ++ printExpr str e ++ ")"                                                                -- 62-63
  | .add [] => ""                                                                                          -- 66-67
  | .add (e :: es) => "(" ++ (printExpr str e ++ printOperands str es) ++ ")"                               -- 68-74
  | .mul l r => "(" ++ printExpr str l ++ " * " ++ printExpr str r ++ ")"                                   -- 76-79
  | .div l r => "(" ++ printExpr str l ++ " / " ++ printExpr str r ++ ")"                                   -- 81-84
  | .cmp l r c => printExpr str l ++ " " ++ c.printed ++ " " ++ printExpr str r                             -- 86-90
  | .var n => n                                                                                            -- 92-93
  | .par n => n                                                                                            -- 95-96
  | .cvar c n => c ++ "." ++ n                                                                             -- 98-99
  | .cpar c n => c ++ "." ++ n                                                                             -- 101-102
  | .pvar c n _ _ => c ++ "." ++ n                                                                         -- 104-106
  | .ppar c n _ _ => c ++ "." ++ n                                                                         -- 108-110
  | .shift e k => "(" ++ printExpr str e ++ ".shift(" ++ printExpr str k ++ "))"                            -- 112-113
  | .evalT e k => "(" ++ printExpr str e ++ ".eval(" ++ printExpr str k ++ "))"                             -- 115-116
  | .tsum e a b => "(" ++ printExpr str e ++ ".time_sum(" ++ printExpr str a ++ ", " ++ printExpr str b ++ "))"  -- 118-119
  | .allsum e => "(" ++ printExpr str e ++ ".time_sum())"                                                   -- 121-122
  | .scen e op => "(" ++ printExpr str e ++ "." ++ op.printed ++ ")"                                        -- 124-125
  | .portField p f => p ++ "." ++ f                                                                        -- 127-128
  | .agg e a => "(" ++ printExpr str e ++ "." ++ a.printed ++ ")"                                           -- 130-131
/-- the loop on the operands that follow the first one: print.py 69-73 -/
def printOperands (str : Num → String) : List Expr → String
  | [] => ""
  | .neg o :: es => " - " ++ printExpr str o ++ printOperands str es
  | e :: es => " + " ++ printExpr str e ++ printOperands str es
end

end Verif
