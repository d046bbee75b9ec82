import Verif.Model.LinExpr

/-!
# Texts of linear expressions

Models `__repr__` and `__str__` of `Term` and `LinearExpression` (`simulation/linear_expression.py`).  How Python writes a number
with the format `{:+g}` is the parameter `fmt`.
-/

namespace Verif

/-- `is_minus_one`: linear_expression.py 46-47. -/
def isMinusOne (v : Num) : Bool := isCloseAbs v (-1)

/-- `_str_for_coeff`: linear_expression.py 132-138. -/
def strForCoeff (fmt : Num → String) (v : Num) : String := if isOne v then "+" else if isMinusOne v then "-" else fmt v

/-- an optional index inside an f-string: linear_expression.py 200 (Python's `str` of `None` or of an integer). -/
def strIndex : Option Int → String
  | none => "None"
  | some n => toString n

/-- `Term.__repr__`, also `Term.__str__`: linear_expression.py 192-202. -/
def Term.repr (fmt : Num → String) (t : Term) : String :=
  strForCoeff fmt t.coefficient ++ t.key.component ++ "." ++ t.key.var ++ "[" ++ strIndex t.key.time ++ "," ++ strIndex t.key.scenario ++ "]"

/-- `LinearExpression.is_zero`: linear_expression.py 298-299. -/
def LinExpr.allZero (e : LinExpr) : Bool := e.terms.length == 0 && isZero e.constant

/-- `str_for_constant`: linear_expression.py 301-305. -/
def LinExpr.strForConstant (fmt : Num → String) (e : LinExpr) : String := if isZero e.constant then "" else fmt e.constant

/-- `LinearExpression.__repr__`, also `str` of it: linear_expression.py 307-318. -/
def LinExpr.repr (fmt : Num → String) (e : LinExpr) : String :=
  if e.allZero then "" ++ "0"
  else e.terms.values.foldl (fun result t => result ++ t.repr fmt) "" ++ e.strForConstant fmt

end Verif
