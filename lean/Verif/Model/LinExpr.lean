import Verif.Model.Dict

/-!
# Linear expressions

Models `LinearExpression` of `simulation/linear_expression.py`, as values.  The in-place operators return the new
value of `self`; aliasing between objects is modelled separately in `Model/LinHeap.lean`.
-/

namespace Verif

/-- `EPS`: linear_expression.py 31 (as the exact decimal value). -/
def EPS : ℚ := 1 / 10 ^ 16

/-- `is_close_abs(value, other, EPS)`: linear_expression.py 34-35. -/
def isCloseAbs (v other : Num) : Bool := (Num.abs (v - other)).lt (.fin EPS)

/-- `is_zero`: linear_expression.py 38-39. -/
def isZero (v : Num) : Bool := isCloseAbs v 0

/-- `is_one`: linear_expression.py 42-43. -/
def isOne (v : Num) : Bool := isCloseAbs v 1

/-- `TermKey`: linear_expression.py 119-129. -/
structure TermKey where
  component : String
  var : String
  time : Option Int
  scenario : Option Int
  deriving DecidableEq, Repr

/-- `Term`: linear_expression.py 171-185; `key` groups the four fields returned by `generate_key`
(linear_expression.py 205-211). -/
structure Term where
  coefficient : Num
  key : TermKey
  deriving DecidableEq, Repr

/-- `LinearExpression`: linear_expression.py 249-267. -/
structure LinExpr where
  terms : Dict TermKey Term
  constant : Num
  deriving DecidableEq, Repr

namespace LinExpr

/-- `LinearExpression()` -/
def empty : LinExpr := ⟨[], 0⟩

/-- `LinearExpression(terms: dict, constant)`: linear_expression.py 269-287. -/
def ofDict (d : Dict TermKey Term) (c : Num) : LinExpr :=
  ⟨d.foldl (fun acc kv => if isZero kv.2.coefficient then acc else acc.set kv.1 kv.2) [], c⟩

/-- `LinearExpression(terms: list, constant)`: linear_expression.py 269-291. -/
def ofList (l : List Term) (c : Num) : LinExpr :=
  ⟨l.foldl (fun acc t => if isZero t.coefficient then acc else acc.set t.key t) [], c⟩

/-- `_merge_dicts`: linear_expression.py 214-226; `both`, `left`, `right` are the three cases of `merge_func`. -/
def mergeDicts (lhs rhs : Dict TermKey Term) (both : Term → Term → Term) (right : Term → Term) :
    Dict TermKey Term :=
  let res := lhs.foldl (fun (res : Dict TermKey Term) kv =>
    match rhs.get? kv.1 with
    | some r => res.set kv.1 (both kv.2 r)
    | none => res.set kv.1 kv.2) []
  rhs.foldl (fun (res : Dict TermKey Term) kv =>
    if lhs.contains kv.1 then res else res.set kv.1 (right kv.2)) res

/-- `_add_terms`: linear_expression.py 229-236. -/
def addTerms (lhs rhs : Dict TermKey Term) : Dict TermKey Term :=
  mergeDicts lhs rhs (fun l r => { r with coefficient := l.coefficient + r.coefficient }) (fun r => r)

/-- `_substract_terms`: linear_expression.py 239-246. -/
def subTerms (lhs rhs : Dict TermKey Term) : Dict TermKey Term :=
  mergeDicts lhs rhs (fun l r => { l with coefficient := l.coefficient - r.coefficient })
    (fun r => { r with coefficient := -r.coefficient })

/-- `remove_zeros_from_terms`: linear_expression.py 429-433. -/
def removeZeros (d : Dict TermKey Term) : Dict TermKey Term :=
  d.foldl (fun acc kv => if isZero kv.2.coefficient then acc.erase kv.1 else acc) d

/-- `__iadd__`: linear_expression.py 327-334. -/
def iadd (self rhs : LinExpr) : LinExpr :=
  ⟨removeZeros (addTerms self.terms rhs.terms), self.constant + rhs.constant⟩

/-- `__add__`: linear_expression.py 336-340. -/
def add (self rhs : LinExpr) : LinExpr := (empty.iadd self).iadd rhs

/-- `__isub__`: linear_expression.py 342-349. -/
def isub (self rhs : LinExpr) : LinExpr :=
  ⟨removeZeros (subTerms self.terms rhs.terms), self.constant - rhs.constant⟩

/-- `__sub__`: linear_expression.py 351-355. -/
def sub (self rhs : LinExpr) : LinExpr := (empty.iadd self).isub rhs

/-- `__neg__`: linear_expression.py 357-360. -/
def neg (self : LinExpr) : LinExpr := empty.isub self

/-- the loops of lines 382-389 and 412-419: every stored term is replaced, under its key, by the scaled one -/
def mapCoef (f : Num → Num) (d : Dict TermKey Term) : Dict TermKey Term :=
  d.map fun kv => (kv.1, { kv.2 with coefficient := f kv.2.coefficient })

/-- `__imul__`: linear_expression.py 362-391 (the returned value; see `Model/LinHeap.lean` for the effects). -/
def imul (self rhs : LinExpr) : R LinExpr :=
  if !self.terms.isEmpty && !rhs.terms.isEmpty then
    .error (.valueError "Cannot multiply two non constant expression")
  else
    let (left, const) := if !self.terms.isEmpty then (self, rhs.constant) else (rhs, self.constant)
    if isZero const then .ok empty
    else if isOne const then .ok left
    else .ok ⟨mapCoef (· * const) left.terms, left.constant * const⟩

/-- `__mul__`: linear_expression.py 393-397. -/
def mul (self rhs : LinExpr) : R LinExpr := (empty.iadd self).imul rhs

/-- `a / b` for a divisor already known to be non-zero (Python float division) -/
def numDiv (a b : Num) : Num :=
  match Num.div a b with
  | .ok v => v
  | .error _ => .nan

/-- `__itruediv__`: linear_expression.py 399-420.  The divisor is not zero in the last branch (it is not within
`EPS` of zero), so Python's division does not raise and `numDiv` is the quotient. -/
def itruediv (self rhs : LinExpr) : R LinExpr :=
  if !rhs.terms.isEmpty then .error (.valueError "Cannot divide by a non constant expression")
  else if isZero rhs.constant then .error .zeroDivision
  else if isOne rhs.constant then .ok self
  else .ok ⟨mapCoef (numDiv · rhs.constant) self.terms, numDiv self.constant rhs.constant⟩

/-- `__truediv__`: linear_expression.py 422-427. -/
def truediv (self rhs : LinExpr) : R LinExpr := (empty.iadd self).itruediv rhs

/-- Python `==` on `Term`: all fields, floats compared with float equality. -/
def termEq (a b : Term) : Bool := a.coefficient.eqb b.coefficient && decide (a.key = b.key)

/-- Python `==` on dicts: same number of keys and each key of the first is in the second with an equal value. -/
def dictEq (a b : Dict TermKey Term) : Bool :=
  (a.length == b.length) && a.all fun kv =>
    match b.get? kv.1 with
    | some t => termEq kv.2 t
    | none => false

/-- `__eq__`: linear_expression.py 319-325. -/
def eq (self rhs : LinExpr) : Bool :=
  isCloseAbs self.constant rhs.constant && dictEq self.terms rhs.terms

/-- `is_zero`: linear_expression.py 297-298. -/
def isZeroExpr (self : LinExpr) : Bool := self.terms.isEmpty && isZero self.constant

end LinExpr
end Verif
