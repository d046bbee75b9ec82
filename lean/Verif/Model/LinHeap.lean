import Verif.Model.LinExpr
import Mathlib.Logic.Function.Basic

/-!
# Linear expressions as mutable objects

`LinExpr` gives the values computed by the operators of `LinearExpression`.  Here the objects themselves are modelled:
an object holds a reference to a dictionary and a constant, and two objects may hold the same dictionary
(`_copy_expression`, linear_expression.py 436-438).
-/

namespace Verif

/-- A heap of `LinearExpression` objects and of term dictionaries.  Objects `0 .. nobj-1` and dictionaries
`0 .. ndict-1` exist.  (linear_expression.py 266-267: the two attributes of an object) -/
structure LHeap where
  obj : Nat → Nat × Num
  dict : Nat → Dict TermKey Term
  nobj : Nat
  ndict : Nat

namespace LHeap

def init : LHeap := ⟨fun _ => (0, 0), fun _ => [], 0, 0⟩

/-- the linear expression held by an object -/
def val (h : LHeap) (r : Nat) : LinExpr := ⟨h.dict (h.obj r).1, (h.obj r).2⟩

/-- allocate an object with its own dictionary: linear_expression.py 269-291 -/
def alloc (h : LHeap) (e : LinExpr) : LHeap × Nat :=
  (⟨Function.update h.obj h.nobj (h.ndict, e.constant), Function.update h.dict h.ndict e.terms,
    h.nobj + 1, h.ndict + 1⟩, h.nobj)

/-- store a new dictionary and a constant in an existing object (`self.terms = aggregated_terms`) -/
def assign (h : LHeap) (a : Nat) (e : LinExpr) : LHeap :=
  ⟨Function.update h.obj a (h.ndict, e.constant), Function.update h.dict h.ndict e.terms, h.nobj, h.ndict + 1⟩

/-- overwrite the constant of an object and the content of its dictionary, in place -/
def mutate (h : LHeap) (a : Nat) (e : LinExpr) : LHeap :=
  ⟨Function.update h.obj a ((h.obj a).1, e.constant), Function.update h.dict (h.obj a).1 e.terms, h.nobj, h.ndict⟩

/-- `_copy_expression(src, dst)`: linear_expression.py 436-438. -/
def copyExpr (h : LHeap) (src dst : Nat) : LHeap :=
  { h with obj := Function.update h.obj dst (h.obj src) }

/-- `__iadd__`: linear_expression.py 327-334. -/
def iadd (h : LHeap) (a b : Nat) : LHeap := h.assign a ((h.val a).iadd (h.val b))

/-- `__isub__`: linear_expression.py 342-349. -/
def isub (h : LHeap) (a b : Nat) : LHeap := h.assign a ((h.val a).isub (h.val b))

/-- `__imul__`: linear_expression.py 362-391.  Returns the object that the name on the left of `*=` is bound to
afterwards (a new one in the zero case).  When the two operands are the same constant object, the loop of lines
382-389 runs over an empty dictionary, so the constant it would read does not matter. -/
def imul (h : LHeap) (a b : Nat) : R (LHeap × Nat) :=
  if !(h.val a).terms.isEmpty && !(h.val b).terms.isEmpty then
    .error (.valueError "Cannot multiply two non constant expression")
  else
    let left := if !(h.val a).terms.isEmpty then a else b
    let const := if !(h.val a).terms.isEmpty then b else a
    let c := (h.val const).constant
    if isZero c then .ok (h.alloc LinExpr.empty)
    else if isOne c then .ok (h.copyExpr left a, a)
    else
      let h' := h.mutate left ⟨LinExpr.mapCoef (· * c) (h.val left).terms, (h.val left).constant * c⟩
      .ok (h'.copyExpr left a, a)

/-- `__itruediv__`: linear_expression.py 399-420. -/
def itruediv (h : LHeap) (a b : Nat) : R (LHeap × Nat) :=
  if !(h.val b).terms.isEmpty then .error (.valueError "Cannot divide by a non constant expression")
  else if isZero (h.val b).constant then .error .zeroDivision
  else if isOne (h.val b).constant then .ok (h, a)
  else
    let c := (h.val b).constant
    .ok (h.mutate a ⟨LinExpr.mapCoef (LinExpr.numDiv · c) (h.val a).terms, LinExpr.numDiv (h.val a).constant c⟩, a)

/-- `__add__`: linear_expression.py 336-340. -/
def add (h : LHeap) (a b : Nat) : LHeap × Nat :=
  let (h, r) := h.alloc LinExpr.empty
  ((h.iadd r a).iadd r b, r)

/-- `__sub__`: linear_expression.py 351-355. -/
def sub (h : LHeap) (a b : Nat) : LHeap × Nat :=
  let (h, r) := h.alloc LinExpr.empty
  ((h.iadd r a).isub r b, r)

/-- `__neg__`: linear_expression.py 357-360. -/
def neg (h : LHeap) (a : Nat) : LHeap × Nat :=
  let (h, r) := h.alloc LinExpr.empty
  (h.isub r a, r)

/-- `__mul__`: linear_expression.py 393-397. -/
def mul (h : LHeap) (a b : Nat) : R (LHeap × Nat) :=
  let (h, r) := h.alloc LinExpr.empty
  (h.iadd r a).imul r b

/-- `__truediv__`: linear_expression.py 422-427. -/
def truediv (h : LHeap) (a b : Nat) : R (LHeap × Nat) :=
  let (h, r) := h.alloc LinExpr.empty
  (h.iadd r a).itruediv r b

end LHeap

/-- The operations a program can apply to linear expressions; numbers are object references. -/
inductive LOp where
  | new (terms : List Term) (constant : Num)
  | add (a b : Nat)
  | sub (a b : Nat)
  | neg (a : Nat)
  | mul (a b : Nat)
  | truediv (a b : Nat)
  | iadd (a b : Nat)
  | isub (a b : Nat)
  | imul (a b : Nat)
  | itruediv (a b : Nat)

namespace LOp

/-- objects read by the operation -/
def refs : LOp → List Nat
  | new _ _ => []
  | add a b => [a, b]
  | sub a b => [a, b]
  | neg a => [a]
  | mul a b => [a, b]
  | truediv a b => [a, b]
  | iadd a b => [a, b]
  | isub a b => [a, b]
  | imul a b => [a, b]
  | itruediv a b => [a, b]

/-- object updated by an in-place operation -/
def target : LOp → Option Nat
  | iadd a _ => some a
  | isub a _ => some a
  | imul a _ => some a
  | itruediv a _ => some a
  | _ => none

/-- run one operation: new heap and object returned -/
def run (h : LHeap) : LOp → R (LHeap × Nat)
  | new ts c => .ok (h.alloc (LinExpr.ofList ts c))
  | add a b => .ok (h.add a b)
  | sub a b => .ok (h.sub a b)
  | neg a => .ok (h.neg a)
  | mul a b => h.mul a b
  | truediv a b => h.truediv a b
  | iadd a b => .ok (h.iadd a b, a)
  | isub a b => .ok (h.isub a b, a)
  | imul a b => h.imul a b
  | itruediv a b => h.itruediv a b

end LOp
end Verif
