import Mathlib.Algebra.Order.Field.Rat
import Mathlib.Tactic.Ring
import Mathlib.Tactic.Linarith

/-!
# Numbers and exceptions

Python floats are modelled by `Num`: a finite float is an exact rational, the three special
values are kept.  Rounding, overflow and signed zero are not modelled (see DESIGN.md).
-/

namespace Verif

/-- Python exceptions, as values.  One constructor per exception class raised by the modelled code,
explicitly or by the interpreter; the string is an abbreviation of the message. -/
inductive Err where
  | valueError (msg : String)
  | keyError (msg : String)
  | indexError
  | typeError (msg : String)
  | attributeError (msg : String)
  | notImplemented (msg : String)
  | zeroDivision
  | runtimeError (msg : String)
  | overflowError
  | exception (msg : String)
  | parseException
  deriving DecidableEq, Repr, Inhabited

/-- Result of a Python call: a value or a raised exception. -/
abbrev R := Except Err

/-- A Python float: exact rational, or one of the IEEE special values. -/
inductive Num where
  | fin (q : ℚ)
  | pinf
  | ninf
  | nan
  deriving DecidableEq, Repr

namespace Num

instance : Inhabited Num := ⟨fin 0⟩
instance : OfNat Num n := ⟨fin (OfNat.ofNat n)⟩

/-- unary minus of a Python float -/
def neg : Num → Num
  | fin q => fin (-q)
  | pinf => ninf
  | ninf => pinf
  | nan => nan

/-- `a + b` of Python floats (`inf - inf` is `nan`) -/
def add : Num → Num → Num
  | fin a, fin b => fin (a + b)
  | fin _, pinf => pinf
  | fin _, ninf => ninf
  | pinf, fin _ => pinf
  | ninf, fin _ => ninf
  | pinf, pinf => pinf
  | ninf, ninf => ninf
  | _, _ => nan

/-- sign of a non-nan number: -1, 0 or 1 -/
def sgn : Num → Int
  | fin q => if q < 0 then -1 else if q = 0 then 0 else 1
  | pinf => 1
  | ninf => -1
  | nan => 0

/-- the infinity of the given sign, `nan` for sign 0 -/
def ofSgn (s : Int) : Num := if s < 0 then ninf else if s = 0 then nan else pinf

/-- `a * b` of Python floats (`inf * 0` is `nan`) -/
def mul : Num → Num → Num
  | nan, _ => nan
  | _, nan => nan
  | fin a, fin b => fin (a * b)
  | a, b => ofSgn (a.sgn * b.sgn)

/-- `a / b` of Python floats; a zero divisor raises `ZeroDivisionError` whatever the dividend -/
def div : Num → Num → R Num
  | a, fin b =>
    if b = 0 then .error .zeroDivision
    else match a with
      | fin a => .ok (fin (a / b))
      | nan => .ok nan
      | i => .ok (ofSgn (i.sgn * (fin b).sgn))
  | nan, _ => .ok nan
  | _, nan => .ok nan
  | fin _, _ => .ok (fin 0)
  | _, _ => .ok nan

/-- `a - b` -/
def sub (a b : Num) : Num := add a (neg b)

instance : Add Num := ⟨add⟩
instance : Neg Num := ⟨neg⟩
instance : Mul Num := ⟨mul⟩
instance : Sub Num := ⟨sub⟩
instance : Zero Num := ⟨fin 0⟩
instance : One Num := ⟨fin 1⟩

/-- `a <= b` of Python floats (false as soon as one side is `nan`) -/
def le : Num → Num → Bool
  | nan, _ => false
  | _, nan => false
  | fin a, fin b => decide (a ≤ b)
  | ninf, _ => true
  | _, pinf => true
  | _, _ => false

/-- `a == b` of Python floats (`nan` differs from everything) -/
def eqb : Num → Num → Bool
  | nan, _ => false
  | a, b => decide (a = b)

/-- `a < b` of Python floats -/
def lt (a b : Num) : Bool := le a b && !eqb a b

/-- `abs(a)` -/
def abs : Num → Num
  | fin q => fin |q|
  | pinf => pinf
  | ninf => pinf
  | nan => nan

/-- finite number? -/
def isFin : Num → Bool
  | fin _ => true
  | _ => false

@[simp] theorem fin_add_fin (a b : ℚ) : (fin a + fin b : Num) = fin (a + b) := rfl
@[simp] theorem fin_mul_fin (a b : ℚ) : (fin a * fin b : Num) = fin (a * b) := rfl
@[simp] theorem fin_sub_fin (a b : ℚ) : (fin a - fin b : Num) = fin (a - b) := by
  show fin (a + -b) = _; rw [sub_eq_add_neg]
@[simp] theorem neg_fin (a : ℚ) : (-(fin a) : Num) = fin (-a) := rfl
theorem zero_def : (0 : Num) = fin 0 := rfl
theorem one_def : (1 : Num) = fin 1 := rfl

protected theorem add_assoc (a b c : Num) : a + b + c = a + (b + c) := by
  cases a <;> cases b <;> cases c <;> first | rfl | (show fin _ = fin _; rw [_root_.add_assoc])

protected theorem add_comm (a b : Num) : a + b = b + a := by
  cases a <;> cases b <;> first | rfl | (show fin _ = fin _; rw [_root_.add_comm])

protected theorem zero_add (a : Num) : 0 + a = a := by
  cases a <;> first | rfl | (show fin _ = fin _; rw [_root_.zero_add])

protected theorem add_zero (a : Num) : a + 0 = a := by
  rw [Num.add_comm, Num.zero_add]

/-- addition of idealised floats is a commutative monoid (special values included) -/
instance : AddCommMonoid Num where
  add_assoc := Num.add_assoc
  add_comm := Num.add_comm
  zero_add := Num.zero_add
  add_zero := Num.add_zero
  nsmul := nsmulRec

theorem neg_add' (a b : Num) : -(a + b) = -a + -b := by
  cases a <;> cases b <;> first | rfl | (show fin _ = fin _; rw [_root_.neg_add])

theorem neg_neg' (a : Num) : -(-a) = a := by
  cases a <;> first | rfl | (show fin _ = fin _; rw [_root_.neg_neg])

theorem sub_eq (a b : Num) : a - b = a + -b := rfl

protected theorem mul_comm (a b : Num) : a * b = b * a := by
  cases a <;> cases b <;> first
    | rfl
    | (show fin _ = fin _; rw [_root_.mul_comm])
    | (show ofSgn _ = ofSgn _; rw [_root_.mul_comm])

theorem div_fin (a b : ℚ) (hb : b ≠ 0) : div (fin a) (fin b) = .ok (fin (a / b)) := by
  simp [div, hb]

theorem div_zero' (a : Num) : div a (fin 0) = .error .zeroDivision := by
  simp [div]

theorem isFin_iff (a : Num) : a.isFin = true ↔ ∃ q, a = fin q := by
  cases a <;> simp [isFin]

@[simp] theorem fin_inj (a b : ℚ) : fin a = fin b ↔ a = b := by
  constructor
  · intro h; cases h; rfl
  · intro h; rw [h]

theorem le_fin (a b : ℚ) : le (fin a) (fin b) = true ↔ a ≤ b := by simp [le]

end Num
end Verif
