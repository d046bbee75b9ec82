import Verif.Spec.Meaning
import Verif.Model.Model

/-! # What a comparison and a bounded constraint mean -/

namespace Verif

/-- the comparison of two numbers -/
def Cmp.holds : Cmp → ℚ → ℚ → Prop
  | .le, a, b => a ≤ b
  | .eq, a, b => a = b
  | .ge, a, b => b ≤ a

/-- `x` is above the lower bound `b` (an expression, possibly the literal minus infinity) -/
def aboveBound (M : MCtx) (b : Expr) (x : ℚ) (t s : Int) : Prop :=
  match b with
  | .lit .ninf => True
  | .lit .pinf => False
  | .lit .nan => False
  | b => mden M b t s ≤ x

/-- `x` is below the upper bound `b` (an expression, possibly the literal plus infinity) -/
def belowBound (M : MCtx) (b : Expr) (x : ℚ) (t s : Int) : Prop :=
  match b with
  | .lit .pinf => True
  | .lit .ninf => False
  | .lit .nan => False
  | b => x ≤ mden M b t s

/-- a constraint `lower <= expression <= upper` is satisfied at timestep `t` and scenario `s` -/
def Constraint.Holds (M : MCtx) (c : Constraint) (t s : Int) : Prop :=
  aboveBound M c.lowerBound (mden M c.expression t s) t s ∧ belowBound M c.upperBound (mden M c.expression t s) t s

/-- the two infinite literals -/
def Expr.IsInfinite (e : Expr) : Prop := e = .lit .pinf ∨ e = .lit .ninf

/-- same data except the values of the decision variables -/
def MCtx.withVar (M : MCtx) (v : String → String → Option Int → Option Int → ℚ) : MCtx :=
  { M with D := { M.D with env := { M.D.env with var := v } } }

/-- a decision variable, or a port field (which may bring decision variables) -/
def Expr.isVariable : Expr → Bool
  | .var _ => true
  | .cvar .. => true
  | .pvar .. => true
  | .portField .. => true
  | .agg .. => true
  | _ => false

/-- the objective contributions of a model -/
def Model.objectives (m : Model) : List Expr := m.objectiveOperational.toList ++ m.objectiveInvestment.toList

end Verif
