import Verif.Model.LinExpr
import Verif.Spec.Den

/-!
# Reading a linear expression

Coefficient of a variable instance, value for an assignment, canonical form.
-/

namespace Verif

/-- value of a finite number (special values have none; 0 by convention, the theorems prove finiteness) -/
def Num.toQ : Num → ℚ
  | .fin q => q
  | _ => 0

/-- is the number less than `1e-16` in absolute value? -/
def Num.Small (v : Num) : Prop := ∃ q : ℚ, v = .fin q ∧ |q| < 1 / 10 ^ 16

/-- numbers less than `1e-16` in absolute value are replaced by 0 -/
def dropSmall : Num → Num
  | .fin q => if |q| < 1 / 10 ^ 16 then .fin 0 else .fin q
  | v => v

namespace LinExpr

/-- coefficient of a variable instance: that of the first stored term of that key, 0 when there is none -/
def coef (l : LinExpr) (k : TermKey) : Num :=
  match l.terms.get? k with
  | some t => t.coefficient
  | none => 0

/-- value of the linear expression when the variable instances are given by `σ` -/
def value (l : LinExpr) (σ : TermKey → ℚ) : ℚ :=
  l.constant.toQ + (l.terms.map fun kv => kv.2.coefficient.toQ * σ kv.2.key).sum

/-- one term per variable instance, stored under its own key -/
structure Canonical (l : LinExpr) : Prop where
  nodup : (l.terms.map Prod.fst).Nodup
  own : ∀ k t, (k, t) ∈ l.terms → t.key = k

/-- no stored coefficient under `1e-16` -/
def NoSmall (l : LinExpr) : Prop := ∀ k t, (k, t) ∈ l.terms → ¬ t.coefficient.Small

/-- all coefficients and the constant are finite -/
structure Finite (l : LinExpr) : Prop where
  const : l.constant.isFin = true
  coef : ∀ k t, (k, t) ∈ l.terms → t.coefficient.isFin = true

end LinExpr
end Verif
