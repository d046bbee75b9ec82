import Verif.Model.Expr

/-!
# Specification vocabulary on expression trees

Plain structural predicates used to state properties; none of them is used by the model.
-/

namespace Verif
namespace Expr

/-- is the root node a sum? -/
def isSum : Expr → Bool
  | add _ => true
  | _ => false

mutual
/-- all sub-expressions of `e`, itself included -/
def subs : Expr → List Expr
  | neg e => neg e :: subs e
  | add es => add es :: subsList es
  | mul l r => mul l r :: (subs l ++ subs r)
  | div l r => div l r :: (subs l ++ subs r)
  | cmp l r c => cmp l r c :: (subs l ++ subs r)
  | shift e k => shift e k :: (subs e ++ subs k)
  | evalT e k => evalT e k :: (subs e ++ subs k)
  | tsum e a b => tsum e a b :: (subs e ++ subs a ++ subs b)
  | allsum e => allsum e :: subs e
  | scen e op => scen e op :: subs e
  | agg e a => agg e a :: subs e
  | e => [e]
def subsList : List Expr → List Expr
  | [] => []
  | e :: es => subs e ++ subsList es
end

/-- no sum has a sum among its operands, and every sum has at least two operands -/
def Flat (e : Expr) : Prop :=
  ∀ es, add es ∈ e.subs → 2 ≤ es.length ∧ ∀ o ∈ es, o.isSum = false

/-- no literal is `nan` -/
def NoNaN (e : Expr) : Prop := ∀ v, lit v ∈ e.subs → v ≠ .nan

/-- every literal is a finite number -/
def FinLits (e : Expr) : Prop := ∀ v, lit v ∈ e.subs → ∃ q, v = .fin q

theorem subsList_eq (es : List Expr) : subsList es = (es.map subs).flatten := by
  induction es with
  | nil => rfl
  | cons e es ih => simp [subsList, ih]

theorem mem_subs_self (e : Expr) : e ∈ e.subs := by
  cases e <;> simp [subs]

theorem mem_subs_add {es : List Expr} {x : Expr} :
    x ∈ (add es).subs ↔ x = add es ∨ ∃ e ∈ es, x ∈ e.subs := by
  simp [subs, subsList_eq]

end Expr
end Verif
