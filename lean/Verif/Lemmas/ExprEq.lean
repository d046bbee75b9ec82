import Verif.Model.Shipped

/-!
# Equality of expressions, models and libraries can be computed
-/

namespace Verif

namespace Expr

mutual
/-- Are the two expressions the same? -/
def same : Expr → Expr → Bool
  | lit a, lit b => decide (a = b)
  | var a, var b => decide (a = b)
  | par a, par b => decide (a = b)
  | cvar a n, cvar b m => decide (a = b) && decide (n = m)
  | cpar a n, cpar b m => decide (a = b) && decide (n = m)
  | pvar a n t s, pvar b m u w => decide (a = b) && decide (n = m) && decide (t = u) && decide (s = w)
  | ppar a n t s, ppar b m u w => decide (a = b) && decide (n = m) && decide (t = u) && decide (s = w)
  | portField a n, portField b m => decide (a = b) && decide (n = m)
  | neg a, neg b => same a b
  | add a, add b => sameList a b
  | mul a n, mul b m => same a b && same n m
  | div a n, div b m => same a b && same n m
  | cmp a n k, cmp b m l => same a b && same n m && decide (k = l)
  | shift a n, shift b m => same a b && same n m
  | evalT a n, evalT b m => same a b && same n m
  | tsum a n k, tsum b m l => same a b && same n m && same k l
  | allsum a, allsum b => same a b
  | scen a k, scen b l => same a b && decide (k = l)
  | agg a k, agg b l => same a b && decide (k = l)
  | _, _ => false
/-- Are the two lists the same? -/
def sameList : List Expr → List Expr → Bool
  | [], [] => true
  | a :: as, b :: bs => same a b && sameList as bs
  | _, _ => false
end

mutual
theorem same_iff : ∀ a b : Expr, same a b = true ↔ a = b
  | lit a, b => by cases b <;> simp [same]
  | var a, b => by cases b <;> simp [same]
  | par a, b => by cases b <;> simp [same]
  | cvar a n, b => by cases b <;> simp [same]
  | cpar a n, b => by cases b <;> simp [same]
  | pvar a n t s, b => by cases b <;> simp [same, and_assoc]
  | ppar a n t s, b => by cases b <;> simp [same, and_assoc]
  | portField a n, b => by cases b <;> simp [same]
  | neg a, b => by cases b <;> simp [same, same_iff a]
  | add a, b => by cases b <;> simp [same, sameList_iff a]
  | mul a n, b => by cases b <;> simp [same, same_iff a, same_iff n]
  | div a n, b => by cases b <;> simp [same, same_iff a, same_iff n]
  | cmp a n k, b => by cases b <;> simp [same, same_iff a, same_iff n, and_assoc]
  | shift a n, b => by cases b <;> simp [same, same_iff a, same_iff n]
  | evalT a n, b => by cases b <;> simp [same, same_iff a, same_iff n]
  | tsum a n k, b => by cases b <;> simp [same, same_iff a, same_iff n, same_iff k, and_assoc]
  | allsum a, b => by cases b <;> simp [same, same_iff a]
  | scen a k, b => by cases b <;> simp [same, same_iff a]
  | agg a k, b => by cases b <;> simp [same, same_iff a]
theorem sameList_iff : ∀ a b : List Expr, sameList a b = true ↔ a = b
  | [], b => by cases b <;> simp [sameList]
  | a :: as, b => by cases b <;> simp [sameList, same_iff a, sameList_iff as]
end

instance : DecidableEq Expr := fun a b => decidable_of_iff _ (same_iff a b)

end Expr

deriving instance DecidableEq for PortFieldDefinition, Constraint, Variable, Parameter, ModelPort, Model, Library

instance {ε α} [DecidableEq ε] [DecidableEq α] : DecidableEq (Except ε α)
  | .error a, .error b => decidable_of_iff (a = b) (by simp)
  | .ok a, .ok b => decidable_of_iff (a = b) (by simp)
  | .error _, .ok _ => isFalse (by simp)
  | .ok _, .error _ => isFalse (by simp)

end Verif
