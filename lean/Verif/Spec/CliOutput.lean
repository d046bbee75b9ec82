import Verif.Model.CliOutput
import Verif.Spec.Problem

/-!
# What the printed status and cost should mean
-/

namespace Verif

/-- The best choice among those that are allowed exists, and `c` is what it costs. -/
def LeastCost {α : Type} (allowed : α → Prop) (cost : α → ℚ) (c : ℚ) : Prop :=
  (∃ x, allowed x ∧ cost x = c) ∧ ∀ y, allowed y → c ≤ cost y

/-- What a user reads in the printed lines, for choices `allowed` of costs `cost`: the status is 0 exactly when there is a best choice, and
the cost is then its cost. -/
structure Printed.Says {α : Type} (o : Printed) (allowed : α → Prop) (cost : α → ℚ) : Prop where
  solved : o.status = 0 ↔ ∃ c, LeastCost allowed cost c
  least : o.status = 0 → LeastCost allowed cost o.cost

/-- What is assumed of the solver (OR-Tools, in exact arithmetic): it finds the optimum when there is one, and says so; without any solution,
it says so, and the value that it gives is 0 (`MPSolverInterface::objective_value`). -/
structure RightSolver (solve : Solver → Answer) : Prop where
  optimal : ∀ sv, (solve sv).status = 0 ↔ ∃ c, LeastCost sv.Feasible sv.cost c
  value : ∀ sv, (solve sv).status = 0 → LeastCost sv.Feasible sv.cost (solve sv).value
  nothing : ∀ sv : Solver, (∀ pt, ¬ sv.Feasible pt) → (solve sv).value = 0

end Verif
