import Verif.Model.Visitors

/-! Assignments of rational values to variables, used to state C05 and C18. -/

namespace Verif

/-- Read variables from a total rational assignment, parameters from the given provider parts. -/
def assign (par : String → R Num) (cpar : String → String → R Num)
    (v : String → ℚ) (cv : String → String → ℚ) : ValueProvider where
  var n := .ok (.fin (v n))
  par := par
  cvar c n := .ok (.fin (cv c n))
  cpar := cpar

/-- parameters only take finite values (they may be missing) -/
structure FinPars (par : String → R Num) (cpar : String → String → R Num) : Prop where
  par : ∀ n v, par n = .ok v → ∃ q, v = .fin q
  cpar : ∀ c n v, cpar c n = .ok v → ∃ q, v = .fin q

/-- the point at parameter `k` of the line through `v` (at 0) and `w` (at 1) -/
def mix (k a b : ℚ) : ℚ := (1 - k) * a + k * b

end Verif
