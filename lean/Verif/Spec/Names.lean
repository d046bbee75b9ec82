import Mathlib.Data.List.Basic

/-! Names that look like the name of an instance. -/

namespace Verif.Props

/-- the name ends like an index: `_t` or `_s` and digits -/
def EndsWithIndex (name : String) : Prop :=
  ∃ (p : List Char) (c : Char) (ds : List Char), name.toList = p ++ '_' :: c :: ds ∧ (c = 't' ∨ c = 's') ∧ ds ≠ [] ∧
    ∀ d ∈ ds, d.isDigit = true

end Verif.Props
