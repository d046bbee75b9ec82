import Verif.Model.Output

/-!
# Texts of output values

Models `__str__` of `OutputValues` and of its components and variables (`simulation/output_values.py`).  How Python writes a float is the
parameter `fmt`.
-/

namespace Verif

/-- the elements of a list, as Python's `str` of a list writes them -/
def joinTexts : List String → String
  | [] => ""
  | [x] => x
  | x :: y :: l => x ++ ", " ++ joinTexts (y :: l)

/-- `str` of an element of a value -/
def OutItem.text (fmt : Num → String) : OutItem → String
  | .num v => fmt v
  | .row l => "[" ++ joinTexts (l.map fmt) ++ "]"

/-- `str(self.value)` in output_values.py 80-81: `str` of a number, of a list or of a list of lists. -/
def OutValue.text (fmt : Num → String) : OutValue → String
  | .num v => fmt v
  | .list l => "[" ++ joinTexts (l.map (OutItem.text fmt)) ++ "]"

/-- `'(ignored)' if self.ignore else ''`: output_values.py 81, 165. -/
def ignoredText (b : Bool) : String := if b then "(ignored)" else ""

/-- `Variable.__str__`: output_values.py 79-82. -/
def OutVar.text (fmt : Num → String) (v : OutVar) : R String := do
  let x ← v.read
  .ok (v.name ++ " : " ++ x.text fmt ++ " " ++ ignoredText v.ignore)

/-- the loop of `Component.__str__`: output_values.py 166-167. -/
def addVars (fmt : Num → String) : List OutVar → String → R String
  | [], string => .ok string
  | v :: vs, string => do
    let x ← v.text fmt
    addVars fmt vs (string ++ "  " ++ x ++ "\n")

/-- `Component.__str__`: output_values.py 164-168. -/
def OutComp.text (fmt : Num → String) (k : OutComp) : R String :=
  addVars fmt k.variables_.values (k.id ++ " : " ++ ignoredText k.ignore ++ "\n")

/-- the loop of `OutputValues.__str__`: output_values.py 197-198. -/
def addComps (fmt : Num → String) : List OutComp → String → R String
  | [], string => .ok string
  | k :: ks, string => do
    let x ← k.text fmt
    addComps fmt ks (string ++ x)

/-- `OutputValues.__str__`: output_values.py 195-200. -/
def Output.text (fmt : Num → String) (o : Output) : R String := addComps fmt o.components.values "\n"

end Verif
