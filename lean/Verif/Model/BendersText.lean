import Verif.Model.Output

/-!
# Texts of Benders solutions

Models `BendersSolution.__str__` (`simulation/output_values.py`).  How Python writes a float is the parameter `fmt`.
-/

namespace Verif

/-- `data["solution"]` of a Benders solution, reduced to the entries that its text uses, any of which may be absent:
output_values.py 253-255, 302-316.  Costs and investments are numbers. -/
structure BendersData where
  overallCost : Option Num := none
  investmentCost : Option Num := none
  operationalCost : Option Num := none
  candidates : Option (Dict String Num) := none
  deriving DecidableEq, Repr

/-- blanks -/
def blanks (n : Nat) : String := String.ofList (List.replicate n ' ')

/-- `f"{s:<{n}}"`: output_values.py 293-298. -/
def alignLeft (n : Nat) (s : String) : String := s ++ blanks (n - s.length)

/-- `f"{s:>{n}}"`: output_values.py 293-298. -/
def alignRight (n : Nat) (s : String) : String := blanks (n - s.length) ++ s

/-- a line, with `lpad = 30` and `rpad = 12`: output_values.py 289-290, 293-298. -/
def bendersLine (fmt : Num → String) (label : String) (v : Num) : String := alignLeft 30 label ++ " : " ++ alignRight 12 (fmt v) ++ "\n"

/-- the loop of `BendersSolution.__str__`: output_values.py 297-298. -/
def addCandidates (fmt : Num → String) : List (String × Num) → String → String
  | [], string => string
  | (c, v) :: cs, string => addCandidates fmt cs (string ++ bendersLine fmt c v)

/-- an entry of `data["solution"]`: output_values.py 302-316 -/
def bendersEntry (key : String) : Option α → R α
  | some v => .ok v
  | none => .error (.keyError key)

/-- `BendersSolution.__str__`: output_values.py 288-300. -/
def BendersData.text (fmt : Num → String) (b : BendersData) : R String := do
  let string := "Benders' solution:\n"
  let v ← bendersEntry "overall_cost" b.overallCost
  let string := string ++ bendersLine fmt "Overall cost" v
  let v ← bendersEntry "investment_cost" b.investmentCost
  let string := string ++ bendersLine fmt "Investment cost" v
  let v ← bendersEntry "operational_cost" b.operationalCost
  let string := string ++ bendersLine fmt "Operational cost" v
  let string := string ++ String.ofList (List.replicate (30 + 12 + 3) '-') ++ "\n"
  let cs ← bendersEntry "values" b.candidates
  .ok (addCandidates fmt cs string)

end Verif
