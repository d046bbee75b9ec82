import Verif.Model.Cli

/-!
# What the command prints

Model of the end of `main_cli` (`main/main.py`).  The solver is a parameter: it answers a status and an objective value.
-/

namespace Verif

/-- What `solver.Solve()` returns, and what `solver.Objective().Value()` returns afterwards: main.py 98 and 101.  The status `0` is
`OPTIMAL`. -/
structure Answer where
  status : Nat
  value : ℚ
  deriving DecidableEq, Repr

/-- the two lines that are printed: main.py 99 and 101.  Values are exact (the program prints a float). -/
structure Printed where
  status : Nat
  cost : ℚ
  deriving DecidableEq, Repr

/-- main.py 98-101: the value is printed whatever the status. -/
def printAnswer (a : Answer) : Printed := ⟨a.status, a.value⟩

/-- `main_cli`, to the end: main.py 63-101. -/
def mainOutput (solve : Solver → Answer) (parser : Parser) (os : Nat → SetOrder) (fuel : Nat) (d : Disk) (f : CliFlags) :
    Option (R Printed) :=
  match mainCli parser os fuel d f with
  | none => none
  | some (.error e) => some (.error e)
  | some (.ok st) => some (.ok (printAnswer (solve st.solver)))

end Verif
