import Verif.Spec.Problem
import Verif.Model.Benders

/-!
# Problems as sets of named points

Problems that are merged share variables by name: a point gives a value to each name.
-/

namespace Verif

/-- the value of each column, when each name has a value -/
def Solver.pointOf (sv : Solver) (val : String → ℚ) (i : Nat) : ℚ :=
  match sv.vars[i]? with
  | some v => val v.name
  | none => 0

/-- the values satisfy all the bounds, types and rows of the problem -/
def Solver.Holds (sv : Solver) (val : String → ℚ) : Prop := sv.Feasible (sv.pointOf val)

/-- cost of the values -/
def Solver.costOf (sv : Solver) (val : String → ℚ) : ℚ := sv.cost (sv.pointOf val)

/-- the row has a nonzero coefficient -/
def Row.Nontrivial (sv : Solver) (r : Row) : Prop := ∃ i < sv.vars.length, coefOf r.coefs i ≠ 0

/-- What holds of any solver problem built by this program: coefficients are set once per column, on existing columns;
every variable is registered. -/
structure Problem.Ok (p : Problem) : Prop where
  rows : ∀ r ∈ p.state.solver.rows, r.coefs.keys.Nodup ∧ ∀ i ∈ r.coefs.keys, i < p.state.solver.vars.length
  objective : p.state.solver.objective.keys.Nodup ∧ ∀ i ∈ p.state.solver.objective.keys, i < p.state.solver.vars.length
  infos : ∀ v ∈ p.state.solver.vars, ∃ i, p.state.infos.get? v.name = some i

/-- Every column is recorded under its name with its number, and nothing else is recorded. -/
structure Registered (st : OptState) : Prop where
  length : st.infos.length = st.solver.vars.length
  info : ∀ (i : Nat) (v : SolverVar), st.solver.vars[i]? = some v → ∃ b, st.infos.get? v.name = some ⟨v.name, i, b⟩
  only : ∀ name ∈ st.infos.keys, name ∈ st.solver.vars.map (·.name)

/-- the names of the columns -/
def Problem.names (p : Problem) : List String := p.state.solver.vars.map (·.name)

/-- the names given to the rows of a master in the merged problem -/
def Problem.rowKeys (p : Problem) : List String := p.state.solver.rows.map fun r => p.name ++ "_" ++ r.name

/-- Masters that can be merged: no name is used by two columns of the masters, none by two columns of the coupler, and the
names given to the rows are distinct; the coupler has no objective. -/
structure Mergeable (masters : List Problem) (coupler : Problem) : Prop where
  ok : ∀ m ∈ masters, m.Ok
  couplerOk : coupler.Ok
  registered : Registered coupler.state
  names : (masters.flatMap Problem.names).Nodup
  couplerNames : coupler.names.Nodup
  rows : (masters.flatMap Problem.rowKeys).Nodup
  objective : coupler.state.solver.objective = []

/-! ## Reading the structure file

The file is read as a stream of words separated by blanks, three words per line. -/

/-- the pieces of a text between separators -/
def cut (sep : Char) : List Char → List (List Char)
  | [] => [[]]
  | c :: l =>
    if c = sep then [] :: cut sep l
    else
      match cut sep l with
      | [] => [[c]]
      | w :: ws => (c :: w) :: ws

/-- the words of a text without line ends -/
def words (l : List Char) : List (List Char) := (cut ' ' l).filter (· ≠ [])

/-- the words of each line of a file; the text after the last line end is not a line -/
def readLines (s : String) : List (List (List Char)) := ((cut '\n' s.toList).dropLast).map words

/-- a name that can be a word: not empty, without blanks nor line ends -/
def IsWord (s : String) : Prop := s.toList ≠ [] ∧ ' ' ∉ s.toList ∧ '\n' ∉ s.toList

end Verif
