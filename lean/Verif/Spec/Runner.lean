import Verif.Model.Runner

/-!
# What running a decomposed problem should do

Names of the files that are written, and the problem that a file name designates.
-/

namespace Verif

/-- all problems, in the order in which they are written -/
def BendersFolder.problems (b : BendersFolder) : List Problem := b.problem.master :: b.problem.subproblems

/-- the folder of the files, for a program working in `cwd` -/
def BendersFolder.folder (b : BendersFolder) (cwd : FilePath) : FilePath := b.emplacement.from cwd

/-- the file from which the solution is read -/
def BendersFolder.resultFile (b : BendersFolder) (cwd : FilePath) : FilePath := b.folder cwd ++ b.outputPath ++ ["out.json"]

/-- the names of the files that are written -/
def BendersFolder.written (b : BendersFolder) (debug : Bool) : List String :=
  (b.problems.map fun p => p.name ++ ".mps") ++ [b.structureFile, "options.json"] ++
    if debug then b.problems.map fun p => p.name ++ ".lp" else []

/-- the files are not confused: problems have different names, and the structure file has the name of none of the others -/
structure BendersFolder.Distinct (b : BendersFolder) : Prop where
  names : (b.problems.map (·.name)).Nodup
  options : b.structureFile ≠ "options.json"
  exports : ∀ p ∈ b.problems, b.structureFile ≠ p.name ++ ".mps" ∧ b.structureFile ≠ p.name ++ ".lp"

/-- the executables never raise -/
def NeverRaises (programs : FilePath → Option Executable) : Prop :=
  ∀ path exe, programs path = some exe → ∀ dir files e, exe dir files ≠ .error e

end Verif
