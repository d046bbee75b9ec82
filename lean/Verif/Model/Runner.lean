import Verif.Model.Benders

/-!
# Running a decomposed problem

Model of `simulation/runner.py` and of `initialise`, `read_solution` and `run` (`simulation/benders_decomposed.py`), with the files, the
working directory and the state of the object.  A solver is any function on the files.
-/

namespace Verif

/-- a path from the root of the file system -/
abbrev FilePath := List String

/-- a path as a program writes it -/
structure WrittenPath where
  absolute : Bool
  parts : List String
  deriving DecidableEq, Repr

/-- the file that a written path designates -/
def WrittenPath.from (p : WrittenPath) (cwd : FilePath) : FilePath := if p.absolute then p.parts else cwd ++ p.parts

/-- JSON values -/
inductive Json where
  | str (s : String)
  | num (v : Num)
  | bool (b : Bool)
  | obj (entries : List (String × Json))

/-- What a file contains.  A JSON document is kept as the value it describes; other texts are not JSON. -/
inductive Content where
  | text (s : String)
  | json (j : Json)

abbrev Files := FilePath → Option Content

def Files.set (f : Files) (p : FilePath) (c : Content) : Files := fun q => if q = p then some c else f q

/-- An executable, started in a directory: an exception when it cannot be started or is interrupted, otherwise the files when it ends and
its return code. -/
abbrev Executable := FilePath → Files → R (Files × Int)

/-- The parts of `BendersDecomposedProblem` that never change: benders_decomposed.py 49-54, 61-76; `mps` and `lp` are the exports of OR-Tools.
`output_path` is relative. -/
structure BendersFolder where
  problem : Benders
  emplacement : WrittenPath := ⟨false, ["outputs", "lp"]⟩
  outputPath : List String := ["expansion"]
  structureFile : String := "structure.txt"
  mps : OptState → String
  lp : OptState → String

/-- The state: files, working directory, and the fields `solution` and `is_merged` (benders_decomposed.py 56-57).  A solution is a
`BendersMergedSolution` (`true`) or a `BendersDecomposedSolution` (`false`) with its data. -/
structure Machine where
  files : Files
  cwd : FilePath
  solution : Option (Bool × Json) := none
  isMerged : Bool := false

/-- `"/".join` of a path, as `f"{path}"` -/
def joinPath : List String → String
  | [] => "."
  | [p] => p
  | p :: ps => p ++ "/" ++ joinPath ps

/-- `export_options`: benders_decomposed.py 114-144. -/
def BendersFolder.options (b : BendersFolder) (solverName : String) (logLevel : Int) : Json :=
  .obj [("MAX_ITERATIONS", .num (.fin (-1))), ("ABSOLUTE_GAP", .num (.fin 1)), ("RELATIVE_GAP", .num (.fin (1 / 1000000))),
    ("RELAXED_GAP", .num (.fin (1 / 100000))), ("AGGREGATION", .bool false), ("OUTPUTROOT", .str "."), ("TRACE", .bool true),
    ("SLAVE_WEIGHT", .str "CONSTANT"), ("SLAVE_WEIGHT_VALUE", .num (.fin 1)), ("MASTER_NAME", .str b.problem.master.name),
    ("STRUCTURE_FILE", .str b.structureFile), ("INPUTROOT", .str "."), ("CSV_NAME", .str "benders_output_trace"),
    ("BOUND_ALPHA", .bool true), ("SEPARATION_PARAM", .num (.fin (1 / 2))), ("BATCH_SIZE", .num (.fin 0)),
    ("JSON_FILE", .str (joinPath b.outputPath ++ "/out.json")),
    ("LAST_ITERATION_JSON_FILE", .str (joinPath b.outputPath ++ "/last_iteration.json")), ("MASTER_FORMULATION", .str "integer"),
    ("SOLVER_NAME", .str solverName), ("TIME_LIMIT", .num (.fin 1000000000000)), ("LOG_LEVEL", .num (.fin logLevel)),
    ("LAST_MASTER_MPS", .str "master_last_iteration"), ("LAST_MASTER_BASIS", .str "master_last_basis.bss")]

/-- `serialize`, `serialize_json` in the emplacement: utils.py 50-66.  Creating directories and opening files is supposed to succeed, and
names contain no slash. -/
def BendersFolder.serialize (b : BendersFolder) (name : String) (c : Content) (m : Machine) : Machine :=
  { m with files := m.files.set (b.emplacement.from m.cwd ++ [name]) c }

/-- `initialise`: benders_decomposed.py 146-176.  What is written before an exception stays. -/
def BendersFolder.initialise (b : BendersFolder) (solverName : String) (logLevel : Int) (debug : Bool) (m : Machine) : Machine × R Unit :=
  let m := b.serialize (b.problem.master.name ++ ".mps") (.text (b.mps b.problem.master.state)) m
  let m := b.problem.subproblems.foldl (fun m p => b.serialize (p.name ++ ".mps") (.text (b.mps p.state)) m) m
  match exportStructure b.problem.master.state b.problem.subproblems with
  | .error e => (m, .error e)
  | .ok s =>
    let m := b.serialize b.structureFile (.text s) m
    let m := b.serialize "options.json" (.json (b.options solverName logLevel)) m
    if debug then
      let m := b.serialize (b.problem.master.name ++ ".lp") (.text (b.lp b.problem.master.state)) m
      (b.problem.subproblems.foldl (fun m p => b.serialize (p.name ++ ".lp") (.text (b.lp p.state)) m) m, .ok ())
    else (m, .ok ())

/-- `CommandRunner.run`: runner.py 38-56 (the runner is made just before: `current_dir` is the working directory).  When the subprocess
cannot be run, the working directory is not restored. -/
def runCommand (programs : FilePath → Option Executable) (command : List String) (emplacement : WrittenPath) (m : Machine) : Machine × R Int :=
  match programs (m.cwd ++ command) with
  | none => (m, .ok 0)
  | some p =>
    match p (emplacement.from m.cwd) m.files with
    | .error e => ({ m with cwd := emplacement.from m.cwd }, .error e)
    | .ok (files, code) => ({ m with files := files }, .ok code)

/-- `read_solution`: benders_decomposed.py 178-191, with `read_json`, utils.py 69-72. -/
def BendersFolder.readSolution (b : BendersFolder) (m : Machine) : Machine × R Unit :=
  match m.files (b.emplacement.from m.cwd ++ b.outputPath ++ ["out.json"]) with
  | none => (m, .ok ())
  | some (.text _) => (m, .error (.valueError "JSONDecodeError"))
  | some (.json data) => ({ m with solution := some (m.isMerged, data) }, .ok ())

/-- the arguments of `run` -/
structure RunOptions where
  solverName : String := "XPRESS"
  logLevel : Int := 0
  shouldMerge : Bool := false
  showDebug : Bool := false
  deriving DecidableEq, Repr

/-- the program that is run: runner.py 59-66 -/
def RunOptions.command (o : RunOptions) : List String := if o.shouldMerge then ["bin", "merge_mps"] else ["bin", "benders"]

/-- `run`: benders_decomposed.py 193-215. -/
def BendersFolder.run (b : BendersFolder) (programs : FilePath → Option Executable) (o : RunOptions) (m : Machine) : Machine × R Bool :=
  match b.initialise o.solverName o.logLevel o.showDebug m with
  | (m, .error e) => (m, .error e)
  | (m, .ok ()) =>
    let m := if o.shouldMerge then { m with isMerged := true } else m
    match runCommand programs o.command b.emplacement m with
    | (m, .error e) => (m, .error e)
    | (m, .ok code) =>
      if code = 0 then
        match b.readSolution m with
        | (m, .error e) => (m, .error e)
        | (m, .ok ()) => (m, .ok true)
      else (m, .ok false)

/-- several calls of `run`, each with the programs that exist then; an exception is caught by the caller, who goes on -/
def BendersFolder.runs (b : BendersFolder) : List ((FilePath → Option Executable) × RunOptions) → Machine → Machine
  | [], m => m
  | (p, o) :: rest, m => b.runs rest (b.run p o m).1

end Verif
