import Verif.Model.Library
import Verif.Model.System
import Verif.Model.Optim

/-!
# The command line

Model of `main/main.py` and of `parse_cli` (`study/parsing.py`).  Files are abstracted: `Disk` says what reading each path gives (reading
YAML and tables is not modelled).  Solving and printing the result are not modelled: the result is the problem handed to the solver.
-/

namespace Verif

/-- The flags of the command line, as `argparse` gives them: study/parsing.py 78-96.  An absent `--models` is the empty list (`nargs="+"`
never gives one); negative numbers are not modelled. -/
structure CliFlags where
  study : Option String := none
  models : List String := []
  component : Option String := none
  timeseries : Option String := none
  duration : Nat := 1
  scenario : Nat := 1
  deriving DecidableEq, Repr

/-- `ParsedArguments`: study/parsing.py 66-72. -/
structure ParsedArguments where
  modelsPath : List String
  componentsPath : String
  timeseriesPath : Option String
  duration : Nat
  scenarios : Nat
  deriving DecidableEq, Repr

/-- What the files contain: the names in a directory, the library and the system that the YAML files at a path describe, and the tables of a
directory. -/
structure Disk where
  listDir : String → R (List String)
  library : String → R InputLibrary
  system : String → R InputSystem
  table : String → String → R Frame

/-- `parse_cli`: study/parsing.py 75-121.  `parser.error` ends the program. -/
def parseCli (d : Disk) (f : CliFlags) : R ParsedArguments :=
  match f.study with
  | some s =>
    if f.models ≠ [] ∨ f.component.isSome ∨ f.timeseries.isSome then .error (.exception "SystemExit")
    else do
      let files ← d.listDir (s ++ "/input/models")
      .ok ⟨files.map fun n => s ++ "/input/models/" ++ n, s ++ "/input/components/components.yml", some (s ++ "/input/components/series"),
        f.duration, f.scenario⟩
  | none =>
    match f.models, f.component with
    | m :: ms, some c => .ok ⟨m :: ms, c, f.timeseries, f.duration, f.scenario⟩
    | _, _ => .error (.exception "SystemExit")

/-- the loop of `input_libs`: main.py 40-48; `ids` is `yaml_library_ids` -/
def readLibraries (d : Disk) (ids : List String) : List String → R (List InputLibrary)
  | [] => .ok []
  | p :: ps => do
    let l ← d.library p
    if l.id ∈ ids then .error (.valueError "The identifier is defined twice")
    else do
      let ls ← readLibraries d (l.id :: ids) ps
      .ok (l :: ls)

/-- `input_libs`: main.py 36-50.  The loops of `resolve_library` are stopped after `fuel` iterations. -/
def inputLibs (parser : Parser) (os : Nat → SetOrder) (fuel : Nat) (d : Disk) (paths : List String) : Option (R (Dict String Library)) :=
  match readLibraries d [] paths with
  | .error e => some (.error e)
  | .ok ls => resolveLibrary parser os fuel ls

/-- `load_ts_from_txt`: study/data.py 135-147.  Without a directory `ts_path` is never assigned, and the message of the last `raise` uses it
again. -/
def loadSeries (d : Disk) (dir : Option String) (name : String) : R Frame :=
  match dir with
  | some p => d.table p name
  | none => .error (.exception "UnboundLocalError")

/-- main.py 53-55 and 75-83: the error of a missing directory of time series is replaced -/
def inputDatabase (d : Disk) (a : ParsedArguments) (s : InputSystem) : R DataBase :=
  match buildDataBase (loadSeries d a.timeseriesPath) s with
  | .error (.exception "UnboundLocalError") => .error (.exception "AntaresTimeSeriesImportError")
  | r => r

/-- `models.update(lib.models)` for all libraries: main.py 69-71 -/
def allModels (libs : Dict String Library) : Dict String Model := libs.values.foldl (fun d l => d.update l.models) []

/-- `main_cli` after the libraries, up to the call of the solver: main.py 67-96.  An `IndexError` of `build_problem` is raised again
with another message. -/
def runCli (d : Disk) (a : ParsedArguments) (libs : Dict String Library) : R OptState := do
  let s ← d.system a.componentsPath
  let study ← resolveSystem s libs
  let _ ← consistencyCheck study.components (allModels libs)
  let db ← inputDatabase d a s
  let network ← buildNetwork study
  OptCtx.buildProblem { network := network, database := db, timesteps := (List.range a.duration).map Int.ofNat, scenarios := a.scenarios }

/-- `main_cli`: main.py 63-101. -/
def mainCli (parser : Parser) (os : Nat → SetOrder) (fuel : Nat) (d : Disk) (f : CliFlags) : Option (R OptState) :=
  match parseCli d f with
  | .error e => some (.error e)
  | .ok a =>
    match inputLibs parser os fuel d a.modelsPath with
    | none => none
    | some (.error e) => some (.error e)
    | some (.ok libs) => some (runCli d a libs)

end Verif
