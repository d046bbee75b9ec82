import Verif.Model.Antares

/-!
# The command line of the converter of Antares studies

Models `input_converter/src/main.py`, `logger.py`, the constructor of `AntaresStudyConverter` and `process_all`
(`input_converter/src/converter.py`), with what they use of `argparse` and `configparser`.  Texts are lists of characters.  The text of a
configuration file is not modelled: `Ini` is what it says.  The conversion itself is modelled in `Model/Antares.lean`.
-/

namespace Verif

/-- a text -/
abbrev Text := List Char

/-- What a configuration file says: the values in the section `DEFAULT`, and those in the section `study` if there is one. -/
structure Ini where
  defaults : Dict Text Text := []
  study : Option (Dict Text Text) := none
  deriving DecidableEq, Repr

/-! ## `%` in values -/

/-- `_KEYCRE.match(rest)` where `_KEYCRE = %\(([^)]+)\)s` (`configparser.BasicInterpolation`): the name and the number of characters -/
def matchRef : Text → Option (Text × Nat)
  | '%' :: '(' :: r =>
    match r.span (· ≠ ')') with
    | (name, ')' :: 's' :: _) => if name = [] then none else some (name, name.length + 4)
    | _ => none
  | _ => none

/-- `value.replace('%%', '')` -/
def removeEscapes : Text → Text
  | '%' :: '%' :: r => removeEscapes r
  | c :: r => c :: removeEscapes r
  | [] => []

/-- `_KEYCRE.sub('', value)`; the number counts the characters that are still to skip. -/
def removeRefs : Nat → Text → Text
  | _, [] => []
  | n + 1, _ :: cs => removeRefs n cs
  | 0, c :: cs =>
    match matchRef (c :: cs) with
    | some (_, n) => removeRefs (n - 1) cs
    | none => c :: removeRefs 0 cs

/-- `BasicInterpolation.before_set` -/
def beforeSet (v : Text) : R Text :=
  if '%' ∈ removeRefs 0 (removeEscapes v) then .error (.valueError "invalid interpolation syntax") else .ok v

/-- `optionxform`: lower case (of ASCII letters here) -/
def optionKey (name : Text) : Text := name.map Char.toLower

/-- The loop of `_interpolate_some`; `inner` is the same one level deeper, the number counts the characters that are still to skip. -/
def expandGo (inner : Text → R Text) (value : Text → Option Text) : Nat → Text → R Text
  | _, [] => .ok []
  | n + 1, _ :: cs => expandGo inner value n cs
  | 0, '%' :: cs =>
    match cs with
    | '%' :: _ => do
      let r ← expandGo inner value 1 cs
      .ok ('%' :: r)
    | '(' :: _ =>
      match matchRef ('%' :: cs) with
      | none => .error (.exception "InterpolationSyntaxError")
      | some (name, n) =>
        match value (optionKey name) with
        | none => .error (.exception "InterpolationMissingOptionError")
        | some v => do
          let x ← if '%' ∈ v then inner v else .ok v
          let r ← expandGo inner value (n - 1) cs
          .ok (x ++ r)
    | _ => .error (.exception "InterpolationSyntaxError")
  | 0, c :: cs => do
    let r ← expandGo inner value 0 cs
    .ok (c :: r)

/-- `_interpolate_some`, with the number of levels that are left -/
def interpolate (value : Text → Option Text) : Nat → Text → R Text
  | 0, _ => .error (.exception "InterpolationDepthError")
  | n + 1, v => expandGo (interpolate value n) value 0 v

/-- a value in the section `study`, else in `DEFAULT` -/
def Ini.value (i : Ini) (key : Text) : Option Text :=
  match (i.study.getD []).get? key with
  | some v => some v
  | none => i.defaults.get? key

/-- `config_parser["study"].get(key)`: `MAX_INTERPOLATION_DEPTH` is 10. -/
def Ini.get (i : Ini) (key : Text) : R (Option Text) :=
  match i.value key with
  | none => .ok none
  | some v => do
    let x ← interpolate i.value 10 v
    .ok (some x)

/-- `config_parser.set("study", key, v)` -/
def Ini.set (i : Ini) (key v : Text) : R Ini := do
  let v ← beforeSet v
  .ok { i with study := some ((i.study.getD []).set key v) }

/-! ## Options -/

/-- one option on the command line: main.py 95-124 -/
inductive ConvOption where
  | conf (s : Text)
  | logging (s : Text)
  | study (s : Text)
  | output (s : Text)
  deriving DecidableEq, Repr

/-- Is it the option `-c`? -/
def ConvOption.isConf : ConvOption → Bool
  | .conf _ => true
  | _ => false

/-- Is it the option `-l`? -/
def ConvOption.isLogging : ConvOption → Bool
  | .logging _ => true
  | _ => false

/-- Files and directories.  `home` is `str(Path(s).expanduser())` and `resolve` is `str(Path(s).resolve())`; `kind` says for a resolved path
whether there is a directory (`true`), a file (`false`) or nothing; `hasParent` whether its parent directory exists; `ini` what a
configuration file says; `loggerPath` is `LOGGER_PATH`. -/
structure ConvWorld where
  home : Text → Text
  resolve : Text → Text
  kind : Text → Option Bool
  hasParent : Text → Bool
  ini : Text → R Ini
  loggerPath : Text

/-- what has been read of the command line, and the files that were created meanwhile -/
structure ConvArgs where
  conf : Option Text := none
  logging : Option Text := none
  study : Option Text := none
  output : Option Text := none
  created : List Text := []
  deriving DecidableEq, Repr

namespace ConvWorld

/-- what there is at a path, with the files that were created -/
def kindNow (w : ConvWorld) (created : List Text) (p : Text) : Option Bool :=
  if w.resolve p ∈ created then some false else w.kind (w.resolve p)

/-- `PathType(exists=True, file_ok=True)`: main.py 65-82 -/
def fileArg (w : ConvWorld) (created : List Text) (s : Text) : R Text :=
  if w.kindNow created (w.home s) = some false then .ok (w.home s) else .error (.exception "SystemExit")

/-- `PathType(exists=True, dir_ok=True)`: main.py 83-90 -/
def dirArg (w : ConvWorld) (created : List Text) (s : Text) : R Text :=
  if w.kindNow created (w.home s) = some true then .ok (w.home s) else .error (.exception "SystemExit")

/-- `CreateFileIfMissing`: main.py 33-48; the path, and the files that are created.  (Failures of `touch` are not modelled.) -/
def logArg (w : ConvWorld) (created : List Text) (s : Text) : R (Text × List Text) :=
  let p := w.resolve (w.home s)
  if w.kindNow created p = some true then .error (.exception "SystemExit")
  else if ¬ w.hasParent p then .error (.exception "SystemExit")
  else if w.kindNow created p = none then .ok (p, created ++ [p])
  else .ok (p, created)

/-- `parser.parse_args()`, option by option: an error ends the program; the files that were created before it stay. -/
def parseOptions (w : ConvWorld) : List ConvOption → ConvArgs → List Text × R ConvArgs
  | [], a => (a.created, .ok a)
  | .conf s :: os, a =>
    match w.fileArg a.created s with
    | .error e => (a.created, .error e)
    | .ok p => parseOptions w os { a with conf := some p }
  | .logging s :: os, a =>
    match w.logArg a.created s with
    | .error e => (a.created, .error e)
    | .ok (p, c) => parseOptions w os { a with logging := some p, created := c }
  | .study s :: os, a =>
    match w.dirArg a.created s with
    | .error e => (a.created, .error e)
    | .ok p => parseOptions w os { a with study := some p }
  | .output s :: os, a =>
    match w.dirArg a.created s with
    | .error e => (a.created, .error e)
    | .ok p => parseOptions w os { a with output := some p }

/-- `default="data/config.ini"` and `default=LOGGER_PATH`, which are checked after the other options: main.py 98-111 -/
def defaultOptions (w : ConvWorld) (os : List ConvOption) : List ConvOption :=
  (if os.any ConvOption.isConf then [] else [.conf "data/config.ini".toList]) ++
    if os.any ConvOption.isLogging then [] else [.logging w.loggerPath]

/-- the name of the log file: logger.py 23-24 -/
def logName (p : Text) : Text := if ".log".toList <:+ p then p else p ++ ".log".toList

/-- What the program does: the files that it creates empty, the file that it logs to, and the study that it converts with the file that it
writes the system to. -/
structure Outcome where
  created : List Text
  log : Option Text
  result : R (Text × Text)

/-- the configuration file: main.py 137-149 -/
def readIni (w : ConvWorld) (created : List Text) (conf : Text) : R Ini :=
  if w.resolve conf ∈ created then .ok {} else w.ini (w.resolve conf)

/-- the directory of the study in the configuration and the options: main.py 137-157 -/
def studyText (w : ConvWorld) (a : ConvArgs) : R (Option Text) := do
  let i ← w.readIni a.created (a.conf.getD [])
  let i ← match a.study with
    | some p => i.set "study_path".toList p
    | none => .ok i
  let i ← match a.output with
    | some p => i.set "output_path".toList p
    | none => .ok i
  i.get "study_path".toList

/-- the converter: converter.py 49-74, 709-712; utils.py 20-26.  `output_path` is not given, hence the file is in the study. -/
def convertAt (w : ConvWorld) (a : ConvArgs) : R (Text × Text) := do
  match ← w.studyText a with
  | none => .error (.exception "TypeError")
  | some v =>
    if w.kindNow (a.created ++ (a.logging.map logName).toList) v = none then .error (.exception "FileNotFoundError")
    else .ok (w.resolve v, w.resolve v ++ "/output.yaml".toList)

/-- the program: main.py 128-159 -/
def run (w : ConvWorld) (os : List ConvOption) : Outcome :=
  match w.parseOptions (os ++ w.defaultOptions os) {} with
  | (created, .error e) => ⟨created, none, .error e⟩
  | (created, .ok a) => ⟨created, a.logging.map logName, w.convertAt a⟩

end ConvWorld
end Verif
