import Verif.Model.Cli
import Verif.Spec.ShippedComplete
import Verif.Spec.Library

/-!
# What the command line is asked to do

Which files a command names, and which study these files describe.
-/

namespace Verif

/-- the library files at the paths, all readable, are `ls` -/
def ReadAs (d : Disk) (paths : List String) (ls : List InputLibrary) : Prop := List.Forall₂ (fun p l => d.library p = .ok l) paths ls

/-- The command names these files: either all of them one by one, the tables being optional, or the directory of a study and none of the
others. -/
inductive Names (d : Disk) (f : CliFlags) : List String → String → Option String → Prop
  | directory {s : String} {files : List String} : f.study = some s → f.models = [] → f.component = none → f.timeseries = none →
      d.listDir (s ++ "/input/models") = .ok files →
      Names d f (files.map fun n => s ++ "/input/models/" ++ n) (s ++ "/input/components/components.yml") (some (s ++ "/input/components/series"))
  | files {c : String} : f.study = none → f.models ≠ [] → f.component = some c → Names d f f.models c f.timeseries

/-- The study that the files describe: a system file, the tables of a directory, the first `duration` timesteps. -/
def Disk.study (d : Disk) (s : InputSystem) (tables : Option String) (f : CliFlags) : StudyInput where
  system := s
  load n := match tables with
    | some p => d.table p n
    | none => .error (.exception "UnboundLocalError")
  steps := (List.range f.duration).map Int.ofNat
  scenarios := f.scenario

/-- two disks with the same contents, except for the order in which the names in directories come -/
structure Disk.SameFiles (d d' : Disk) : Prop where
  library : d'.library = d.library
  system : d'.system = d.system
  table : d'.table = d.table
  listDir : ∀ p files, d.listDir p = .ok files → ∃ files', d'.listDir p = .ok files' ∧ files.Perm files'

end Verif
