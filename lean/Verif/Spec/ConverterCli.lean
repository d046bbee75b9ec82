import Verif.Model.ConverterCli

/-!
# What the options of the converter mean
-/

namespace Verif

/-- the path of a path is itself -/
def ConvWorld.Lawful (w : ConvWorld) : Prop := ∀ s, w.resolve (w.resolve s) = w.resolve s

/-- An option that names what it should: an existing file for `-c`, existing directories for `-i` and `-o`, for `-l` a file that exists or
can be created. -/
def ConvOption.Fine (w : ConvWorld) : ConvOption → Prop
  | .conf s => w.kind (w.resolve (w.home s)) = some false
  | .study s => w.kind (w.resolve (w.home s)) = some true
  | .output s => w.kind (w.resolve (w.home s)) = some true
  | .logging s => w.kind (w.resolve (w.home s)) ≠ some true ∧ w.hasParent (w.resolve (w.home s)) = true

/-- The value of an option that may be given several times is the last one: `confs`, `logs`, `studies` and `outputs` are those that are
given. -/
def confs (os : List ConvOption) : List Text := os.filterMap fun | .conf s => some s | _ => none
/-- see `confs` -/
def logs (os : List ConvOption) : List Text := os.filterMap fun | .logging s => some s | _ => none
/-- see `confs` -/
def studies (os : List ConvOption) : List Text := os.filterMap fun | .study s => some s | _ => none
/-- see `confs` -/
def outputs (os : List ConvOption) : List Text := os.filterMap fun | .output s => some s | _ => none

/-- A command without faults: all its options name what they should, and so do the default values of those that are not given; `conf` is the
configuration file and `log` the file for messages. -/
structure Faultless (w : ConvWorld) (os : List ConvOption) (conf log : Text) : Prop where
  options : ∀ o ∈ os, o.Fine w
  confIs : (confs os).getLast?.getD "data/config.ini".toList = conf
  logIs : (logs os).getLast?.getD w.loggerPath = log
  confFine : (ConvOption.conf conf).Fine w
  logFine : (ConvOption.logging log).Fine w

/-- An option that does not name what it should; a file that an option `-l` creates may be read as a configuration file. -/
def ConvOption.Faulty (w : ConvWorld) (os : List ConvOption) : ConvOption → Prop
  | .conf s => w.kind (w.resolve (w.home s)) = some true ∨
    w.kind (w.resolve (w.home s)) = none ∧ ∀ l ∈ logs os, w.resolve (w.home l) ≠ w.resolve (w.home s)
  | .study s => w.kind (w.resolve (w.home s)) ≠ some true
  | .output s => w.kind (w.resolve (w.home s)) ≠ some true
  | .logging s => w.kind (w.resolve (w.home s)) = some true ∨ w.hasParent (w.resolve (w.home s)) = false

/-- each `%` written twice -/
def escapePercent : Text → Text
  | [] => []
  | c :: cs => if c = '%' then '%' :: '%' :: escapePercent cs else c :: escapePercent cs

/-- the configuration has the value `v` for `key`: in the section `study`, or, if this section does not have the key or is absent, in the
default section -/
def Ini.Has (i : Ini) (key v : Text) : Prop :=
  (∃ s, i.study = some s ∧ s.get? key = some v) ∨ ((∀ s, i.study = some s → s.get? key = none) ∧ i.defaults.get? key = some v)

end Verif
