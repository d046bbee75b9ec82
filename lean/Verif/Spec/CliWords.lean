import Verif.Model.CliWords

/-!
# What the words of the command say
-/

namespace Verif

/-- the options of the command -/
def optionNames : List Text :=
  ["--study".toList, "--models".toList, "--component".toList, "--timeseries".toList, "--duration".toList, "--scenario".toList]

/-- and those for the help -/
def optionsAndHelp : List Text := "-h".toList :: "--help".toList :: optionNames

/-- white space of ASCII: space, tab, new line, vertical tab, new page, carriage return, and the four separators -/
def whiteSpace : List Char :=
  [' ', '\t', '\n', Char.ofNat 11, Char.ofNat 12, '\r', Char.ofNat 28, Char.ofNat 29, Char.ofNat 30, Char.ofNat 31]

/-- the path that a word says; no word is the current directory -/
def saidPath : Text → Text
  | [] => ['.']
  | c :: w => c :: w

/-- The word is an option, or the beginning of this option and of no other one (the two options for the help included). -/
def Stands (w o : Text) : Prop := o ∈ optionNames ∧ w <+: o ∧ ∀ o' ∈ optionsAndHelp, w <+: o' → o' = o

/-- `-12`, `-.5`, `-1.5` -/
def NegativeNumber (w : Text) : Prop :=
  ∃ d e, (∀ c ∈ d, c.isDigit = true) ∧ (e = [] ∨ e = ['\n']) ∧
    (d ≠ [] ∧ w = '-' :: d ++ e ∨ ∃ d', d' ≠ [] ∧ (∀ c ∈ d', c.isDigit = true) ∧ w = '-' :: d ++ '.' :: d' ++ e)

/-- The word can be a value: it does not begin with `-`, or it is `-`, or a negative number, or has a space and is not taken for an option. -/
def IsValue (w : Text) : Prop :=
  w.head? ≠ some '-' ∨ w = ['-'] ∨
    (w.head? = some '-' ∧ (NegativeNumber w ∨ ' ' ∈ w) ∧ ¬ "-h".toList <+: w ∧
      ∀ a, "--".toList <+: a → (a = w ∨ ∃ v, w = a ++ '=' :: v) → ∀ o ∈ optionsAndHelp, ¬ a <+: o)

/-- an option and its values -/
structure OptionUse where
  name : Text
  values : List Text

/-- The ways to write an option with its values. -/
inductive OptionUse.Written : OptionUse → List Text → Prop
  /-- `--option value` -/
  | apart {w o v : Text} (hw : Stands w o) (ho : o ≠ "--models".toList) (hv : IsValue v) : Written ⟨o, [v]⟩ [w, v]
  /-- `--models value ... value` -/
  | several {w : Text} {vs : List Text} (hw : Stands w "--models".toList) (h0 : vs ≠ []) (hv : ∀ v ∈ vs, IsValue v) :
      Written ⟨"--models".toList, vs⟩ (w :: vs)
  /-- `--option=value` -/
  | joined {w o v : Text} (hw : Stands w o) : Written ⟨o, [v]⟩ [w ++ '=' :: v]

/-- digits, perhaps with single `_` between them -/
inductive IsNumeral : Text → Nat → Prop
  | digit (d : Nat) (h : d < 10) : IsNumeral [Char.ofNat (48 + d)] d
  | more {w : Text} {n : Nat} (hw : IsNumeral w n) (d : Nat) (h : d < 10) : IsNumeral (w ++ [Char.ofNat (48 + d)]) (10 * n + d)
  | apart {w : Text} {n : Nat} (hw : IsNumeral w n) (d : Nat) (h : d < 10) : IsNumeral (w ++ ['_', Char.ofNat (48 + d)]) (10 * n + d)

/-- a whole number, with its sign perhaps, and white space around it -/
def IsInteger (w : Text) (n : Int) : Prop :=
  ∃ a r b k, (∀ c ∈ a, c ∈ whiteSpace) ∧ (∀ c ∈ b, c ∈ whiteSpace) ∧ IsNumeral r k ∧
    (w = a ++ r ++ b ∧ n = k ∨ w = a ++ '+' :: r ++ b ∧ n = k ∨ w = a ++ '-' :: r ++ b ∧ n = -k)

/-- the values of the last use of an option -/
def lastValues (uses : List OptionUse) (o : String) : Option (List Text) := (uses.reverse.find? fun u => u.name = o.toList).map (·.values)

/-- the option is not used and the number is 1, or its last value is the number -/
def NumberSaid (uses : List OptionUse) (o : String) (n : Int) : Prop :=
  match lastValues uses o with
  | none => n = 1
  | some vs => ∃ v, vs = [v] ∧ IsInteger v n

/-- The flags say what the last use of each option says. -/
structure FlagsSay (f : WordFlags) (uses : List OptionUse) : Prop where
  study : f.study = (lastValues uses "--study").bind fun vs => vs.head?.map saidPath
  models : f.models = ((lastValues uses "--models").getD []).map saidPath
  component : f.component = (lastValues uses "--component").bind fun vs => vs.head?.map saidPath
  timeseries : f.timeseries = (lastValues uses "--timeseries").bind fun vs => vs.head?.map saidPath
  duration : NumberSaid uses "--duration" f.duration
  scenario : NumberSaid uses "--scenario" f.scenario

/-- Each duration and each number of scenarios is a number. -/
def NumbersFine (uses : List OptionUse) : Prop :=
  ∀ u ∈ uses, u.name = "--duration".toList ∨ u.name = "--scenario".toList → ∃ v n, u.values = [v] ∧ IsInteger v n

/-- The words are these options with their values, one after the other. -/
def WordsSay (words : List Text) (uses : List OptionUse) : Prop :=
  ∃ parts, List.Forall₂ OptionUse.Written uses parts ∧ words = parts.flatten

end Verif
