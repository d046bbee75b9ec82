import Verif.Model.ConverterCli
import Verif.Model.CliOutput

/-!
# The words of the command

Models what `argparse` makes of the words of the command, for the options of `parse_cli` (`study/parsing.py`).  Whenever `argparse` refuses the
words or prints its help, the program ends with `SystemExit`; this is `none` here.
-/

namespace Verif

/-- the options that `parse_cli` declares: study/parsing.py 77-95 -/
def cliOptions : List Text :=
  ["--study".toList, "--models".toList, "--component".toList, "--timeseries".toList, "--duration".toList, "--scenario".toList]

/-- all options: `ArgumentParser` adds two for the help -/
def allOptions : List Text := "-h".toList :: "--help".toList :: cliOptions

/-- what `argparse` takes a word for -/
inductive WordKind where
  /-- a word that can be the value of an option -/
  | value
  /-- an option, with its value if the word has one (`--option=value`) -/
  | option (name : Text) (value : Option Text)
  /-- the program ends -/
  | exit
  deriving DecidableEq, Repr

/-- `^-\d+$|^-\d*\.\d+$` (`_negative_number_matcher`); `$` also matches before an end of line at the end of the word.  Digits are those of
ASCII. -/
def isNegativeNumber (w : Text) : Bool :=
  match w with
  | '-' :: r =>
    let r := if r.getLast? = some '\n' then r.dropLast else r
    let front := r.takeWhile Char.isDigit
    let rest := r.dropWhile Char.isDigit
    match rest with
    | [] => front ≠ []
    | '.' :: ds => ds ≠ [] && ds.all Char.isDigit
    | _ => false
  | _ => false

/-- the part of a word before the first `=`, and the part after it if there is one: `split('=', 1)` -/
def splitEqual (w : Text) : Text × Option Text :=
  match w.span (· ≠ '=') with
  | (a, []) => (a, none)
  | (a, _ :: b) => (a, some b)

/-- `_get_option_tuples`: the options that a word can stand for, with the value in the word -/
def optionTuples (w : Text) : List (Text × Option Text) :=
  if ['-', '-'].isPrefixOf w then (allOptions.filter fun o => (splitEqual w).1.isPrefixOf o).map fun o => (o, (splitEqual w).2)
  else allOptions.filterMap fun o => if o = w.take 2 then some (o, some (w.drop 2)) else if w.isPrefixOf o then some (o, none) else none

/-- the end of `_parse_optional`: a word that is no option may be the beginning of one -/
def abbreviated (w : Text) : WordKind :=
  match optionTuples w with
  | [(o, v)] => .option o v
  | _ :: _ :: _ => .exit
  | [] => if isNegativeNumber w then .value else if ' ' ∈ w then .value else .exit

/-- `_parse_optional`, and `--`, after which `argparse` takes nothing for an option: as no word can stand without an option here, it refuses
all words then. -/
def wordKind (w : Text) : WordKind :=
  if w.head? ≠ some '-' then .value
  else if w = "--".toList then .exit
  else if w ∈ allOptions then .option w none
  else if w.length = 1 then .value
  else if (splitEqual w).2.isSome ∧ (splitEqual w).1 ∈ allOptions then .option (splitEqual w).1 (splitEqual w).2
  else abbreviated w

/-- what the words say -/
structure WordFlags where
  study : Option Text := none
  models : List Text := []
  component : Option Text := none
  timeseries : Option Text := none
  duration : Int := 1
  scenario : Int := 1
  deriving DecidableEq, Repr

/-- white space of ASCII (`str.isspace`) -/
def isSpaceChar (c : Char) : Bool := c = ' ' || (9 ≤ c.toNat && c.toNat ≤ 13) || (28 ≤ c.toNat && c.toNat ≤ 31)

/-- the digits of `int(text)`, after a number `n`; a `_` can come between two of them -/
def digitsAfter : Nat → Text → Option Nat
  | n, [] => some n
  | n, '_' :: c :: r => if c.isDigit then digitsAfter (10 * n + (c.toNat - 48)) r else none
  | n, c :: r => if c.isDigit then digitsAfter (10 * n + (c.toNat - 48)) r else none

/-- the digits of `int(text)` -/
def numeral : Text → Option Nat
  | c :: r => if c.isDigit then digitsAfter (c.toNat - 48) r else none
  | [] => none

/-- without the white space around it -/
def stripSpace (w : Text) : Text := ((w.dropWhile isSpaceChar).reverse.dropWhile isSpaceChar).reverse

/-- `int(text)`, for texts of ASCII -/
def pyInt (w : Text) : Option Int :=
  match stripSpace w with
  | '-' :: r => (numeral r).map fun n : Nat => -(n : Int)
  | '+' :: r => (numeral r).map fun n : Nat => (n : Int)
  | r => (numeral r).map fun n : Nat => (n : Int)

/-- `Path(v)`: an empty path is the current directory.  (Other ways to write the same path are not simplified here.) -/
def pathText (v : Text) : Text := if v = [] then ['.'] else v

/-- `take_action`: an option with its values; `type=int` for the last two -/
def setOption (f : WordFlags) (o : Text) (vs : List Text) : Option WordFlags :=
  if o = "--models".toList then some { f with models := vs.map pathText }
  else match vs with
    | [v] =>
      if o = "--study".toList then some { f with study := some (pathText v) }
      else if o = "--component".toList then some { f with component := some (pathText v) }
      else if o = "--timeseries".toList then some { f with timeseries := some (pathText v) }
      else if o = "--duration".toList then (pyInt v).map fun n => { f with duration := n }
      else if o = "--scenario".toList then (pyInt v).map fun n => { f with scenario := n }
      else none
    | _ => none

/-- the end of the values of an option: there must be one -/
def finishOption (f : WordFlags) : Option (Text × List Text) → Option WordFlags
  | none => some f
  | some (_, []) => none
  | some (o, v :: vs) => setOption f o (v :: vs)

/-- `parse_args`: an option takes the values that follow it, all of them for `--models` (`nargs="+"`), one for the others; a value without an
option is refused.  `cur` is the option whose values are being read, with those that were read. -/
def readWords (f : WordFlags) (cur : Option (Text × List Text)) : List Text → Option WordFlags
  | [] => finishOption f cur
  | w :: ws =>
    match wordKind w with
    | .exit => none
    | .value =>
      match cur with
      | none => none
      | some (o, vs) =>
        if o = "--models".toList then readWords f (some (o, vs ++ [w])) ws
        else (setOption f o [w]).bind fun f => readWords f none ws
    | .option o none => (finishOption f cur).bind fun f => readWords f (some (o, [])) ws
    | .option o (some v) => (finishOption f cur).bind fun f => (setOption f o [v]).bind fun f => readWords f none ws

/-- `parser.parse_args()`: study/parsing.py 97 -/
def parseArgs (words : List Text) : Option WordFlags := readWords {} none words

/-- The flags that `main_cli` goes on with: study/parsing.py 97-121.  The duration is used in `range` only (main.py 87), so that a negative one is
as good as 0.  The number of scenarios is that of the flags when it is not negative; the model says nothing about the others. -/
def WordFlags.cli (f : WordFlags) : CliFlags where
  study := f.study.map String.ofList
  models := f.models.map String.ofList
  component := f.component.map String.ofList
  timeseries := f.timeseries.map String.ofList
  duration := f.duration.toNat
  scenario := f.scenario.toNat

/-- `main_cli`, from the words of the command: main.py 63-101.  `none` also stands for a number of scenarios that the model does not cover. -/
def mainWords (solve : Solver → Answer) (parser : Parser) (os : Nat → SetOrder) (fuel : Nat) (d : Disk) (words : List Text) :
    Option (R Printed) :=
  match parseArgs words with
  | none => some (.error (.exception "SystemExit"))
  | some f => if 0 ≤ f.scenario then mainOutput solve parser os fuel d f.cli else none

end Verif
