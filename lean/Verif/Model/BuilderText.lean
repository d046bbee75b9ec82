import Verif.Model.System
import Verif.Model.Tables

/-!
# The text of a scenario builder

Models `parse_scenario_builder` (`study/parsing.py` 31-34), with what `pd.read_csv` does of its text, and `_resolve_scenarization`
(`study/resolve_components.py` 198-207) on what is read.  Texts are lists of characters.  Quoted words are not modelled.
-/

namespace Verif

/-- What a word becomes, according to its column: `text` and `missing` in a column of texts, `int` in a column of integers, `float` in a
column of other numbers (`nan` where a number is missing), `bool` in a column of booleans. -/
inductive BuilderCell where
  | text (w : List Char)
  | missing
  | int (n : Int)
  | float (v : Num)
  | bool (b : Bool)
  deriving DecidableEq, Repr

/-- equality of keys of a `dict`: `nan` is equal to nothing.  (`missing` is always the same object `np.nan`.) -/
def BuilderCell.same : BuilderCell → BuilderCell → Bool
  | .float .nan, _ => false
  | _, .float .nan => false
  | .int n, .float v => v = .fin n
  | .float v, .int n => v = .fin n
  | a, b => a = b

/-- the words for a missing value: `STR_NA_VALUES` of pandas -/
def missingWords : List (List Char) :=
  ["", "#N/A", "#N/A N/A", "#NA", "-1.#IND", "-1.#QNAN", "-NaN", "-nan", "1.#IND", "1.#QNAN", "<NA>", "N/A", "NA", "NULL", "NaN", "None",
    "n/a", "nan", "null"].map String.toList

/-- the words for booleans -/
def boolWord (w : List Char) : Option Bool :=
  if w ∈ ["True", "TRUE", "true"].map String.toList then some true
  else if w ∈ ["False", "FALSE", "false"].map String.toList then some false
  else none

/-- the value of digits, `none` if there is another character -/
def digitsFrom : Nat → List Char → Option Nat
  | n, [] => some n
  | n, c :: cs => if c.isDigit then digitsFrom (10 * n + (c.toNat - '0'.toNat)) cs else none

/-- digits, at least one -/
def readDigits : List Char → Option Nat
  | [] => none
  | cs => digitsFrom 0 cs

/-- without the blanks before and after it -/
def trim (w : List Char) : List Char := ((w.dropWhile isBlank).reverse.dropWhile isBlank).reverse

/-- the integer that a word is, with blanks around it (`str_to_int64` of pandas; here without limits) -/
def readInt (w : List Char) : Option Int :=
  match trim w with
  | '-' :: cs => (readDigits cs).map fun n => -(n : Int)
  | '+' :: cs => (readDigits cs).map fun n => (n : Int)
  | cs => (readDigits cs).map fun n => (n : Int)

/-- A column as pandas reads it: integers, else numbers, else booleans, else texts; `float` reads words that are not integers.  Missing
numbers make a column of integers one of other numbers. -/
def readColumn (float : List Char → Option Num) (ws : List (List Char)) : List BuilderCell :=
  if ws.all fun w => (readInt w).isSome then ws.map fun w => .int ((readInt w).getD 0)
  else if ws.all fun w => w ∈ missingWords || (readInt w).isSome || (float w).isSome then
    ws.map fun w => if w ∈ missingWords then .float .nan else match readInt w with
      | some n => .float (.fin n)
      | none => .float ((float w).getD .nan)
  else if ws.all fun w => w ∈ missingWords || (boolWord w).isSome then
    ws.map fun w => if w ∈ missingWords then .missing else .bool ((boolWord w).getD false)
  else ws.map fun w => if w ∈ missingWords then .missing else .text w

/-- a line as it is read -/
structure RawLine where
  name : BuilderCell
  year : BuilderCell
  scenario : BuilderCell
  deriving DecidableEq, Repr

/-- The words of each line, separated by commas; blank lines are skipped. -/
def commaRecords (text : List Char) : List (List (List Char)) :=
  ((splitAll isEol text).filter fun l => !(l.all isBlank)).map (splitAll (· = ','))

/-- lines completed with empty words; a line with more words than `width` is an error -/
def padRecord (width : Nat) (r : List (List Char)) : R (List (List Char)) :=
  if width < r.length then .error (.exception "ParserError") else .ok (r ++ List.replicate (width - r.length) [])

/-- `pd.read_csv(file, names=("name", "year", "scenario"))`: parsing.py 31-34.  If the first line has more than three words, the first
columns are an index and the names are those of the last three; the call of `rename` has no effect. -/
def parseScenarioBuilder (float : List Char → Option Num) (text : List Char) : R (List RawLine) :=
  let rs := commaRecords text
  let width := max ((rs.head?.map List.length).getD 3) 3
  do
    let rows ← appendAll (padRecord width) rs
    let col (j : Nat) := readColumn float (rows.map fun r => r.getD (width - 3 + j) [])
    .ok (((col 0).zip ((col 1).zip (col 2))).map fun c => ⟨c.1, c.2.1, c.2.2⟩)

/-- `d[k]` of a `dict` with cells as keys -/
def rawFind {β} : List (BuilderCell × β) → BuilderCell → Option β
  | [], _ => none
  | (k', v) :: d, k => if k'.same k then some v else rawFind d k

/-- `d[k] = v` -/
def rawSet {β} : List (BuilderCell × β) → BuilderCell → β → List (BuilderCell × β)
  | [], k, v => [(k, v)]
  | (k', v') :: d, k, v => if k'.same k then (k', v) :: d else (k', v') :: rawSet d k v

/-- `_resolve_scenarization`: resolve_components.py 198-207 -/
def rawGroups : List RawLine → List (BuilderCell × List (BuilderCell × BuilderCell)) → R (List (BuilderCell × List (BuilderCell × BuilderCell)))
  | [], out => .ok out
  | r :: rs, out =>
    match rawFind out r.name with
    | some z =>
      match rawFind z r.year with
      | some _ => .error (.valueError "the year is already defined")
      | none => rawGroups rs (rawSet out r.name (rawSet z r.year r.scenario))
    | none => rawGroups rs (rawSet out r.name [(r.year, r.scenario)])

/-- `scenarizations[group].get_scenario_for_year(year)` for a study whose scenario builder has this text: resolve_components.py 216-226,
data.py 42-43, and the use of the scenario as the number of a column (data.py 196-198), which must be an integer.  (A series that depends on
scenarios only also accepts `1.0`.) -/
def textScenario (float : List Char → Option Num) (text : List Char) (group : String) (year : Int) : R Int := do
  let rows ← parseScenarioBuilder float text
  let zs ← rawGroups rows []
  match rawFind zs (.text group.toList) with
  | none => .error (.keyError group)
  | some z =>
    match rawFind z (.int year) with
    | none => .error (.keyError (toString year))
    | some (.int s) => .ok s
    | some _ => .error (.typeError "Cannot index by location index with a non-integer key")

end Verif
