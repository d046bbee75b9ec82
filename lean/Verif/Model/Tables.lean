import Verif.Model.Antares
import Verif.Model.Pypsa

/-!
# Tables as texts

Models the texts of the tables of time series: how the converters write them (`DataFrame.to_csv`) and how a study reads them
(`load_ts_from_txt`, `study/data.py`).  Texts are lists of characters.
-/

namespace Verif

/-- How numbers are written and read: `print` for the numbers other than `nan`, `read` for words (also the spellings of `nan`); `none` for a
word that is not a number.  (pandas writes a column of integers without decimals; here the text depends on the number only.) -/
structure NumberText where
  print : Num → List Char
  read : List Char → Option Num

/-- a space or a tabulation: what separates words when `sep=r"\s+"` (data.py 142) -/
def isBlank (c : Char) : Bool := c = ' ' || c = '\t'

/-- what ends a line.  (The two characters `\r\n` end one line; here the empty line between them is skipped with the other ones.) -/
def isEol (c : Char) : Bool := c = '\n' || c = '\r'

/-- `text.split` at each character for which `sep` holds -/
def splitAll (sep : Char → Bool) : List Char → List (List Char)
  | [] => [[]]
  | c :: cs =>
    if sep c then [] :: splitAll sep cs
    else match splitAll sep cs with
      | [] => [[c]]
      | w :: ws => (c :: w) :: ws

/-- the words of a line -/
def lineWords (line : List Char) : List (List Char) := (splitAll isBlank line).filter fun w => !w.isEmpty

/-- The words of each line, as `pd.read_csv(header=None, sep=r"\s+")` finds them: lines without words are skipped (`skip_blank_lines`).
Quotation marks around words that contain blanks are not modelled. -/
def records (text : List Char) : List (List (List Char)) := ((splitAll isEol text).map lineWords).filter fun r => !r.isEmpty

/-- two quotation marks: the empty word -/
def emptyWord : List Char := ['"', '"']

/-- The number of a word.  (In the code a word that is not a number makes a column of texts, and the error is raised when the value is
used.) -/
def wordValue (N : NumberText) (w : List Char) : R Num :=
  if w = emptyWord then .ok .nan
  else match N.read w with
    | some v => .ok v
    | none => .error (.valueError "could not convert string to float")

/-- the numbers of a line, completed with `nan`; a line that has too many words is an error -/
def readRow (N : NumberText) (width : Nat) (r : List (List Char)) : R (List Num) :=
  if width < r.length then .error (.exception "ParserError")
  else do
    let vs ← appendAll (wordValue N) r
    .ok (vs ++ List.replicate (width - vs.length) .nan)

/-- `pd.read_csv(..., header=None, sep=r"\s+")`: data.py 142; the first line says how many columns there are. -/
def readCsv (N : NumberText) (text : List Char) : R Frame :=
  match records text with
  | [] => .error (.exception "EmptyDataError")
  | r :: rs => do
    let rows ← appendAll (readRow N r.length) (r :: rs)
    .ok ⟨r.length, rows⟩

/-- `path_to_file / name`: an absolute name replaces the directory -/
def joinDir (dir name : String) : String := if name.toList.head? = some '/' then name else dir ++ "/" ++ name

/-- the table of a file: data.py 141-147; `texts` are the texts of the files. -/
def readFile (N : NumberText) (texts : String → Option (List Char)) (path : String) : R Frame :=
  match texts path with
  | none => .error (.exception "FileNotFoundError")
  | some t => match readCsv N t with
    | .ok f => .ok f
    | .error _ => .error (.exception "An error has arrived when processing the file")

/-- `load_ts_from_txt` with a directory: data.py 135-147. -/
def loadText (N : NumberText) (texts : String → Option (List Char)) (dir name : String) : R Frame :=
  readFile N texts (joinDir dir (name ++ ".txt"))

/-! ## Writing -/

/-- one number in a table -/
def cellText (N : NumberText) (v : Num) : List Char :=
  match v with
  | .nan => []
  | v => N.print v

/-- words with the character `sep` between them -/
def joinWords (sep : Char) : List (List Char) → List Char
  | [] => []
  | [w] => w
  | w :: ws => w ++ sep :: joinWords sep ws

/-- a line of `to_csv`; a line that would be empty is written with quotation marks (`csv.writer`, for one column) -/
def rowText (N : NumberText) (sep : Char) (row : List Num) : List Char :=
  if row = [.nan] then emptyWord else joinWords sep (row.map (cellText N))

/-- `df.to_csv(path, sep=sep, index=False, header=False)`: thermal.py 115, binding_constraints.py 75-79, pypsa_converter.py 509-513; `eol`
is `os.linesep`. -/
def csvText (N : NumberText) (sep : Char) (eol : List Char) (f : Frame) : List Char :=
  f.rows.flatMap fun row => rowText N sep row ++ eol

/-- The texts on the disk after the converter of Antares studies has written its tables, in this order. -/
def writeTables (N : NumberText) (eol : List Char) (files : List (String × Frame)) (texts : String → Option (List Char)) :
    String → Option (List Char) :=
  files.foldl (fun t f p => if p = f.1 then some (csvText N '\t' eol f.2) else t p) texts

/-- The texts on the disk after the converter of PyPSA networks has written its series in the directory `dir`; a table has one column:
pypsa_converter.py 509-513.  Directories that names contain are taken to exist. -/
def writeColumns (N : NumberText) (eol : List Char) (dir : String) (files : List (String × List Num)) (texts : String → Option (List Char)) :
    String → Option (List Char) :=
  files.foldl (fun t f p => if p = joinDir dir (f.1 ++ ".txt") then some (csvText N ',' eol (seriesFrame f.2)) else t p) texts

end Verif
