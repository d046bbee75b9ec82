import Verif.Model.Tables

/-!
# What the text of a table means

Written without the functions that read and write tables.
-/

namespace Verif

/-- a word: characters other than blanks and ends of lines -/
def IsTableWord (w : List Char) : Prop := w ≠ [] ∧ ∀ c ∈ w, c ≠ ' ' ∧ c ≠ '\t' ∧ c ≠ '\n' ∧ c ≠ '\r'

/-- spaces and tabulations -/
def Blanks (b : List Char) : Prop := ∀ c ∈ b, c = ' ' ∨ c = '\t'

/-- The line `l` has the words `ws`, with any blanks before, between and after them. -/
inductive LineHas : List (List Char) → List Char → Prop
  | blank {b} : Blanks b → LineHas [] b
  | last {b w} : Blanks b → IsTableWord w → LineHas [w] (b ++ w)
  | cons {b w c ws l} : Blanks b → IsTableWord w → c = ' ' ∨ c = '\t' → LineHas ws l → LineHas (w :: ws) (b ++ w ++ c :: l)

/-- The text has the lines of words `rs`, with any blanks and any lines without words. -/
inductive TextHas : List (List (List Char)) → List Char → Prop
  | nothing {l} : LineHas [] l → TextHas [] l
  | last {r l} : LineHas r l → r ≠ [] → TextHas [r] l
  | skip {l e rs t} : LineHas [] l → e = '\n' ∨ e = '\r' → TextHas rs t → TextHas rs (l ++ e :: t)
  | line {r l e rs t} : LineHas r l → r ≠ [] → e = '\n' ∨ e = '\r' → TextHas rs t → TextHas (r :: rs) (l ++ e :: t)

/-- the number that a word stands for -/
def WordMeans (N : NumberText) (w : List Char) (v : Num) : Prop := (w = ['"', '"'] ∧ v = .nan) ∨ (w ≠ ['"', '"'] ∧ N.read w = some v)

/-- The table has one line for each line of words and as many columns as the first one has words; the value at an hour in a scenario is the
number of the word at this place, `nan` where the line has no more words. -/
structure TableOf (N : NumberText) (recs : List (List (List Char))) (f : Frame) : Prop where
  width : ∃ r rs, recs = r :: rs ∧ f.width = r.length
  lines : f.rows.length = recs.length
  rows : ∀ (h : Nat) (r : List (List Char)) (row : List Num), recs[h]? = some r → f.rows[h]? = some row → r.length ≤ f.width ∧ row.length = f.width ∧
    (∀ (s : Nat) w, r[s]? = some w → ∃ v, row[s]? = some v ∧ WordMeans N w v) ∧ ∀ s, r.length ≤ s → s < f.width → row[s]? = some .nan

/-- Numbers other than `nan` are written as words, and read back. -/
structure NumberText.Faithful (N : NumberText) : Prop where
  word : ∀ v, v ≠ .nan → IsTableWord (N.print v) ∧ N.print v ≠ ['"', '"']
  back : ∀ v, v ≠ .nan → N.read (N.print v) = some v

/-- the end of a line on the systems that Python runs on -/
def IsLinesep (eol : List Char) : Prop := eol = ['\n'] ∨ eol = ['\r', '\n']

/-- the numbers of a line that are not `nan` -/
def numbersOf (row : List Num) : List Num := row.filter (· ≠ .nan)

/-- Tables that can be read back: at least one line, and lines of the same length. -/
structure Frame.Regular (f : Frame) : Prop where
  some : f.rows ≠ []
  wide : 0 < f.width
  rect : ∀ row ∈ f.rows, row.length = f.width

/-- a table without `nan`, or with a single column -/
def Frame.Writable (f : Frame) : Prop := f.Regular ∧ (f.width = 1 ∨ ∀ row ∈ f.rows, ∀ v ∈ row, v ≠ .nan)

end Verif
