import Verif.Model.BuilderText
import Verif.Spec.Tables

/-!
# What the text of a scenario builder says
-/

namespace Verif

/-- `w` is the decimal writing of `n` (with zeros in front, perhaps) -/
inductive IsDecimal : List Char → Nat → Prop
  | digit (d : Nat) (h : d < 10) : IsDecimal [Char.ofNat (48 + d)] d
  | more {w : List Char} {n : Nat} (hw : IsDecimal w n) (d : Nat) (h : d < 10) : IsDecimal (w ++ [Char.ofNat (48 + d)]) (10 * n + d)

/-- a whole number, perhaps with a sign, with blanks around it -/
inductive IsWhole : List Char → Int → Prop
  | pos {a w b : List Char} {n : Nat} (ha : Blanks a) (hb : Blanks b) (hw : IsDecimal w n) : IsWhole (a ++ w ++ b) n
  | plus {a w b : List Char} {n : Nat} (ha : Blanks a) (hb : Blanks b) (hw : IsDecimal w n) : IsWhole (a ++ '+' :: w ++ b) n
  | neg {a w b : List Char} {n : Nat} (ha : Blanks a) (hb : Blanks b) (hw : IsDecimal w n) : IsWhole (a ++ '-' :: w ++ b) (-n)

/-- a line `name,year,scenario`; the name has no comma and no end of line -/
def LineSays (l : BuilderLine) (t : List Char) : Prop :=
  ∃ y s, t = l.name.toList ++ ',' :: y ++ ',' :: s ∧ IsWhole y l.year ∧ IsWhole s l.scenario ∧
    ∀ c ∈ l.name.toList, c ≠ ',' ∧ c ≠ '\n' ∧ c ≠ '\r'

/-- the text of a scenario builder: its lines in this order, with blank lines anywhere -/
inductive TextSays : List BuilderLine → List Char → Prop
  | none {b : List Char} (hb : Blanks b) : TextSays [] b
  | last {l : BuilderLine} {t : List Char} (h : LineSays l t) : TextSays [l] t
  | blank {b : List Char} (hb : Blanks b) {e : Char} (he : e = '\n' ∨ e = '\r') {ls : List BuilderLine} {t : List Char} (h : TextSays ls t) :
      TextSays ls (b ++ e :: t)
  | line {l : BuilderLine} {t : List Char} (hl : LineSays l t) {e : Char} (he : e = '\n' ∨ e = '\r') {ls : List BuilderLine} {u : List Char}
      (h : TextSays ls u) : TextSays (l :: ls) (t ++ e :: u)

/-- the words that pandas takes for missing values, according to its documentation -/
def missingNames : List String :=
  ["", "#N/A", "#N/A N/A", "#NA", "-1.#IND", "-1.#QNAN", "-NaN", "-nan", "1.#IND", "1.#QNAN", "<NA>", "N/A", "NA", "NULL", "NaN", "None",
    "n/a", "nan", "null"]

/-- the words that pandas takes for booleans, according to its documentation -/
def booleanNames : List String := ["True", "TRUE", "true", "False", "FALSE", "false"]

/-- a word that pandas takes for a number: a whole number, or another that `float` reads -/
def NumberWord (float : List Char → Option Num) (w : List Char) : Prop := (∃ n, IsWhole w n) ∨ (float w).isSome = true

end Verif
