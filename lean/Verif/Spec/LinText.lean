import Verif.Model.LinText

/-!
# What the text of a linear expression says

Read together with C98.  Numbers are written by the format `{:+g}` of Python, of which only the shape is fixed here: a sign, digits,
possibly a point and digits, possibly the letter `e`, a sign and digits.
-/

namespace Verif

/-- one digit or more -/
def Digits (ds : List Char) : Prop := ds ≠ [] ∧ ∀ d ∈ ds, d.isDigit = true

/-- `+12`, `-2.5`, `+1e-07` -/
inductive SignedNumber : List Char → Prop
  | whole {s : Char} {ds : List Char} : s = '+' ∨ s = '-' → Digits ds → SignedNumber (s :: ds)
  | decimal {s : Char} {ds fs : List Char} : s = '+' ∨ s = '-' → Digits ds → Digits fs → SignedNumber (s :: ds ++ '.' :: fs)
  | wholePower {s z : Char} {ds es : List Char} : s = '+' ∨ s = '-' → z = '+' ∨ z = '-' → Digits ds → Digits es →
      SignedNumber (s :: ds ++ 'e' :: z :: es)
  | power {s z : Char} {ds fs es : List Char} : s = '+' ∨ s = '-' → z = '+' ∨ z = '-' → Digits ds → Digits fs → Digits es →
      SignedNumber (s :: ds ++ '.' :: fs ++ 'e' :: z :: es)

/-- a format of numbers of this shape -/
def NumberFormat (fmt : Num → String) : Prop := ∀ q : ℚ, SignedNumber (fmt (.fin q)).toList

/-- closer than 10⁻¹⁶ -/
def near (a b : ℚ) : Prop := |a - b| < 1 / 10 ^ 16

/-- the coefficients are written alike: both are 1, both are -1, or neither and the numbers have the same text -/
def SameCoefficient (fmt : Num → String) (a b : ℚ) : Prop :=
  near a 1 ∧ near b 1 ∨ near a (-1) ∧ near b (-1) ∨
    ¬ near a 1 ∧ ¬ near b 1 ∧ ¬ near a (-1) ∧ ¬ near b (-1) ∧ fmt (.fin a) = fmt (.fin b)

/-- the constants are written alike: both are 0, or neither and the numbers have the same text -/
def SameConstant (fmt : Num → String) (a b : ℚ) : Prop :=
  near a 0 ∧ near b 0 ∨ ¬ near a 0 ∧ ¬ near b 0 ∧ fmt (.fin a) = fmt (.fin b)

/-- identifiers of components that cannot be taken for the end of a number: not empty, no point, not starting with a digit, nor with `e+`
or `e-` -/
def ReadableComponent (c : String) : Prop :=
  '.' ∉ c.toList ∧ ∃ x r, c.toList = x :: r ∧ x.isDigit = false ∧ ∀ z r', x = 'e' → r = z :: r' → z ≠ '+' ∧ z ≠ '-'

/-- a term `q · component.var[time, scenario]` with a finite coefficient and readable names -/
structure ReadableTerm (t : Term) (q : ℚ) : Prop where
  coefficient : t.coefficient = .fin q
  component : ReadableComponent t.key.component
  var : '[' ∉ t.key.var.toList

/-- linear expressions whose numbers are finite and whose names are readable -/
structure Readable (e : LinExpr) : Prop where
  terms : ∀ t ∈ e.terms.values, ∃ q, ReadableTerm t q
  constant : ∃ q, e.constant = .fin q

/-- the text of a time or scenario index -/
def saidIndex : Option Int → String
  | none => "None"
  | some n => toString n

open Classical in
/-- what is said of a term: its coefficient with its sign (the sign only for 1 and -1), then `component.variable[time,scenario]` -/
noncomputable def saidTerm (fmt : Num → String) (t : Term) (q : ℚ) : String :=
  String.join [if near q 1 then "+" else if near q (-1) then "-" else fmt (.fin q), t.key.component, ".", t.key.var, "[",
    saidIndex t.key.time, ",", saidIndex t.key.scenario, "]"]

/-- `texts` are what is said of the terms, one after the other -/
def SaidTerms (fmt : Num → String) (ts : List Term) (texts : List String) : Prop :=
  List.Forall₂ (fun t s => ∃ q, t.coefficient = .fin q ∧ s = saidTerm fmt t q) ts texts

end Verif
