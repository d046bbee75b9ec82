import Verif.Model.OutputText

/-!
# What the text of output values says

Read together with C99.  Python writes different floats differently (`str` of a float can be read back); of the text of a float, only this
is fixed here, and which characters it does not have.
-/

namespace Verif

/-- a way to write floats: different numbers have different texts, which are not empty and have no blank, bracket, comma, parenthesis nor
end of line -/
structure FloatFormat (fmt : Num → String) : Prop where
  injective : ∀ a b, fmt a = fmt b → a = b
  nonempty : ∀ a, fmt a ≠ ""
  chars : ∀ a, ∀ c ∈ (fmt a).toList, c ∉ [' ', '[', ']', ',', '(', ')', '\n']

/-- names on one line, without colon, that do not start with a blank -/
def OneWordName (s : String) : Prop := '\n' ∉ s.toList ∧ ':' ∉ s.toList ∧ ∃ c r, s.toList = c :: r ∧ c ≠ ' '

/-- output values with such names -/
def Output.Plain (o : Output) : Prop :=
  ∀ k ∈ o.components.values, OneWordName k.id ∧ ∀ v ∈ k.variables_.values, '\n' ∉ v.name.toList ∧ ':' ∉ v.name.toList

/-- variables with the same name, the same values and the same mark -/
structure SameVar (v w : OutVar) : Prop where
  name : v.name = w.name
  ignore : v.ignore = w.ignore
  value : ∃ x, v.read = .ok x ∧ w.read = .ok x

/-- components with the same identifier, the same mark and the same variables in the same order -/
structure SameComp (k l : OutComp) : Prop where
  id : k.id = l.id
  ignore : k.ignore = l.ignore
  variables_ : List.Forall₂ SameVar k.variables_.values l.variables_.values

/-- the same components in the same order -/
def SameOutput (o p : Output) : Prop := List.Forall₂ SameComp o.components.values p.components.values

end Verif
