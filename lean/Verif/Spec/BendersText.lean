import Verif.Model.BendersText
import Verif.Spec.OutputText

/-!
# What the text of a Benders solution says

Read together with C100.
-/

namespace Verif

/-- names on one line that do not end with a blank -/
def LabelName (s : String) : Prop := '\n' ∉ s.toList ∧ ∀ r, s.toList ≠ r ++ [' ']

/-- a solution whose candidates have such names -/
def BendersData.Plain (b : BendersData) : Prop := ∀ cs, b.candidates = some cs → ∀ c ∈ cs, LabelName c.1

/-- `text` has a line with the name `label`, blanks up to column 30, a colon, and the number `value` written up to column 45 -/
def ShowsLine (text label value : String) : Prop :=
  ∃ before after : String, ∃ j k : Nat, text.toList =
      before.toList ++ '\n' :: (label.toList ++ (List.replicate j ' ' ++ (" : ".toList ++ (List.replicate k ' ' ++ (value.toList ++ '\n' :: after.toList))))) ∧
    label.length + j = max 30 label.length ∧ k + value.length = max 12 value.length

end Verif
