import Verif.Props.BendersText
import Verif.Props.OutputTextExamples

/-! C100: where it fails, and a concrete case. -/

namespace Verif.Props
open Verif

/-- With a blank at the end of a name, solutions with different candidates have the same text. -/
theorem c100_blank_violated (fmt : Num → String) : ∃ (a b : BendersData) (s : String), a.text fmt = .ok s ∧ b.text fmt = .ok s ∧
    a.candidates ≠ b.candidates := by
  refine ⟨⟨some 3, some 1, some 2, some [("wind", 5)]⟩, ⟨some 3, some 1, some 2, some [("wind ", 5)]⟩, _, rfl, ?_, by decide⟩
  simp only [BendersData.text, bendersEntry, ok_bind, addCandidates, bendersLine]
  rw [show alignLeft 30 "wind " = alignLeft 30 "wind" by decide +kernel]

/-- Solutions that compare equal may have different texts: the comparison looks at the overall cost and the candidates only. -/
theorem c100_equal_differ (fmt : Num → String) (hf : FloatFormat fmt) : ∃ (x : Num) (cs : Dict String Num) (a b : BendersData) (s t : String),
    a.overallCost = some x ∧ b.overallCost = some x ∧ a.candidates = some cs ∧ b.candidates = some cs ∧
    (BendersSolution.mk x cs).eqb ⟨x, cs⟩ = true ∧ a.text fmt = .ok s ∧ b.text fmt = .ok t ∧ s ≠ t := by
  have hp : ∀ y z, BendersData.Plain ⟨some 3, some y, some z, some []⟩ := by
    intro y z cs h c hc
    cases h; cases hc
  refine ⟨3, [], ⟨some 3, some 1, some 2, some []⟩, ⟨some 3, some 2, some 1, some []⟩, _, _, rfl, rfl, rfl, rfl, by decide +kernel, rfl, rfl,
    fun h => ?_⟩
  have := ((c100_same_text_partial fmt hf _ _ (hp 1 2) (hp 2 1) _ _ rfl rfl).1 h).2.1
  revert this
  decide +kernel

/-- a solution with two candidates, one of which has a long name -/
def windData : BendersData :=
  ⟨some 30, some 10, some 20, some [("wind", 5), ("a candidate with a long name, in two words", 7)]⟩

example : windData.text fractionFormat = .ok ("Benders' solution:\n" ++
    "Overall cost                   :         30.0\n" ++
    "Investment cost                :         10.0\n" ++
    "Operational cost               :         20.0\n" ++
    "---------------------------------------------\n" ++
    "wind                           :          5.0\n" ++
    "a candidate with a long name, in two words :          7.0\n") := by decide +kernel

theorem windData_plain : windData.Plain := by
  intro cs h c hc
  cases h
  have : ∀ s : String, '\n' ∉ s.toList → s.toList.getLast? ≠ some ' ' → LabelName s := by
    intro s h1 h2
    refine ⟨h1, fun r e => h2 ?_⟩
    rw [e]; simp
  simp only [List.mem_cons, List.not_mem_nil, or_false] at hc
  rcases hc with rfl | rfl <;> exact this _ (by decide) (by decide)

/-- `c100_same_text_partial` applies to this solution: with another investment, the text differs -/
example (s t : String) (hs : windData.text fractionFormat = .ok s)
    (ht : BendersData.text fractionFormat { windData with operationalCost := some 21 } = .ok t) : s ≠ t := fun h => by
  have := ((c100_same_text_partial fractionFormat fractionFormat_ok windData { windData with operationalCost := some 21 } windData_plain
    windData_plain s t hs ht).1 h).2.2.1
  revert this
  decide +kernel

end Verif.Props
