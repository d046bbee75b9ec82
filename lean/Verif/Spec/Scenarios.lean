import Verif.Spec.Rearranged

/-!
# A study with several scenarios and the studies with one scenario

`J` is what remains of the study `I` when only one of its scenarios is kept.
-/

namespace Verif

/-- `J` is the study `I` in scenario `s` alone: the same system file and timesteps, one scenario, and tables where every parameter has the value
that it has in `I` in scenario `s`. -/
structure StudyInput.InScenario (I : StudyInput) (s : Nat) (J : StudyInput) : Prop where
  system : J.system = I.system
  steps : J.steps = I.steps
  scenarios : J.scenarios = 1
  values : ∀ c ∈ I.declared, ∀ p ∈ c.parameters, ∀ t ∈ I.steps, declaredEntry J.load p t 0 = declaredEntry I.load p t s

/-- what the values `σ` of the variables are in scenario `s`, in the study with this scenario alone -/
def inScenario (s : Nat) (σ : TermKey → ℚ) : TermKey → ℚ := fun k => σ { k with scenario := k.scenario.map fun _ => (s : Int) }

/-- All choices can be made after the scenario is known: every variable of the models that the study uses depends on the scenario. -/
def StudyInput.ChosenPerScenario (I : StudyInput) : Prop :=
  ∀ c ∈ I.declared, ∀ r, Rules.named c.model = some r → ∀ v ∈ r.variables_, v.2.2 = true

/-- the average of `f` over `S` scenarios -/
def average (S : Nat) (f : Nat → ℚ) : ℚ := (∑ s ∈ Finset.range S, f s) / S

end Verif
