import Verif.Spec.Units
import Verif.Spec.BetweenAny

/-!
# A study that lies between two studies
-/

namespace Verif

/-- `K` lies between the studies `I`, counted `m` times, and `J`, counted `1 - m` times: the three have the same components, connections, steps and
scenarios, the loads, capacities and other energies of `K` are the mean of those of `I` and `J`, and the other parameters have the same values in the
three studies. -/
structure StudyInput.Between (m : ℚ) (I J K : StudyInput) : Prop where
  first : K.SameParts I
  second : K.SameParts J
  energies : ∀ c ∈ K.declared, ∀ n ∈ energies, ∀ t s : Nat, t < K.steps.length → s < K.scenarios →
    K.parameter c.id n t s = m * I.parameter c.id n t s + (1 - m) * J.parameter c.id n t s
  others : ∀ c ∈ K.declared, ∀ n, n ∉ Verif.energies → ∀ t s : Nat, t < K.steps.length → s < K.scenarios →
    I.parameter c.id n t s = K.parameter c.id n t s ∧ J.parameter c.id n t s = K.parameter c.id n t s

end Verif
