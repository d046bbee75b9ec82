import Verif.Spec.Compared

/-!
# A study with another load
-/

namespace Verif
namespace StudyInput

/-- `J` is the study `I` with another series for the load `L`, which is connected to the area `A`, once, and to nothing else. -/
structure Reloaded (I J : StudyInput) (L A : String) : Prop extends I.SameParts J where
  load : ∃ c ∈ I.declared, c.id = L ∧ c.model = "antares-historic.load"
  area : ∃ c ∈ I.declared, c.id = A ∧ c.model = "antares-historic.area"
  connection : ∃ k ∈ [(⟨L, "balance_port", A, "balance_port"⟩ : InputConnection), ⟨A, "balance_port", L, "balance_port"⟩],
    (I.system.connections.filter fun k => k.component1 = L ∨ k.component2 = L) = [k]
  others : ∀ c ∈ I.declared, c.id ≠ L → ∀ n, ∀ t s : Nat, t < I.steps.length → s < I.scenarios → J.parameter c.id n t s = I.parameter c.id n t s

/-- how much larger the load `L` is in `J` -/
def moreLoad (I J : StudyInput) (L : String) (t s : Int) : ℚ := J.parameter L "load" t s - I.parameter L "load" t s

/-- what it costs not to supply the additional load, and to spill what a smaller load does not take, at the prices of area `A`, on average over scenarios -/
def slackPrice (I J : StudyInput) (L A : String) : ℚ :=
  (∑ s ∈ Finset.range I.scenarios, ∑ t ∈ Finset.range I.steps.length,
    (I.parameter A "ens_cost" t s * max (I.moreLoad J L t s) 0 + I.parameter A "spillage_cost" t s * max (-I.moreLoad J L t s) 0)) / I.scenarios

end StudyInput
end Verif
