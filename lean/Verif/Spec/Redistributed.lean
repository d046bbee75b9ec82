import Verif.Spec.Compared

/-!
# A study in which the load of an area is divided otherwise
-/

namespace Verif
namespace StudyInput

/-- `J` is the study `I` with other series for the loads `Ls`, which have the same total.  Each of them is connected to the area `A`, once, and to nothing
else. -/
structure Redistributed (I J : StudyInput) (A : String) (Ls : List String) : Prop extends I.SameParts J where
  once : Ls.Nodup
  loads : ∀ L ∈ Ls, ∃ c ∈ I.declared, c.id = L ∧ c.model = "antares-historic.load"
  area : ∃ c ∈ I.declared, c.id = A ∧ c.model = "antares-historic.area"
  connection : ∀ L ∈ Ls, ∃ k ∈ [(⟨L, "balance_port", A, "balance_port"⟩ : InputConnection), ⟨A, "balance_port", L, "balance_port"⟩],
    (I.system.connections.filter fun k => k.component1 = L ∨ k.component2 = L) = [k]
  others : ∀ c ∈ I.declared, c.id ∉ Ls → ∀ n, ∀ t s : Nat, t < I.steps.length → s < I.scenarios → J.parameter c.id n t s = I.parameter c.id n t s
  total : ∀ t s : Nat, t < I.steps.length → s < I.scenarios →
    (Ls.map fun L => J.parameter L "load" t s).sum = (Ls.map fun L => I.parameter L "load" t s).sum

end StudyInput
end Verif
