import Verif.Spec.ShippedStudy

/-!
# Studies that can always be satisfied
-/

namespace Verif
namespace StudyInput

/-- Energy that is spilled or not supplied does not earn money: the prices of spilled and unsupplied energy of areas, and of energy spilled by storage
units, are not negative. -/
def SlackPaid (I : StudyInput) : Prop :=
  ∀ c ∈ I.declared, ∀ n ∈ ["spillage_cost", "ens_cost", "spill_cost"], ∀ t s : Nat, t < I.steps.length → s < I.scenarios → 0 ≤ I.parameter c.id n t s

/-- all components are of antares-historic or andromede-v1-models -/
def AreaStudy (I : StudyInput) : Prop :=
  ∀ c ∈ I.declared, c.model ∈ Rules.antares.map (fun e => "antares-historic." ++ e.1) ++ Rules.andromede.map fun e => "andromede-v1-models." ++ e.1

/-- the rules of component `c` can be satisfied, whatever the other components do -/
def CanWork (I : StudyInput) (c : InputComponent) : Prop :=
  ∃ σ, ∀ r, Rules.named c.model = some r → ∀ t s : Nat, t < I.steps.length → s < I.scenarios → r.accepts (I.own σ c.id) t s

/-- the models that can stay at rest when the listed parameters are not negative -/
def restful : List (String × List String) :=
  [("antares-historic.area", []), ("antares-historic.load", []), ("antares-historic.link", ["capacity_direct", "capacity_indirect"]),
   ("antares-historic.renewable", []), ("andromede-v1-models.dsr", ["max_load"]), ("andromede-v1-models.electrolyser", ["p_max"])]

/-- All components are areas, loads, links, renewable sources, curtailable loads and electrolysers, and no capacity is negative. -/
def Restful (I : StudyInput) : Prop :=
  ∀ c ∈ I.declared, ∃ ns, (c.model, ns) ∈ restful ∧ ∀ n ∈ ns, ∀ t s : Nat, t < I.steps.length → s < I.scenarios → 0 ≤ I.parameter c.id n t s

end StudyInput
end Verif
