import Verif.Spec.ShippedComplete
import Verif.Spec.Cli

/-!
# A study without one of its components
-/

namespace Verif
/-- the system without the component `id` and its connections -/
def InputSystem.without (s : InputSystem) (id : String) : InputSystem where
  nodes := s.nodes.filter fun c => c.id ≠ id
  components := s.components.filter fun c => c.id ≠ id
  connections := s.connections.filter fun k => k.component1 ≠ id ∧ k.component2 ≠ id

/-- the disk after the component `id` and its connections are removed from the system file `comp` -/
def Disk.without (d : Disk) (comp id : String) : Disk := { d with
  system := fun p => if p = comp then (d.system p).map fun s => s.without id else d.system p }

namespace StudyInput

/-- the study without the component `id` and its connections -/
def without (J : StudyInput) (id : String) : StudyInput := { J with system := J.system.without id }

/-- component `id` defines all that its ports carry, as all components of the shipped models do, except areas, buses and limits of emissions -/
def Sender (J : StudyInput) (id : String) : Prop := ∃ r, J.rulesOf id = some r ∧ ∀ p ∈ r.ports, ∀ f ∈ p.2, f.2.isSome = true

/-- the values `σ` of the variables satisfy the rules of component `id` -/
def Works (J : StudyInput) (σ : TermKey → ℚ) (id : String) : Prop :=
  ∀ r, J.rulesOf id = some r → ∀ t s : Nat, t < J.steps.length → s < J.scenarios → r.accepts (J.own σ id) t s

/-- component `id` sends nothing and costs nothing -/
def AtRest (J : StudyInput) (σ : TermKey → ℚ) (id : String) : Prop :=
  ∀ r, J.rulesOf id = some r → r.cost (J.own σ id) = 0 ∧
    ∀ port field f, r.sends port field = some f → ∀ t s : Nat, t < J.steps.length → s < J.scenarios → f (J.own σ id) t s = 0

/-- component `id` can send nothing, at no cost -/
def CanRest (J : StudyInput) (id : String) : Prop := ∃ σ, J.Works σ id ∧ J.AtRest σ id

/-- component `id` can do nothing else -/
def MustRest (J : StudyInput) (id : String) : Prop := ∀ σ, J.Works σ id → J.AtRest σ id

end StudyInput
end Verif
