import Verif.Spec.ShippedStudy

/-!
# A study with several timesteps and the studies with one timestep

`J` is what remains of the study `I` when only one of its timesteps is kept.
-/

namespace Verif

/-- `J` is the study `I` at timestep `k` of its block alone: the same system file and scenarios, one timestep, and tables where every parameter
has the value that it has in `I` at this timestep. -/
structure StudyInput.AtStep (I : StudyInput) (k : Nat) (J : StudyInput) : Prop where
  system : J.system = I.system
  length : J.steps.length = 1
  scenarios : J.scenarios = I.scenarios
  values : ∀ c ∈ I.declared, ∀ p ∈ c.parameters, ∀ s : Nat, s < I.scenarios →
    declaredEntry J.load p (J.step 0) s = declaredEntry I.load p (I.step k) s

/-- what the values `σ` of the variables are at timestep `k`, in the study with this timestep alone -/
def atStep (k : Nat) (σ : TermKey → ℚ) : TermKey → ℚ := fun x => σ { x with time := x.time.map fun _ => (k : Int) }

/-- the shipped models that say something about each timestep separately: without storage, durations, total or investment -/
def instantModels : List String :=
  ["antares-historic.area", "antares-historic.load", "antares-historic.link", "antares-historic.renewable", "andromede-v1-models.dsr",
   "andromede-v1-models.electrolyser", "pypsa_models.bus", "pypsa_models.load"]

/-- nothing links the timesteps of the study -/
def StudyInput.Unlinked (I : StudyInput) : Prop := ∀ c ∈ I.declared, c.model ∈ instantModels

end Verif
