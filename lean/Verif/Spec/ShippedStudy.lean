import Verif.Spec.Shipped
import Verif.Spec.Data
import Verif.Model.Shipped

/-!
# What a study made of shipped models means

A study is a system file, the tables it refers to, the timesteps of the block and a number of scenarios.  Its meaning is read directly
from the file: each component obeys the rules of the model it names (`Spec/Shipped.lean`), its parameters have the declared values, and
its ports receive what the declared connections bring.  Nothing here refers to libraries, networks, data bases or solver problems.
-/

namespace Verif

/-- all shipped rules, by the name that a system file uses -/
def Rules.shipped : List (String × Rules) :=
  Rules.antares.map (fun (n, r) => ("antares-historic." ++ n, r)) ++
    Rules.andromede.map (fun (n, r) => ("andromede-v1-models." ++ n, r)) ++ Rules.pypsa.map fun (n, r) => ("pypsa_models." ++ n, r)

/-- the rules named `library.model` -/
def Rules.named (ref : String) : Option Rules := (Rules.shipped.find? fun e => e.1 = ref).map (·.2)

/-- what a component sends on a field of one of its ports, if it defines it -/
def Rules.sends (r : Rules) (port field : String) : Option (Readings → Int → Int → ℚ) :=
  (r.ports.find? fun e => e.1 = port).bind fun e => (e.2.find? fun d => d.1 = field).bind (·.2)

/-- A study. -/
structure StudyInput where
  /-- the system file -/
  system : InputSystem
  /-- the tables -/
  load : String → R Frame
  /-- the timesteps of the block -/
  steps : List Int
  /-- number of scenarios -/
  scenarios : Nat

namespace StudyInput

/-- all declared components -/
def declared (I : StudyInput) : List InputComponent := I.system.nodes ++ I.system.components

/-- the component with the given id -/
def component? (I : StudyInput) (id : String) : Option InputComponent := I.declared.find? fun c => c.id = id

/-- the rules of the component with the given id -/
def rulesOf (I : StudyInput) (id : String) : Option Rules := (I.component? id).bind fun c => Rules.named c.model

/-- the timestep designated by position `t` of the cyclic block -/
def step (I : StudyInput) (t : Int) : Int := I.steps.getD (t % I.steps.length).toNat 0

/-- The instance of variable `n` of a component at `(t, s)`: no timestep if it does not depend on time, no scenario if it does not
depend on the scenario; the block is cyclic. -/
def instance_ (I : StudyInput) (id n : String) (t s : Int) : TermKey :=
  let dep := (((I.rulesOf id).bind fun r => r.variables_.find? fun v => v.1 = n).map (·.2)).getD (false, false)
  ⟨id, n, if dep.1 then some (t % I.steps.length) else none, if dep.2 then some s else none⟩

/-- the declared value of parameter `n` of a component at position `t` of the block and scenario `s` -/
def parameter (I : StudyInput) (id n : String) (t s : Int) : ℚ :=
  match (I.component? id).bind fun c => c.parameters.find? fun p => p.id = n with
  | none => 0
  | some p => ((declaredEntry I.load p (I.step t) s).map Num.toQ).getD 0

/-- the values of the variables and parameters of a component, when `σ` gives the values of the instances of the variables -/
def own (I : StudyInput) (σ : TermKey → ℚ) (id : String) : Readings where
  T := I.steps.length
  S := I.scenarios
  v n t s := σ (I.instance_ id n t s)
  p n t s := I.parameter id n t s
  received _ _ _ _ := 0

/-- what a component sends on a field, if it defines it -/
def sent (I : StudyInput) (σ : TermKey → ℚ) (id port field : String) : Option (Int → Int → ℚ) :=
  ((I.rulesOf id).bind fun r => r.sends port field).map fun f => f (I.own σ id)

/-- what a connection carries: the value sent by the end that defines the field -/
def carried (I : StudyInput) (σ : TermKey → ℚ) (c : InputConnection) (field : String) (t s : Int) : ℚ :=
  match I.sent σ c.component1 c.port1 field, I.sent σ c.component2 c.port2 field with
  | some f, _ => f t s
  | none, some f => f t s
  | none, none => 0

/-- all values of a component: what a port receives on a field is the sum of what the connections of that port carry -/
def readings (I : StudyInput) (σ : TermKey → ℚ) (id : String) : Readings :=
  { I.own σ id with
    received := fun port field t s => (I.system.connections.map fun c =>
      (if c.component1 = id ∧ c.port1 = port then I.carried σ c field t s else 0) +
      (if c.component2 = id ∧ c.port2 = port then I.carried σ c field t s else 0)).sum }

/-- `σ` satisfies the rules of all components, at all timesteps of the block and in all scenarios -/
def Accepts (I : StudyInput) (σ : TermKey → ℚ) : Prop :=
  ∀ c ∈ I.declared, ∀ r, Rules.named c.model = some r → ∀ t s : Nat, t < I.steps.length → s < I.scenarios →
    r.accepts (I.readings σ c.id) t s

/-- the sum of the costs of all components -/
def cost (I : StudyInput) (σ : TermKey → ℚ) : ℚ :=
  (I.declared.map fun c => ((Rules.named c.model).map fun r => r.cost (I.readings σ c.id)).getD 0).sum

/-- The study is well formed: ids are distinct, tables are rectangular, values are finite, there is a timestep and a scenario,
timesteps are not negative, and a parameter is declared to vary only if its model says so. -/
structure Sound (I : StudyInput) : Prop where
  ids : (I.declared.map (·.id)).Nodup
  parameters : ∀ c ∈ I.declared, (c.parameters.map (·.id)).Nodup
  tables : ∀ n f, I.load n = .ok f → f.Rectangular
  finite : ∀ c ∈ I.declared, ∀ p ∈ c.parameters, ∀ t s v, declaredEntry I.load p t s = some v → v.isFin = true
  block : I.steps ≠ []
  steps : ∀ t ∈ I.steps, 0 ≤ t
  scenarios : 0 < I.scenarios
  varying : ∀ c ∈ I.declared, ∀ p ∈ c.parameters, ∀ r, Rules.named c.model = some r → ∀ q ∈ r.parameters, q.1 = p.id →
    (p.timeDependent = true → q.2.1 = true) ∧ (p.scenarioDependent = true → q.2.2 = true)

end StudyInput

/-- the libraries are read from shipped files -/
def ShippedLibraries (libs : Dict String Library) : Prop :=
  ∀ k l, Dict.get? libs k = some l → ∃ f ∈ [Shipped.antaresInput, Shipped.andromedeInput, Shipped.pypsaInput],
    f.id = k ∧ resolveLib Shipped.textParser [] f = .ok l

end Verif
