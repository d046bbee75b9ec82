import Verif.Spec.ShippedStudy

/-!
# Complete studies made of shipped models

Conditions on a system file, its tables and the timesteps under which the study should be turned into a solver problem: models exist, all
parameters are declared with readable data for the whole block, connections join ports that carry the same fields with one sender, and the
values make sense for the model.
-/

namespace Verif

/-- What the values of the parameters must satisfy at timestep `t` and in scenario `s` for a component to make sense, for the models that
ask something: minima are below maxima, durations are whole numbers of timesteps, divisors are not zero. -/
def Rules.needs : List (String × (Readings → Int → Int → Prop)) :=
  [("antares-historic.link", fun r t s => 0 ≤ r.p "capacity_direct" t s ∧ 0 ≤ r.p "capacity_indirect" t s),
   ("antares-historic.thermal", fun r t s => r.p "p_min_cluster" t s ≤ r.p "p_max_cluster" t s ∧
      r.p "nb_units_min" t s ≤ r.p "nb_units_max" t s ∧ 0 ≤ r.p "nb_units_max" t s ∧
      Whole (r.p "d_min_up" t s) ∧ Whole (r.p "d_min_down" t s)),
   ("antares-historic.short-term-storage", fun r t s =>
      0 ≤ r.p "p_max_injection_modulation" t s * r.p "injection_nominal_capacity" t s ∧
      0 ≤ r.p "p_max_withdrawal_modulation" t s * r.p "withdrawal_nominal_capacity" t s ∧
      r.p "lower_rule_curve" t s * r.p "reservoir_capacity" t s ≤ r.p "upper_rule_curve" t s * r.p "reservoir_capacity" t s),
   ("andromede-v1-models.dsr", fun r t s => 0 ≤ r.p "max_load" t s),
   ("andromede-v1-models.electrolyser", fun r t s => 0 ≤ r.p "p_max" t s),
   ("andromede-v1-models.battery", fun r t s =>
      0 ≤ r.p "p_max_injection_modulation" t s * r.p "injection_nominal_capacity" t s ∧
      0 ≤ r.p "p_max_withdrawal_modulation" t s * r.p "withdrawal_nominal_capacity" t s ∧
      r.p "lower_rule_curve" t s * r.p "reservoir_capacity" t s ≤ r.p "upper_rule_curve" t s * r.p "reservoir_capacity" t s),
   ("pypsa_models.generator", fun r t s => r.p "p_nom_min" t s ≤ r.p "p_nom_max" t s ∧ r.p "efficiency" t s ≠ 0),
   ("pypsa_models.link", fun r t s => r.p "p_nom_min" t s ≤ r.p "p_nom_max" t s),
   ("pypsa_models.storage_unit", fun r t s => r.p "p_nom_min" t s ≤ r.p "p_nom_max" t s ∧
      0 ≤ r.p "p_max_pu" t s * r.p "p_nom_max" t s ∧ 0 ≤ r.p "max_hours" t s * r.p "p_nom_max" t s ∧
      r.p "efficiency_dispatch" t s ≠ 0),
   ("pypsa_models.store", fun r t s => r.p "e_nom_min" t s ≤ r.p "e_nom_max" t s)]

/-- the part of `library.model` before the dot -/
def Rules.libraryOf (ref : String) : String := String.ofList (ref.toList.takeWhile (· ≠ '.'))

/-- The declaration of a parameter can be read: a number if it varies with nothing; else the name of a table that exists, with one column
if it does not depend on the scenario and one line if it does not depend on time. -/
def InputParam.Readable (load : String → R Frame) (p : InputParam) : Prop :=
  match p.value with
  | .number _ => p.timeDependent = false ∧ p.scenarioDependent = false
  | .name n => (p.timeDependent = true ∨ p.scenarioDependent = true) ∧ ∃ f, load n = .ok f ∧
      (p.scenarioDependent = false → f.width = 1) ∧ (p.timeDependent = false → f.rows.length = 1)

/-- The connection joins a port of a component to a port of a component with the same fields, and each field is sent by one of the two. -/
def StudyInput.Joins (I : StudyInput) (k : InputConnection) : Prop :=
  ∃ r1 r2 fs1 fs2, I.rulesOf k.component1 = some r1 ∧ I.rulesOf k.component2 = some r2 ∧ (k.port1, fs1) ∈ r1.ports ∧
    (k.port2, fs2) ∈ r2.ports ∧ fs1.map (·.1) = fs2.map (·.1) ∧
    ∀ f ∈ fs1.map (·.1), (r1.sends k.port1 f).isSome ≠ (r2.sends k.port2 f).isSome

/-- The study is complete, with these libraries. -/
structure StudyInput.Complete (I : StudyInput) (libs : Dict String Library) : Prop where
  /-- every component names a model of a library that is there -/
  models : ∀ c ∈ I.declared, (∃ r, Rules.named c.model = some r) ∧ (Dict.get? libs (Rules.libraryOf c.model)).isSome = true
  /-- every parameter of the model is declared -/
  parameters : ∀ c ∈ I.declared, ∀ r, Rules.named c.model = some r → ∀ q ∈ r.parameters, ∃ p ∈ c.parameters, p.id = q.1
  /-- declarations can be read -/
  readable : ∀ c ∈ I.declared, ∀ p ∈ c.parameters, p.Readable I.load
  /-- and give a value at each timestep of the block and in each scenario -/
  covered : ∀ c ∈ I.declared, ∀ p ∈ c.parameters, ∀ t ∈ I.steps, ∀ s : Nat, s < I.scenarios → ∃ v, declaredEntry I.load p t s = some v
  /-- connections are correct -/
  connections : ∀ k ∈ I.system.connections, I.Joins k
  /-- the values make sense -/
  values : ∀ c ∈ I.declared, ∀ d, (c.model, d) ∈ Rules.needs → ∀ t s : Nat, t < I.steps.length → s < I.scenarios →
    d (I.own (fun _ => 0) c.id) t s

end Verif
