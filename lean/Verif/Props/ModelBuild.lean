import Verif.Props.Libraries
import Verif.Props.Models

/-!
# C54: creating a model
-/

namespace Verif
namespace Props
open Expr

theorem collectPorts_ok_iff (ps : List ModelPort) (acc : Dict String ModelPort) (hacc : acc.keys.Nodup) :
    (∃ out, collectPorts ps acc = .ok out) ↔ (acc.keys ++ ps.map (·.portName)).Nodup := by
  induction ps generalizing acc with
  | nil => simpa [collectPorts] using hacc
  | cons p ps ih =>
    simp only [collectPorts]
    split_ifs with hc
    · have := Dict.contains_iff.1 hc
      refine ⟨fun ⟨_, h⟩ => (by cases h), fun h => ?_⟩
      rw [List.nodup_append] at h
      exact absurd rfl (h.2.2 p.portName this p.portName (by simp))
    · have hn : p.portName ∉ acc.keys := fun hm => hc (Dict.contains_iff.2 hm)
      rw [ih _ (Dict.nodup_set hacc _ _), Dict.set_of_notMem hn]
      simp [Dict.keys]

theorem collectPorts_error (ps : List ModelPort) (acc : Dict String ModelPort) (x : Err) (h : collectPorts ps acc = .error x) :
    ∃ m, x = .valueError m := by
  induction ps generalizing acc with
  | nil => cases h
  | cons p ps ih =>
    simp only [collectPorts] at h
    split_ifs at h
    · exact ⟨_, (Except.error.inj h).symm⟩
    · exact ih _ h

theorem checkDefinitions_ok_iff (ports : Dict String ModelPort) (ds : List PortFieldDefinition) :
    (checkDefinitions ports ds = .ok () ↔
      ∀ d ∈ ds, ∃ p, ports.get? d.portField.port = some p ∧ d.portField.field ∈ p.portType.fields) ∧
    ∀ x, checkDefinitions ports ds = .error x → ∃ m, x = .valueError m := by
  induction ds with
  | nil => exact ⟨⟨fun _ d h => (by cases h), fun _ => rfl⟩, fun x h => (by cases h)⟩
  | cons d ds ih =>
    unfold checkDefinitions
    cases hp : ports.get? d.portField.port with
    | none =>
      refine ⟨⟨fun h => (by cases h), fun h => ?_⟩, fun x h => ⟨_, (Except.error.inj h).symm⟩⟩
      obtain ⟨p, hp', _⟩ := h d (by simp)
      rw [hp] at hp'
      cases hp'
    | some p =>
      simp only
      split_ifs with hf
      · refine ⟨⟨fun h => (by cases h), fun h => ?_⟩, fun x h => ⟨_, (Except.error.inj h).symm⟩⟩
        obtain ⟨p', hp', hf'⟩ := h d (by simp)
        rw [hp] at hp'
        cases hp'
        rw [List.contains_iff_mem.2 hf'] at hf
        simp at hf
      · simp only [Bool.not_eq_true, Bool.not_eq_false', List.contains_iff_mem] at hf
        refine ⟨ih.1.trans ⟨fun h e he => ?_, fun h e he => h e (List.mem_cons.2 (.inr he))⟩, ih.2⟩
        rcases List.mem_cons.1 he with rfl | he
        · exact ⟨p, hp, hf⟩
        · exact h e he

/-- an objective contribution that can be accepted: at most linear, and a single number rather than one per timestep or
scenario -/
def ObjectiveOk (m : Model) (e : Expr) : Prop :=
  (∃ d, computeDegree e = .ok d ∧ d ≤ 1) ∧ computeIndexation m.structures e = .ok ⟨false, false⟩

theorem objectiveCheck_ok_iff (m : Model) (o : Option Expr) : objectiveCheck m o = .ok () ↔ ∀ e, o = some e → ObjectiveOk m e := by
  cases o with
  | none => exact ⟨fun _ e h => (by cases h), fun _ => rfl⟩
  | some e =>
    refine ⟨fun h e' he => by cases he; exact objectiveValid_ok h, fun h => ?_⟩
    obtain ⟨⟨d, hd, hle⟩, hi⟩ := h e rfl
    simp [objectiveCheck, objectiveValid, isLinear, hd, hle, hi]

/-- **C54**: a model is created exactly when its ports have different names, every port field definition is about a field
of one of its ports, and its objective contributions are at most linear and yield a single number.  With different names
inside each kind, the model then contains exactly what was given, in the same order. -/
theorem c54_created (a : ModelArgs) (hc : (a.constraints.map (·.name)).Nodup) (hb : (a.bindingConstraints.map (·.name)).Nodup)
    (hp : (a.parameters.map (·.name)).Nodup) (hv : (a.variables_.map (·.name)).Nodup)
    (hd : (a.portFieldsDefinitions.map (·.portField)).Nodup) :
    ∀ m, mkModel a = .ok m ↔
      (a.ports.map (·.portName)).Nodup ∧
      (∀ d ∈ a.portFieldsDefinitions, ∃ p ∈ a.ports, p.portName = d.portField.port ∧ d.portField.field ∈ p.portType.fields) ∧
      (∀ e, a.objectiveOperational = some e → ObjectiveOk m e) ∧ (∀ e, a.objectiveInvestment = some e → ObjectiveOk m e) ∧
      m.id = a.id ∧ m.interBlockDyn = a.interBlockDyn ∧
      m.objectiveOperational = a.objectiveOperational ∧ m.objectiveInvestment = a.objectiveInvestment ∧
      m.constraints = a.constraints.map (fun c => (c.name, c)) ∧
      m.bindingConstraints = a.bindingConstraints.map (fun c => (c.name, c)) ∧
      m.parameters = a.parameters.map (fun p => (p.name, p)) ∧ m.variables_ = a.variables_.map (fun v => (v.name, v)) ∧
      m.ports = a.ports.map (fun p => (p.portName, p)) ∧
      m.portFieldsDefinitions = a.portFieldsDefinitions.map (fun d => (d.portField, d)) := by
  intro m
  have of : ∀ {κ α : Type} [DecidableEq κ] (l : List α) (f : α → κ), (l.map f).Nodup →
      Dict.ofItems (l.map fun x => (f x, x)) = l.map fun x => (f x, x) := by
    intro κ α _ l f h
    exact Dict.ofItems_of_nodup (by rw [List.map_map]; exact h)
  have hports : ∀ (l : List ModelPort), (l.map (·.portName)).Nodup → ∀ n f, (∃ p, Dict.get? (l.map fun p => (p.portName, p)) n = some p ∧ f ∈ p.portType.fields) ↔
      ∃ p ∈ l, p.portName = n ∧ f ∈ p.portType.fields := by
    intro l hl n f
    have hnd : (Dict.keys (l.map fun p => (p.portName, p))).Nodup := by
      simp only [Dict.keys, List.map_map]; exact hl
    constructor
    · rintro ⟨p, hp, hf⟩
      have := Dict.mem_of_get? hp
      simp only [List.mem_map, Prod.mk.injEq] at this
      obtain ⟨q, hq, h1, rfl⟩ := this
      exact ⟨q, hq, h1, hf⟩
    · rintro ⟨p, hp, rfl, hf⟩
      exact ⟨p, Dict.get?_of_mem hnd (List.mem_map.2 ⟨p, hp, rfl⟩), hf⟩
  have hvals : ∀ l : List PortFieldDefinition, Dict.values (l.map fun d => (d.portField, d)) = l := by
    intro l; simp [Dict.values, Function.comp_def]
  unfold mkModel
  rw [of _ (fun c : Constraint => c.name) hc, of _ (fun c : Constraint => c.name) hb, of _ (fun c : Parameter => c.name) hp,
    of _ (fun c : Variable => c.name) hv, of _ (fun c : PortFieldDefinition => c.portField) hd]
  constructor
  · intro h
    obtain ⟨ports, hps, h⟩ := bind_ok_iff.1 h
    obtain ⟨rfl, hnd⟩ := collectPorts_eq a.ports [] ports (by simp [Dict.keys]) hps
    have hnames : (a.ports.map (·.portName)).Nodup := by simpa [Dict.keys, Function.comp_def] using hnd
    unfold Model.make at h
    simp only [bind_ok_iff, Except.ok.injEq] at h
    obtain ⟨_, h1, _, h2, _, h3, rfl⟩ := h
    rw [hvals] at h3
    refine ⟨hnames, fun d hdm => ?_, (objectiveCheck_ok_iff _ _).1 h1, (objectiveCheck_ok_iff _ _).1 h2, rfl, rfl, rfl, rfl, rfl, rfl,
      rfl, rfl, rfl, rfl⟩
    exact (hports a.ports hnames _ _).1 ((checkDefinitions_ok_iff _ _).1.1 h3 d hdm)
  · rintro ⟨hn, hdef, h1, h2, e1, e2, e3, e4, e5, e6, e7, e8, e9, e10⟩
    obtain ⟨ports, hps⟩ := (collectPorts_ok_iff a.ports [] (by simp [Dict.keys])).2 (by simpa [Dict.keys] using hn)
    obtain ⟨hpe, -⟩ := collectPorts_eq a.ports [] ports (by simp [Dict.keys]) hps
    rw [hps, ok_bind]
    have hm : (⟨a.id, a.constraints.map (fun c => (c.name, c)), a.bindingConstraints.map (fun c => (c.name, c)), a.interBlockDyn,
        a.parameters.map (fun c => (c.name, c)), a.variables_.map (fun c => (c.name, c)), a.objectiveOperational,
        a.objectiveInvestment, ports, a.portFieldsDefinitions.map (fun d => (d.portField, d))⟩ : Model) = m := by
      cases m
      simp only at e1 e2 e3 e4 e5 e6 e7 e8 e9 e10
      subst e1 e2 e3 e4 e5 e6 e7 e8 e9 e10
      rw [hpe]
      rfl
    rw [hm]
    unfold Model.make
    rw [e3, e4, e9, e10, hvals, (objectiveCheck_ok_iff _ _).2 h1, ok_bind, (objectiveCheck_ok_iff _ _).2 h2, ok_bind,
      (checkDefinitions_ok_iff _ _).1.2 (fun d hdm => (hports a.ports hn _ _).2 (hdef d hdm)), ok_bind]

/-- Names that are not different are not refused, except those of ports: of two constraints, parameters or variables with
the same name only the last one is kept. -/
theorem c54_duplicate_dropped : ∃ (a : ModelArgs) (m : Model), mkModel a = .ok m ∧ a.constraints.length = 2 ∧ m.constraints.length = 1 :=
  ⟨⟨"m", [⟨"c", var "x", lit 0, lit 1, .operational⟩, ⟨"c", var "y", lit 0, lit 1, .operational⟩], [], [], [], none, none, false, [], []⟩,
    _, rfl, rfl, rfl⟩

/-- a model with a port, a definition, a variable and an objective is created; without the port it is not -/
example : let d : PortFieldDefinition := ⟨⟨"out", "flow"⟩, var "x"⟩
    let v : Variable := ⟨"x", .continuous, none, none, ⟨false, false⟩, .operational⟩
    (∃ m, mkModel { id := "m", variables_ := [v], ports := [⟨⟨"t", ["flow"]⟩, "out"⟩], portFieldsDefinitions := [d], objectiveOperational := some (var "x") } = .ok m) ∧
    (∃ e, mkModel { id := "m", variables_ := [v], ports := [⟨⟨"t", ["other"]⟩, "out"⟩], portFieldsDefinitions := [d] } = .error (.valueError e)) ∧
    ∃ e, mkModel { id := "m", variables_ := [v], portFieldsDefinitions := [d] } = .error (.valueError e) :=
  ⟨⟨_, rfl⟩, ⟨_, rfl⟩, _, rfl⟩

end Props
end Verif
