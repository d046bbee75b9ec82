import Verif.Props.System

/-!
# C50: which data declarations are accepted; C51: the consistency check
-/

namespace Verif
namespace Props

/-- the declaration and the loaded table have the announced shape -/
def ShapeOk (load : String → R Frame) (p : InputParam) : Prop :=
  match p.value with
  | .number _ => p.timeDependent = false ∧ p.scenarioDependent = false
  | .name n => ∃ f, load n = .ok f ∧ (p.timeDependent = true ∨ p.scenarioDependent = true) ∧
      (p.scenarioDependent = false → f.width = 1) ∧ (p.timeDependent = false → f.rows.length = 1)

/-- **C50**: data are accepted exactly when a constant is given as a number, or a series as a file that can be loaded,
with one column if it does not depend on the scenario and one line if it does not depend on time; a refusal that does not
come from loading the file is a `ValueError`. -/
theorem c50_accepted (load : String → R Frame) (hl : ∀ n f, load n = .ok f → f.Rectangular) (p : InputParam)
    (z : Option Scenarization) :
    ((∃ d, buildData load p z = .ok d) ↔ ShapeOk load p) ∧
    ∀ x, buildData load p z = .error x → (∃ n, p.value = .name n ∧ load n = .error x) ∨ ∃ m, x = .valueError m := by
  unfold buildData ShapeOk
  cases hv : p.value with
  | number v =>
    simp only
    split_ifs with h
    · simp only [Bool.or_eq_true] at h
      refine ⟨⟨fun ⟨d, hd⟩ => (by cases hd), fun ⟨h1, h2⟩ => ?_⟩, fun x hx => .inr ⟨_, (Except.error.inj hx).symm⟩⟩
      rw [h1, h2] at h
      simp at h
    · simp only [Bool.or_eq_true, not_or, Bool.not_eq_true] at h
      exact ⟨⟨fun _ => h, fun _ => ⟨_, rfl⟩⟩, fun x hx => (by cases hx)⟩
  | name n =>
    simp only
    cases hn : load n with
    | error x =>
      refine ⟨⟨fun ⟨d, hd⟩ => (by cases hd), fun ⟨f, hf, _⟩ => (by cases hf)⟩, fun y hy => .inl ⟨n, rfl, ?_⟩⟩
      cases hy
      exact hn
    | ok f =>
      rw [ok_bind]
      have hrect := hl n f hn
      have hser : (∃ d, f.toTimeSeries = .ok d) ↔ f.width = 1 := by
        unfold Frame.toTimeSeries
        split_ifs with h
        · exact ⟨fun ⟨d, hd⟩ => (by cases hd), fun h' => absurd h' h⟩
        · refine ⟨fun _ => not_not.1 h, fun _ => ?_⟩
          obtain ⟨vs, hvs⟩ : ∃ vs, appendAll (fun row => pyIndex row 0) f.rows = .ok vs := by
            refine appendAll_ok_of_all.2 fun row hrow => ?_
            have := hrect row hrow
            rw [not_not.1 h] at this
            obtain ⟨v, rfl⟩ := List.length_eq_one_iff.1 this
            exact ⟨v, rfl⟩
          rw [hvs]
          exact ⟨_, rfl⟩
      have hser' : ∀ x, f.toTimeSeries = .error x → ∃ m, x = .valueError m := by
        intro x hx
        by_cases hw : f.width = 1
        · obtain ⟨d, hd⟩ := hser.2 hw
          rw [hd] at hx
          cases hx
        · unfold Frame.toTimeSeries at hx
          rw [if_pos hw] at hx
          exact ⟨_, (Except.error.inj hx).symm⟩
      have hsc : (∃ d, f.toScenarioSeries = .ok d) ↔ f.rows.length = 1 := by
        unfold Frame.toScenarioSeries
        rw [List.length_eq_one_iff]
        constructor
        · rintro ⟨d, hd⟩
          split at hd
          · rename_i row hrow
            exact ⟨row, hrow⟩
          · cases hd
        · rintro ⟨row, hrow⟩
          rw [hrow]
          exact ⟨_, rfl⟩
      have hsc' : ∀ x, f.toScenarioSeries = .error x → ∃ m, x = .valueError m := by
        intro x hx
        unfold Frame.toScenarioSeries at hx
        split at hx
        · cases hx
        · exact ⟨_, (Except.error.inj hx).symm⟩
      cases ht : p.timeDependent <;> cases hs : p.scenarioDependent
      · simp
      · simp only [Bool.and_true, Bool.false_eq_true, if_false, if_true, or_true, true_and, reduceCtorEq, false_implies,
          Except.ok.injEq, exists_eq_left', forall_const]
        rw [← hsc]
        constructor
        · constructor
          · rintro ⟨d, hd⟩
            obtain ⟨u, hu, _⟩ := bind_ok_iff.1 hd
            exact ⟨u, hu⟩
          · rintro ⟨u, hu⟩
            rw [hu]
            exact ⟨_, rfl⟩
        · intro x hx
          right
          cases hu : f.toScenarioSeries with
          | error y => rw [hu] at hx; cases hx; exact hsc' _ hu
          | ok u => rw [hu] at hx; cases hx
      · simp only [Bool.and_false, Bool.false_eq_true, if_false, if_true, true_or, true_and, reduceCtorEq, false_implies,
          Except.ok.injEq, exists_eq_left', forall_const, and_true]
        rw [← hser]
        constructor
        · constructor
          · rintro ⟨d, hd⟩
            obtain ⟨u, hu, _⟩ := bind_ok_iff.1 hd
            exact ⟨u, hu⟩
          · rintro ⟨u, hu⟩
            rw [hu]
            exact ⟨_, rfl⟩
        · intro x hx
          right
          cases hu : f.toTimeSeries with
          | error y => rw [hu] at hx; cases hx; exact hser' _ hu
          | ok u => rw [hu] at hx; cases hx
      · simp

/-- a file with two columns is refused for a parameter that does not depend on the scenario, and accepted for one that
does -/
example : let load : String → R Frame := fun _ => .ok ⟨2, [[1, 2], [3, 4]]⟩
    (∃ d, buildData load ⟨"p", true, true, .name "f", none⟩ none = .ok d) ∧
    (∃ m, buildData load ⟨"p", true, false, .name "f", none⟩ none = .error (.valueError m)) ∧
    ∀ n f, load n = .ok f → f.Rectangular :=
  ⟨⟨_, rfl⟩, ⟨_, rfl⟩, fun n f h => by cases h; intro row hrow; simp at hrow; rcases hrow with rfl | rfl <;> rfl⟩

/-- **C51**: the consistency check passes exactly when the model of every component of the study has its identifier
among those of the given models; otherwise it raises a `ValueError`. -/
theorem c51_consistency (study : Dict String Component) (models : Dict String Model) :
    ((∀ k c, (k, c) ∈ study → ∃ m, Dict.get? models c.model.id = some m) → consistencyCheck study models = .ok true) ∧
    ((∃ k c, (k, c) ∈ study ∧ Dict.get? models c.model.id = none) → ∃ m, consistencyCheck study models = .error (.valueError m)) := by
  induction study with
  | nil => exact ⟨fun _ => rfl, fun ⟨k, c, h, _⟩ => (by cases h)⟩
  | cons kc rest ih =>
    obtain ⟨k0, c0⟩ := kc
    unfold consistencyCheck
    constructor
    · intro h
      have h0 := h k0 c0 (by simp)
      rw [Dict.contains_iff.2 (Dict.mem_keys_iff.2 h0)]
      exact ih.1 fun k c hm => h k c (List.mem_cons.2 (.inr hm))
    · rintro ⟨k, c, hm, hc⟩
      split_ifs with h0
      · exact ⟨_, rfl⟩
      · rcases List.mem_cons.1 hm with heq | hm
        · cases heq
          rw [Dict.contains_false_iff.2 hc] at h0
          simp at h0
        · exact ih.2 ⟨k, c, hm, hc⟩

example : (∃ m, consistencyCheck [("a", ⟨{ id := "m" }, "a"⟩), ("b", ⟨{ id := "n" }, "b"⟩)] [("m", { id := "m" })] = .error (.valueError m)) ∧
    consistencyCheck [("a", ⟨{ id := "m" }, "a"⟩), ("b", ⟨{ id := "m" }, "b"⟩)] [("m", { id := "m" })] = .ok true :=
  ⟨⟨_, rfl⟩, rfl⟩

end Props
end Verif
