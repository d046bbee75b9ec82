import Verif.Lemmas.RotatedShipped
import Verif.Props.RotatedKept
import Verif.Props.ScenariosExamples

/-!
# C85 for studies written with the shipped libraries
-/

namespace Verif.Props
open Verif Verif.Doc Verif.Shipped Verif.OptCtx

theorem study_later_by (r : Int) (I : StudyInput) (σ : TermKey → ℚ) : I.LaterBy r σ (later r I.steps.length σ) := by
  intro c n s
  refine ⟨rfl, fun t => ?_⟩
  unfold later
  simp only [Option.map_some, Int.emod_add_emod]

theorem study_earlier_by (r : Int) (I : StudyInput) (σ' : TermKey → ℚ) : I.LaterBy r (later (-r) I.steps.length σ') σ' := by
  intro c n s
  refine ⟨rfl, fun t => ?_⟩
  unfold later
  simp only [Option.map_some, Int.emod_add_emod]
  congr 3
  rw [add_neg_cancel_right]

theorem rotated_accepts {r : Int} {I J : StudyInput} (h : I.Rotated r J) (hs : I.Sound) (hck : I.Clockless) {σ τ : TermKey → ℚ}
    (ha : I.LaterBy r σ τ) : (J.Accepts τ ↔ I.Accepts σ) ∧ J.cost τ = I.cost σ := by
  constructor
  · unfold StudyInput.Accepts
    rw [h.declared, h.length, h.scenarios]
    refine forall_congr' fun c => forall_congr' fun hc => forall_congr' fun u => forall_congr' fun hr => ?_
    have ht := Rules.named_timeless hr (hck c hc)
    have hat : ∀ (s : Nat), s < I.scenarios → ∀ t : Int, u.accepts (J.readings τ c.id) t s ↔ u.accepts (I.readings σ c.id) (t + r) s :=
      fun s hsc t => ht.accepts _ _ _ hs.scenarios (h.readings hs hck ha hc hr) t s hsc
    have hper : ∀ (s : Nat), s < I.scenarios → ∀ t : Int, u.accepts (I.readings σ c.id) (t + I.steps.length) s ↔ u.accepts (I.readings σ c.id) t s :=
      fun s hsc t => (ht.accepts _ _ _ hs.scenarios ((StudyInput.Rotated.turn I).readings hs hck (StudyInput.Rotated.laterBy_turn I σ) hc hr) t s hsc).symm
    constructor
    · intro g t s ht hsc
      exact (periodic_all (A := fun t => u.accepts (I.readings σ c.id) t s) (hper s hsc) r).1 (fun t ht => (hat s hsc t).1 (g t s ht hsc)) t ht
    · intro g t s ht hsc
      exact (hat s hsc t).2 ((periodic_all (A := fun t => u.accepts (I.readings σ c.id) t s) (hper s hsc) r).2 (fun t ht => g t s ht hsc) t ht)
  · unfold StudyInput.cost
    rw [h.declared]
    congr 1
    refine List.map_congr_left fun c hc => ?_
    rcases hr : Rules.named c.model with _ | u
    · rfl
    · exact (Rules.named_timeless hr (hck c hc)).cost _ _ _ hs.scenarios (h.readings hs hck ha hc hr)

/-- **C85, studies written with the shipped libraries.** In a study without short-term storages, read all time series `r` timesteps later in the
cyclic block: the values of the variables, read `r` timesteps later, are accepted exactly when they were, and cost the same; the least cost is
the same. -/
theorem c85_shipped_study (r : Int) (I J : StudyInput) (h : I.Rotated r J) (hs : I.Sound) (hck : I.Clockless) :
    (∀ σ, (J.Accepts (later r I.steps.length σ) ↔ I.Accepts σ) ∧ J.cost (later r I.steps.length σ) = I.cost σ) ∧
    ∀ c, LeastCost J.Accepts J.cost c ↔ LeastCost I.Accepts I.cost c := by
  refine ⟨fun σ => rotated_accepts h hs hck (study_later_by r I σ), fun c => ?_⟩
  have f1 : ∀ σ, I.Accepts σ → ∃ σ', J.Accepts σ' ∧ J.cost σ' = I.cost σ := by
    intro σ hσ
    obtain ⟨a, b⟩ := rotated_accepts h hs hck (study_later_by r I σ)
    exact ⟨_, a.2 hσ, b⟩
  have f2 : ∀ σ', J.Accepts σ' → ∃ σ, I.Accepts σ ∧ I.cost σ = J.cost σ' := by
    intro σ' hσ'
    obtain ⟨a, b⟩ := rotated_accepts h hs hck (study_earlier_by r I σ')
    exact ⟨_, a.1 hσ', b.symm⟩
  exact ⟨LeastCost.transfer f2 f1, LeastCost.transfer f1 f2⟩

/-! ## Examples -/

theorem weather_rotated (a b : List ℚ) (hl : b.length = a.length) : (weatherStudy a b).Rotated 1 (weatherStudy b a) where
  system := rfl
  length := rfl
  scenarios := hl
  values c hc p hp t s hs := by
    have hs : s < a.length := hs
    have hstep : ∀ t, (weatherStudy b a).step t = if t % 2 = 0 then 0 else 1 := by
      intro t
      show [(0 : Int), 1].getD (t % 2).toNat 0 = _
      rcases Int.emod_two_eq_zero_or_one t with e | e <;> rw [e] <;> rfl
    have hstep' : ∀ t, (weatherStudy a b).step t = if t % 2 = 0 then 0 else 1 := by
      intro t
      show [(0 : Int), 1].getD (t % 2).toNat 0 = _
      rcases Int.emod_two_eq_zero_or_one t with e | e <;> rw [e] <;> rfl
    simp only [weather_declared, weather, List.cons_append, List.nil_append, List.mem_cons, List.not_mem_nil, or_false] at hc
    rcases hc with rfl | rfl | rfl <;> simp only [List.mem_cons, List.not_mem_nil, or_false] at hp
    · rcases hp with rfl | rfl <;> rfl
    · subst hp
      rw [hstep, hstep', weather_entry (a := b) (b := a) hl.symm (by split_ifs <;> simp) (hl ▸ hs),
        weather_entry hl (by split_ifs <;> simp) hs]
      rcases Int.emod_two_eq_zero_or_one t with e | e
      · have : ¬ (t + 1) % 2 = 0 := by omega
        simp [e, this]
      · have : (t + 1) % 2 = 0 := by omega
        simp [e, this]
    · rcases hp with rfl | rfl <;> rfl

theorem weather_clockless (a b : List ℚ) : (weatherStudy a b).Clockless := by
  intro c hc
  simp only [weather_declared, weather, List.cons_append, List.nil_append, List.mem_cons, List.not_mem_nil, or_false] at hc
  rcases hc with rfl | rfl | rfl <;> decide

/-- the command answers the same when the two hours are exchanged -/
example (p p' q q' : ℚ) : ∃ o o' : Printed,
    mainOutput idealSolver textParser (fun _ => firstOrder) 8 (weatherDisk [p, p'] [q, q']) (weatherFlags 2) = some (.ok o) ∧
    mainOutput idealSolver textParser (fun _ => firstOrder) 8 (weatherDisk [q, q'] [p, p']) (weatherFlags 2) = some (.ok o') ∧
    (o'.status = 0 ↔ o.status = 0) ∧ (o.status = 0 → o'.cost = o.cost) := by
  exact c85_command idealSolver idealSolver_right (fun _ => firstOrder) (fun _ => firstOrder_valid) 8
    (weatherDisk [p, p'] [q, q']) (weatherDisk [q, q'] [p, p']) (weatherFlags 2) (weatherFlags 2)
    (weather_command (a := [p, p']) (b := [q, q']) Nat.two_pos rfl) (Nat.le_refl _)
    (weather_command (a := [q, q']) (b := [p, p']) Nat.two_pos rfl) (Nat.le_refl _) 1
    (weather_rotated [p, p'] [q, q'] rfl) (weather_clockless _ _)

/-! ## Short-term storages -/

/-- a short-term storage that starts full; its upper rule curve is read from a table -/
def reservoir : InputSystem where
  components := [⟨"S", "antares-historic.short-term-storage", none,
    [⟨"reservoir_capacity", false, false, .number 1, none⟩, ⟨"injection_nominal_capacity", false, false, .number 1, none⟩,
     ⟨"withdrawal_nominal_capacity", false, false, .number 1, none⟩, ⟨"efficiency_injection", false, false, .number 1, none⟩,
     ⟨"efficiency_withdrawal", false, false, .number 1, none⟩, ⟨"lower_rule_curve", false, false, .number 0, none⟩,
     ⟨"upper_rule_curve", true, false, .name "u", none⟩, ⟨"p_max_injection_modulation", false, false, .number 1, none⟩,
     ⟨"p_max_withdrawal_modulation", false, false, .number 1, none⟩, ⟨"inflows", false, false, .number 0, none⟩,
     ⟨"initial_level", false, false, .number 1, none⟩]⟩]
  connections := []

/-- two timesteps, one scenario, and `u` as upper rule curve -/
def reservoirStudy (u : List ℚ) : StudyInput where
  system := reservoir
  load := fun _ => .ok ⟨1, u.map fun q => [.fin q]⟩
  steps := [0, 1]
  scenarios := 1

theorem reservoir_rotated (p q : ℚ) : (reservoirStudy [p, q]).Rotated 1 (reservoirStudy [q, p]) where
  system := rfl
  length := rfl
  scenarios := rfl
  values c hc p' hp t s hs := by
    have hc : c ∈ reservoir.nodes ++ reservoir.components := hc
    have hstep : ∀ u t, (reservoirStudy u).step t = if t % 2 = 0 then 0 else 1 := by
      intro u t
      show [(0 : Int), 1].getD (t % 2).toNat 0 = _
      rcases Int.emod_two_eq_zero_or_one t with e | e <;> rw [e] <;> rfl
    have hs : s < 1 := hs
    obtain rfl : s = 0 := by omega
    simp only [reservoir, List.nil_append, List.mem_cons, List.not_mem_nil, or_false] at hc
    subst hc
    simp only [List.mem_cons, List.not_mem_nil, or_false] at hp
    rw [hstep, hstep]
    rcases Int.emod_two_eq_zero_or_one t with e | e
    · have e' : ¬ (t + 1) % 2 = 0 := by omega
      rw [if_pos e, if_neg e']
      casesm* _ ∨ _ <;> subst hp <;> rfl
    · have e' : (t + 1) % 2 = 0 := by omega
      rw [if_neg (by omega), if_pos e']
      casesm* _ ∨ _ <;> subst hp <;> rfl

/-- **C85, short-term storages are excluded for a reason.** A storage that starts full and must be empty at the second timestep has a solution;
when its rule curve is read one timestep later, it must be empty at the first timestep and has none. -/
theorem c85_storage : (reservoirStudy [1, 0]).Rotated 1 (reservoirStudy [0, 1]) ∧ (∃ σ, (reservoirStudy [1, 0]).Accepts σ) ∧
    ¬ ∃ σ, (reservoirStudy [0, 1]).Accepts σ := by
  refine ⟨reservoir_rotated 1 0, ?_, ?_⟩
  · refine ⟨fun k => if k.var = "level" ∧ k.time = some 0 ∨ k.var = "p_withdrawal" ∧ k.time = some 0 ∨
      k.var = "p_injection" ∧ k.time = some 1 then 1 else 0, ?_⟩
    intro c hc r hr t s ht hs
    have hc : c ∈ reservoir.nodes ++ reservoir.components := hc
    simp only [reservoir, List.nil_append, List.mem_cons, List.not_mem_nil, or_false] at hc
    subst hc
    obtain rfl : r = Rules.shortTermStorage := by cases hr; rfl
    have hs : s < 1 := hs
    have ht : t < 2 := ht
    obtain rfl : s = 0 := by omega
    obtain rfl | rfl : t = 0 ∨ t = 1 := by omega
    · show Rules.shortTermStorage.accepts _ 0 0
      unfold Rules.shortTermStorage
      decide +kernel
    · show Rules.shortTermStorage.accepts _ 1 0
      unfold Rules.shortTermStorage
      decide +kernel
  · rintro ⟨σ, h⟩
    obtain ⟨-, -, ⟨-, hu⟩, hl, -⟩ := h _ (.head _) Rules.shortTermStorage (by rfl) 0 0 (by decide) (by decide)
    simp only [Nat.cast_zero] at hu hl
    rw [hl] at hu
    change (reservoirStudy [0, 1]).parameter "S" "initial_level" 0 0 * (reservoirStudy [0, 1]).parameter "S" "reservoir_capacity" 0 0 ≤
      (reservoirStudy [0, 1]).parameter "S" "upper_rule_curve" 0 0 * (reservoirStudy [0, 1]).parameter "S" "reservoir_capacity" 0 0 at hu
    revert hu
    decide +kernel

end Verif.Props
