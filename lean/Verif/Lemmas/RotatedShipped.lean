import Verif.Lemmas.Rotated
import Verif.Lemmas.Scenarios

/-! # The rules of the shipped models in a block started at another timestep -/

namespace Verif

/-- `R'` is `R`, read `r` timesteps later; `R` is cyclic, and what does not depend on time does not change. -/
structure LaterReadings (r : Rules) (k : Int) (R R' : Readings) : Prop where
  T : R'.T = R.T
  S : R'.S = R.S
  v : ∀ n t s, R'.v n t s = R.v n (t + k) s
  p : ∀ n t (s : Nat), s < R.S → R'.p n t s = R.p n (t + k) s
  received : ∀ n f t (s : Nat), s < R.S → R'.received n f t s = R.received n f (t + k) s
  vper : ∀ n t s, R.v n (t + R.T) s = R.v n t s
  pper : ∀ n t s, R.p n (t + R.T) s = R.p n t s
  rper : ∀ n f t (s : Nat), s < R.S → R.received n f (t + R.T) s = R.received n f t s
  pconst : ∀ q ∈ r.parameters, q.2.1 = false → ∀ t s, R.p q.1 t s = R.p q.1 0 s
  vconst : ∀ q ∈ r.variables_, q.2.1 = false → ∀ t s, R.v q.1 t s = R.v q.1 0 s

/-- what holds of a component at a timestep does not depend on where the block starts -/
structure Rules.Timeless (r : Rules) : Prop where
  accepts : ∀ k R R', 0 < R.S → LaterReadings r k R R' → ∀ (t : Int) (s : Nat), s < R.S → (r.accepts R' t s ↔ r.accepts R (t + k) s)
  cost : ∀ k R R', 0 < R.S → LaterReadings r k R R' → r.cost R' = r.cost R
  sends : ∀ port fs, (port, fs) ∈ r.ports → ∀ field f, (field, some f) ∈ fs → ∀ k R R', 0 < R.S → LaterReadings r k R R' →
    ∀ (t : Int) (s : Nat), s < R.S → f R' t s = f R (t + k) s

namespace LaterReadings
variable {r : Rules} {k : Int} {R R' : Readings}

theorem expectedTotal (h : LaterReadings r k R R') {f f' : Int → Int → ℚ} (hf : ∀ t (s : Nat), s < R.S → f' t s = f (t + k) s)
    (hp : ∀ t s, f (t + R.T) s = f t s) : R'.expectedTotal f' = R.expectedTotal f := by
  unfold Readings.expectedTotal
  rw [h.S, h.T]
  congr 1
  refine Finset.sum_congr rfl fun s hs => ?_
  rw [← sum_period (f := fun t => f t s) (fun t => hp t s) k]
  exact Finset.sum_congr rfl fun t _ => hf t s (Finset.mem_range.1 hs)

theorem total (h : LaterReadings r k R R') {f f' : Int → ℚ} (hf : ∀ t, f' t = f (t + k)) (hp : ∀ t, f (t + R.T) = f t) :
    Rules.total R' f' = Rules.total R f := by
  unfold Rules.total
  rw [h.T, ← sum_period hp k]
  exact Finset.sum_congr rfl fun t _ => hf t

end LaterReadings

theorem lastSteps_later (d : ℚ) (f : Int → ℚ) (t k : Int) : Rules.lastSteps d (fun u => f (u + k)) t = Rules.lastSteps d f (t + k) := by
  unfold Rules.lastSteps
  refine Finset.sum_bij (fun u _ => u + k) ?_ ?_ ?_ ?_
  · intro u hu
    rw [Finset.mem_Icc] at hu ⊢
    omega
  · intro a _ b _ h
    exact add_right_cancel h
  · intro b hb
    rw [Finset.mem_Icc] at hb
    exact ⟨b - k, by rw [Finset.mem_Icc]; omega, by ring⟩
  · intro u _
    rfl

namespace Rules

theorem area_timeless : Timeless area where
  accepts k R R' h0 h t s hs := by simp only [area, h.v, h.p _ _ _ hs, h.received _ _ _ _ hs]
  cost k R R' h0 h := by
    simp only [area]
    exact h.expectedTotal (fun t s hs => by simp only [h.v, h.p _ _ _ hs]) fun t s => by simp only [h.vper, h.pper]
  sends port fs hp field f hf k R R' h0 h t s hs := by
    simp only [area, List.mem_cons, Prod.mk.injEq, List.not_mem_nil, or_false] at hp
    obtain ⟨rfl, rfl⟩ := hp
    simp only [List.mem_cons, Prod.mk.injEq, List.not_mem_nil, or_false, reduceCtorEq, and_false] at hf

theorem load_timeless : Timeless load where
  accepts _ _ _ _ _ _ _ _ := Iff.rfl
  cost _ _ _ _ _ := rfl
  sends port fs hp field f hf k R R' h0 h t s hs := by
    simp only [load, List.mem_cons, Prod.mk.injEq, List.not_mem_nil, or_false] at hp
    obtain ⟨rfl, rfl⟩ := hp
    simp only [List.mem_cons, Prod.mk.injEq, List.not_mem_nil, or_false, Option.some.injEq] at hf
    obtain ⟨rfl, rfl⟩ := hf
    simp only [h.p _ _ _ hs]

theorem link_timeless : Timeless link where
  accepts k R R' h0 h t s hs := by simp only [link, h.v, h.p _ _ _ hs]
  cost _ _ _ _ _ := rfl
  sends port fs hp field f hf k R R' h0 h t s hs := by
    simp only [link, List.mem_cons, Prod.mk.injEq, List.not_mem_nil, or_false] at hp
    rcases hp with ⟨rfl, rfl⟩ | ⟨rfl, rfl⟩ <;>
      simp only [List.mem_cons, Prod.mk.injEq, List.not_mem_nil, or_false, Option.some.injEq] at hf <;>
      obtain ⟨rfl, rfl⟩ := hf <;> simp only [h.v]

theorem renewable_timeless : Timeless renewable where
  accepts _ _ _ _ _ _ _ _ := Iff.rfl
  cost _ _ _ _ _ := rfl
  sends port fs hp field f hf k R R' h0 h t s hs := by
    simp only [renewable, List.mem_cons, Prod.mk.injEq, List.not_mem_nil, or_false] at hp
    obtain ⟨rfl, rfl⟩ := hp
    simp only [List.mem_cons, Prod.mk.injEq, List.not_mem_nil, or_false, Option.some.injEq] at hf
    obtain ⟨rfl, rfl⟩ := hf
    simp only [h.p _ _ _ hs]

theorem thermal_timeless : Timeless thermal where
  accepts k R R' h0 h t s hs := by
    have c1 : R'.p "d_min_up" 0 0 = R.p "d_min_up" 0 0 := by
      rw [← Nat.cast_zero (R := Int), h.p _ _ 0 h0]
      exact h.pconst ("d_min_up", false, false) (by simp [thermal]) rfl _ _
    have c2 : R'.p "d_min_down" 0 0 = R.p "d_min_down" 0 0 := by
      rw [← Nat.cast_zero (R := Int), h.p _ _ 0 h0]
      exact h.pconst ("d_min_down", false, false) (by simp [thermal]) rfl _ _
    have e1 := lastSteps_later (R.p "d_min_up" 0 0) (fun u => R.v "nb_starting" u s - R.v "nb_failing" u s) t k
    have e2 := lastSteps_later (R.p "d_min_down" 0 0) (fun u => R.v "nb_stopping" u s) t k
    have e3 := lastSteps_later (R.p "d_min_down" 0 0) (fun u => R.p "nb_units_max_variation_backward" u s) t k
    simp only [thermal, h.v, h.p _ _ _ hs, c1, c2, e1, e2, e3, sub_add_eq_add_sub]
  cost k R R' h0 h := by
    simp only [thermal]
    exact h.expectedTotal (fun t s hs => by simp only [h.v, h.p _ _ _ hs]) fun t s => by simp only [h.vper, h.pper]
  sends port fs hp field f hf k R R' h0 h t s hs := by
    simp only [thermal, List.mem_cons, Prod.mk.injEq, List.not_mem_nil, or_false] at hp
    obtain ⟨rfl, rfl⟩ := hp
    simp only [List.mem_cons, Prod.mk.injEq, List.not_mem_nil, or_false, Option.some.injEq] at hf
    obtain ⟨rfl, rfl⟩ := hf
    simp only [h.v]

theorem dsr_timeless : Timeless dsr where
  accepts k R R' h0 h t s hs := by simp only [dsr, h.v, h.p _ _ _ hs]
  cost k R R' h0 h := by
    simp only [dsr]
    exact h.expectedTotal (fun t s hs => by simp only [h.v, h.p _ _ _ hs]) fun t s => by simp only [h.vper, h.pper]
  sends port fs hp field f hf k R R' h0 h t s hs := by
    simp only [dsr, List.mem_cons, Prod.mk.injEq, List.not_mem_nil, or_false] at hp
    obtain ⟨rfl, rfl⟩ := hp
    simp only [List.mem_cons, Prod.mk.injEq, List.not_mem_nil, or_false, Option.some.injEq] at hf
    obtain ⟨rfl, rfl⟩ := hf
    simp only [h.v, h.p _ _ _ hs]

theorem electrolyser_timeless : Timeless electrolyser where
  accepts k R R' h0 h t s hs := by simp only [electrolyser, h.v, h.p _ _ _ hs]
  cost _ _ _ _ _ := rfl
  sends port fs hp field f hf k R R' h0 h t s hs := by
    simp only [electrolyser, List.mem_cons, Prod.mk.injEq, List.not_mem_nil, or_false] at hp
    rcases hp with ⟨rfl, rfl⟩ | ⟨rfl, rfl⟩ <;>
      simp only [List.mem_cons, Prod.mk.injEq, List.not_mem_nil, or_false, Option.some.injEq] at hf <;>
      obtain ⟨rfl, rfl⟩ := hf <;> simp only [h.v, h.p _ _ _ hs]

theorem battery_timeless : Timeless battery where
  accepts k R R' h0 h t s hs := by simp only [battery, h.v, h.p _ _ _ hs, add_right_comm t 1 k]
  cost k R R' h0 h := by
    simp only [battery]
    exact h.expectedTotal (fun t s hs => by simp only [h.v, h.p _ _ _ hs]) fun t s => by simp only [h.vper, h.pper]
  sends port fs hp field f hf k R R' h0 h t s hs := by
    simp only [battery, List.mem_cons, Prod.mk.injEq, List.not_mem_nil, or_false] at hp
    obtain ⟨rfl, rfl⟩ := hp
    simp only [List.mem_cons, Prod.mk.injEq, List.not_mem_nil, or_false, Option.some.injEq] at hf
    obtain ⟨rfl, rfl⟩ := hf
    simp only [h.v]

theorem bus_timeless : Timeless bus where
  accepts k R R' h0 h t s hs := by simp only [bus, h.received _ _ _ _ hs]
  cost _ _ _ _ _ := rfl
  sends port fs hp field f hf k R R' h0 h t s hs := by
    simp only [bus, List.mem_cons, Prod.mk.injEq, List.not_mem_nil, or_false] at hp
    rcases hp with ⟨rfl, rfl⟩ | ⟨rfl, rfl⟩ <;>
      simp only [List.mem_cons, Prod.mk.injEq, List.not_mem_nil, or_false, reduceCtorEq, and_false] at hf

theorem pypsaLoad_timeless : Timeless pypsaLoad where
  accepts _ _ _ _ _ _ _ _ := Iff.rfl
  cost _ _ _ _ _ := rfl
  sends port fs hp field f hf k R R' h0 h t s hs := by
    simp only [pypsaLoad, List.mem_cons, Prod.mk.injEq, List.not_mem_nil, or_false] at hp
    rcases hp with ⟨rfl, rfl⟩ | ⟨rfl, rfl⟩ <;>
      simp only [List.mem_cons, Prod.mk.injEq, List.not_mem_nil, or_false, Option.some.injEq] at hf <;>
      obtain ⟨rfl, rfl⟩ := hf <;> simp only [h.p _ _ _ hs]

theorem generator_timeless : Timeless generator where
  accepts k R R' h0 h t s hs := by
    have e := h.total (f := fun u => R.v "p" u s) (f' := fun u => R'.v "p" u s) (fun u => h.v _ _ _) fun u => h.vper _ _ _
    simp only [generator, h.v, h.p _ _ _ hs] at e ⊢
    rw [← e]
  cost k R R' h0 h := by
    have c1 : R'.p "capital_cost" 0 0 = R.p "capital_cost" 0 0 := by
      rw [← Nat.cast_zero (R := Int), h.p _ _ 0 h0]
      exact h.pconst ("capital_cost", false, false) (by simp [generator]) rfl _ _
    have c2 : R'.v "p_nom" 0 0 = R.v "p_nom" 0 0 := by
      rw [h.v]
      exact h.vconst ("p_nom", false, false) (by simp [generator]) rfl _ _
    simp only [generator, c1, c2]
    congr 1
    exact h.expectedTotal (fun t s hs => by simp only [h.v, h.p _ _ _ hs]) fun t s => by simp only [h.vper, h.pper]
  sends port fs hp field f hf k R R' h0 h t s hs := by
    simp only [generator, List.mem_cons, Prod.mk.injEq, List.not_mem_nil, or_false] at hp
    rcases hp with ⟨rfl, rfl⟩ | ⟨rfl, rfl⟩ <;>
      simp only [List.mem_cons, Prod.mk.injEq, List.not_mem_nil, or_false, Option.some.injEq] at hf <;>
      obtain ⟨rfl, rfl⟩ := hf <;> simp only [h.v, h.p _ _ _ hs]

theorem pypsaLink_timeless : Timeless pypsaLink where
  accepts k R R' h0 h t s hs := by simp only [pypsaLink, h.v, h.p _ _ _ hs]
  cost k R R' h0 h := by
    have c1 : R'.p "capital_cost" 0 0 = R.p "capital_cost" 0 0 := by
      rw [← Nat.cast_zero (R := Int), h.p _ _ 0 h0]
      exact h.pconst ("capital_cost", false, false) (by simp [pypsaLink]) rfl _ _
    have c2 : R'.v "p_nom" 0 0 = R.v "p_nom" 0 0 := by
      rw [h.v]
      exact h.vconst ("p_nom", false, false) (by simp [pypsaLink]) rfl _ _
    simp only [pypsaLink, c1, c2]
    congr 1
    exact h.expectedTotal (fun t s hs => by simp only [h.v, h.p _ _ _ hs]) fun t s => by simp only [h.vper, h.pper]
  sends port fs hp field f hf k R R' h0 h t s hs := by
    simp only [pypsaLink, List.mem_cons, Prod.mk.injEq, List.not_mem_nil, or_false] at hp
    rcases hp with ⟨rfl, rfl⟩ | ⟨rfl, rfl⟩ <;>
      simp only [List.mem_cons, Prod.mk.injEq, List.not_mem_nil, or_false, Option.some.injEq] at hf <;>
      obtain ⟨rfl, rfl⟩ := hf <;> simp only [h.v, h.p _ _ _ hs]

theorem storageUnit_timeless : Timeless storageUnit where
  accepts k R R' h0 h t s hs := by simp only [storageUnit, h.v, h.p _ _ _ hs, sub_add_eq_add_sub t 1 k]
  cost k R R' h0 h := by
    have c1 : R'.p "capital_cost" 0 0 = R.p "capital_cost" 0 0 := by
      rw [← Nat.cast_zero (R := Int), h.p _ _ 0 h0]
      exact h.pconst ("capital_cost", false, false) (by simp [storageUnit]) rfl _ _
    have c2 : R'.v "p_nom" 0 0 = R.v "p_nom" 0 0 := by
      rw [h.v]
      exact h.vconst ("p_nom", false, false) (by simp [storageUnit]) rfl _ _
    simp only [storageUnit, c1, c2]
    congr 1
    exact h.expectedTotal (fun t s hs => by simp only [h.v, h.p _ _ _ hs]) fun t s => by simp only [h.vper, h.pper]
  sends port fs hp field f hf k R R' h0 h t s hs := by
    simp only [storageUnit, List.mem_cons, Prod.mk.injEq, List.not_mem_nil, or_false] at hp
    rcases hp with ⟨rfl, rfl⟩ | ⟨rfl, rfl⟩ <;>
      simp only [List.mem_cons, Prod.mk.injEq, List.not_mem_nil, or_false, Option.some.injEq] at hf <;>
      obtain ⟨rfl, rfl⟩ := hf <;> simp only [h.v]

theorem store_timeless : Timeless store where
  accepts k R R' h0 h t s hs := by simp only [store, h.v, h.p _ _ _ hs, sub_add_eq_add_sub t 1 k]
  cost k R R' h0 h := by
    have c1 : R'.p "capital_cost" 0 0 = R.p "capital_cost" 0 0 := by
      rw [← Nat.cast_zero (R := Int), h.p _ _ 0 h0]
      exact h.pconst ("capital_cost", false, false) (by simp [store]) rfl _ _
    have c2 : R'.v "e_nom" 0 0 = R.v "e_nom" 0 0 := by
      rw [h.v]
      exact h.vconst ("e_nom", false, false) (by simp [store]) rfl _ _
    simp only [store, c1, c2]
    congr 1
    exact h.expectedTotal (fun t s hs => by simp only [h.v, h.p _ _ _ hs]) fun t s => by simp only [h.vper, h.pper]
  sends port fs hp field f hf k R R' h0 h t s hs := by
    simp only [store, List.mem_cons, Prod.mk.injEq, List.not_mem_nil, or_false] at hp
    rcases hp with ⟨rfl, rfl⟩ | ⟨rfl, rfl⟩ <;>
      simp only [List.mem_cons, Prod.mk.injEq, List.not_mem_nil, or_false, Option.some.injEq] at hf <;>
      obtain ⟨rfl, rfl⟩ := hf <;> simp only [h.v]

theorem co2Max_timeless : Timeless co2Max where
  accepts k R R' h0 h t s hs := by
    have e := h.total (f := fun u => R.received "emission_port" "emission" u s) (f' := fun u => R'.received "emission_port" "emission" u s)
      (fun u => h.received _ _ _ _ hs) fun u => h.rper _ _ _ _ hs
    simp only [co2Max, e, h.p _ _ _ hs]
  cost _ _ _ _ _ := rfl
  sends port fs hp field f hf k R R' h0 h t s hs := by
    simp only [co2Max, List.mem_cons, Prod.mk.injEq, List.not_mem_nil, or_false] at hp
    obtain ⟨rfl, rfl⟩ := hp
    simp only [List.mem_cons, Prod.mk.injEq, List.not_mem_nil, or_false, reduceCtorEq, and_false] at hf

theorem co2Eq_timeless : Timeless co2Eq where
  accepts k R R' h0 h t s hs := by
    have e := h.total (f := fun u => R.received "emission_port" "emission" u s) (f' := fun u => R'.received "emission_port" "emission" u s)
      (fun u => h.received _ _ _ _ hs) fun u => h.rper _ _ _ _ hs
    simp only [co2Eq, e, h.p _ _ _ hs]
  cost _ _ _ _ _ := rfl
  sends port fs hp field f hf k R R' h0 h t s hs := by
    simp only [co2Eq, List.mem_cons, Prod.mk.injEq, List.not_mem_nil, or_false] at hp
    obtain ⟨rfl, rfl⟩ := hp
    simp only [List.mem_cons, Prod.mk.injEq, List.not_mem_nil, or_false, reduceCtorEq, and_false] at hf

/-- all shipped models but short-term storages -/
theorem named_timeless {ref : String} {r : Rules} (h : named ref = some r) (hne : ref ≠ "antares-historic.short-term-storage") : Timeless r := by
  unfold named at h
  rw [Option.map_eq_some_iff] at h
  obtain ⟨⟨k, r'⟩, h1, rfl⟩ := h
  have hm := List.mem_of_find?_eq_some h1
  have hk : k = ref := by simpa using List.find?_some h1
  subst hk
  simp only [shipped, antares, andromede, pypsa, List.map_cons, List.map_nil, List.cons_append, List.nil_append, List.mem_cons, Prod.mk.injEq,
    List.not_mem_nil, or_false] at hm
  rcases hm with ⟨-, rfl⟩ | ⟨-, rfl⟩ | ⟨-, rfl⟩ | ⟨-, rfl⟩ | ⟨-, rfl⟩ | ⟨e, rfl⟩ | ⟨-, rfl⟩ | ⟨-, rfl⟩ | ⟨-, rfl⟩ | ⟨-, rfl⟩ | ⟨-, rfl⟩ | ⟨-, rfl⟩ | ⟨-, rfl⟩ | ⟨-, rfl⟩ | ⟨-, rfl⟩ | ⟨-, rfl⟩ | ⟨-, rfl⟩
  · exact area_timeless
  · exact load_timeless
  · exact link_timeless
  · exact renewable_timeless
  · exact thermal_timeless
  · exact absurd (e.trans (by decide)) hne
  · exact dsr_timeless
  · exact electrolyser_timeless
  · exact battery_timeless
  · exact bus_timeless
  · exact pypsaLoad_timeless
  · exact generator_timeless
  · exact pypsaLink_timeless
  · exact storageUnit_timeless
  · exact store_timeless
  · exact co2Max_timeless
  · exact co2Eq_timeless

end Rules

namespace StudyInput

/-- `σ'` are the values `σ`, read `r` timesteps later -/
def LaterBy (r : Int) (I : StudyInput) (σ σ' : TermKey → ℚ) : Prop :=
  ∀ c n s, σ' ⟨c, n, none, s⟩ = σ ⟨c, n, none, s⟩ ∧
    ∀ t : Int, σ' ⟨c, n, some (t % I.steps.length), s⟩ = σ ⟨c, n, some ((t + r) % I.steps.length), s⟩

namespace Rotated
variable {I J : StudyInput} {k : Int} {σ τ : TermKey → ℚ}

theorem declared (h : I.Rotated k J) : J.declared = I.declared := by
  unfold StudyInput.declared
  rw [h.system]

theorem component? (h : I.Rotated k J) (id : String) : J.component? id = I.component? id := by
  unfold StudyInput.component?
  rw [h.declared]

theorem rulesOf (h : I.Rotated k J) (id : String) : J.rulesOf id = I.rulesOf id := by
  unfold StudyInput.rulesOf
  rw [h.component?]

/-- a cyclic block read one turn later is itself -/
theorem turn (I : StudyInput) : I.Rotated I.steps.length I where
  system := rfl
  length := rfl
  scenarios := rfl
  values c _ p _ t s _ := by
    unfold StudyInput.step
    rw [Int.add_emod_right]

theorem laterBy_turn (I : StudyInput) (σ : TermKey → ℚ) : I.LaterBy I.steps.length σ σ := by
  intro c n s
  refine ⟨rfl, fun t => ?_⟩
  rw [Int.add_emod_right]

theorem parameter (h : I.Rotated k J) (id n : String) (t : Int) (s : Nat) (hs : s < I.scenarios) :
    J.parameter id n t s = I.parameter id n (t + k) s := by
  unfold StudyInput.parameter
  rw [h.component?]
  rcases hc : I.component? id with _ | c
  · rfl
  rcases hp : c.parameters.find? fun p => p.id = n with _ | p
  · simp only [Option.bind_some, hp]
  simp only [Option.bind_some, hp]
  rw [h.values c (component?_mem hc).1 p (List.mem_of_find?_eq_some hp) t s hs]

theorem parameter_turn (I : StudyInput) (id n : String) (t s : Int) : I.parameter id n (t + I.steps.length) s = I.parameter id n t s := by
  unfold StudyInput.parameter StudyInput.step
  rw [Int.add_emod_right]

theorem instance_ (h : I.Rotated k J) (ha : I.LaterBy k σ τ) (id n : String) (t s : Int) : τ (J.instance_ id n t s) = σ (I.instance_ id n (t + k) s) := by
  unfold StudyInput.instance_
  rw [h.rulesOf, h.length]
  dsimp only
  split_ifs
  · exact (ha _ _ _).2 t
  · exact (ha _ _ _).2 t
  · exact (ha _ _ _).1
  · exact (ha _ _ _).1

theorem own_pconst (hs : I.Sound) {c : InputComponent} (hc : c ∈ I.declared) {r : Rules} (hr : Rules.named c.model = some r)
    (q : String × Bool × Bool) (hq : q ∈ r.parameters) (h0 : q.2.1 = false) (t s : Int) : I.parameter c.id q.1 t s = I.parameter c.id q.1 0 s := by
  unfold StudyInput.parameter
  have hcc : I.component? c.id = some c := find?_of_nodup hs.ids hc
  rw [hcc]
  rcases hp : c.parameters.find? fun p => p.id = q.1 with _ | p
  · simp only [Option.bind_some, hp]
  simp only [Option.bind_some, hp]
  have hpid : p.id = q.1 := by simpa using List.find?_some hp
  have hv := (hs.varying c hc p (List.mem_of_find?_eq_some hp) r hr q hq hpid.symm).1
  have : p.timeDependent = false := by
    by_contra hne
    rw [hv (by simpa using hne)] at h0
    cases h0
  unfold declaredEntry
  rw [this]
  rfl

theorem own_vconst (hs : I.Sound) {c : InputComponent} (hc : c ∈ I.declared) {r : Rules} (hr : Rules.named c.model = some r)
    (q : String × Bool × Bool) (hq : q ∈ r.variables_) (h0 : q.2.1 = false) (t s : Int) : I.instance_ c.id q.1 t s = I.instance_ c.id q.1 0 s := by
  have hr' : I.rulesOf c.id = some r := by
    unfold StudyInput.rulesOf
    rw [show I.component? c.id = some c from find?_of_nodup hs.ids hc]
    exact hr
  have hf : r.variables_.find? (fun v => v.1 = q.1) = some q := find?_of_nodup (f := (·.1)) (Rules.named_variables hr) hq
  unfold StudyInput.instance_
  rw [hr', Option.bind_some, hf]
  simp [h0]

theorem own (h : I.Rotated k J) (hs : I.Sound) (ha : I.LaterBy k σ τ) {c : InputComponent} (hc : c ∈ I.declared) {r : Rules}
    (hr : Rules.named c.model = some r) : LaterReadings r k (I.own σ c.id) (J.own τ c.id) where
  T := h.length
  S := h.scenarios
  v n t s := h.instance_ ha c.id n t s
  p n t s hs := h.parameter c.id n t s hs
  received _ _ _ _ _ := rfl
  vper n t s := ((turn I).instance_ (laterBy_turn I σ) c.id n t s).symm
  pper n t s := parameter_turn I c.id n t s
  rper _ _ _ _ _ := rfl
  pconst := own_pconst hs hc hr
  vconst q hq h0 t s := congrArg σ (own_vconst hs hc hr q hq h0 t s)

theorem sent (h : I.Rotated k J) (hs : I.Sound) (hck : I.Clockless) (ha : I.LaterBy k σ τ) (id port field : String) :
    (I.sent σ id port field = none ↔ J.sent τ id port field = none) ∧
    ∀ f g, I.sent σ id port field = some f → J.sent τ id port field = some g → ∀ (t : Int) (s : Nat), s < I.scenarios → g t s = f (t + k) s := by
  unfold StudyInput.sent
  rw [h.rulesOf]
  refine ⟨by simp, ?_⟩
  rcases hr : I.rulesOf id with _ | r
  · simp
  obtain ⟨c, hc, rfl, hn⟩ := rulesOf_mem hr
  simp only [Option.bind_some, Option.map_eq_some_iff]
  rintro f g ⟨F, hF, rfl⟩ ⟨G, hG, rfl⟩ t s hsc
  rw [hF] at hG
  cases hG
  unfold Rules.sends at hF
  simp only [Option.bind_eq_some_iff] at hF
  obtain ⟨⟨p', fs⟩, h1, ⟨fl, d⟩, h2, h3⟩ := hF
  have e : d = some F := h3
  subst e
  exact (Rules.named_timeless hn (hck c hc)).sends _ _ (List.mem_of_find?_eq_some h1) _ _ (List.mem_of_find?_eq_some h2) _ _ _ hs.scenarios
    (h.own hs ha hc hn) t s hsc

theorem carried (h : I.Rotated k J) (hs : I.Sound) (hck : I.Clockless) (ha : I.LaterBy k σ τ) (q : InputConnection) (field : String) (t : Int)
    (s : Nat) (hsc : s < I.scenarios) : J.carried τ q field t s = I.carried σ q field (t + k) s := by
  unfold StudyInput.carried
  obtain ⟨a1, a2⟩ := h.sent hs hck ha q.component1 q.port1 field
  obtain ⟨b1, b2⟩ := h.sent hs hck ha q.component2 q.port2 field
  rcases e1 : I.sent σ q.component1 q.port1 field with _ | f
  · rw [a1.1 e1]
    rcases e2 : I.sent σ q.component2 q.port2 field with _ | f
    · rw [b1.1 e2]
    · rcases e3 : J.sent τ q.component2 q.port2 field with _ | g
      · rw [b1.2 e3] at e2
        cases e2
      · exact b2 _ _ e2 e3 t s hsc
  · rcases e3 : J.sent τ q.component1 q.port1 field with _ | g
    · rw [a1.2 e3] at e1
      cases e1
    · exact a2 _ _ e1 e3 t s hsc

theorem received (h : I.Rotated k J) (hs : I.Sound) (hck : I.Clockless) (ha : I.LaterBy k σ τ) (id port field : String) (t : Int) (s : Nat)
    (hsc : s < I.scenarios) : (J.readings τ id).received port field t s = (I.readings σ id).received port field (t + k) s := by
  change (J.system.connections.map _).sum = (I.system.connections.map _).sum
  rw [h.system]
  simp only [h.carried hs hck ha _ _ _ _ hsc]

theorem readings (h : I.Rotated k J) (hs : I.Sound) (hck : I.Clockless) (ha : I.LaterBy k σ τ) {c : InputComponent} (hc : c ∈ I.declared)
    {r : Rules} (hr : Rules.named c.model = some r) : LaterReadings r k (I.readings σ c.id) (J.readings τ c.id) :=
  { h.own hs ha hc hr with
    received := fun port field t s hsc => h.received hs hck ha c.id port field t s hsc
    rper := fun port field t s hsc => ((turn I).received hs hck (laterBy_turn I σ) c.id port field t s hsc).symm }

end Rotated
end StudyInput
end Verif
