import Verif.Props.BetweenShipped
import Verif.Props.UnitsExamples

/-!
# C91: examples, and units that are on or off
-/

namespace Verif.Props
open Verif Verif.Expr Verif.OptCtx Verif.Shipped

variable {u v q r : ℚ}

/-! ## A load, or what is left over when it is negative -/

theorem hamlet_between (u v w m : ℚ) : StudyInput.Between m (hamletStudy u v) (hamletStudy u w) (hamletStudy u (m * v + (1 - m) * w)) where
  first := hamlet_parts _ _ _ _
  second := hamlet_parts _ _ _ _
  energies := hamlet_all (fun _ n hn t s _ _ => by
      simp only [hamlet_parameter_A]
      rw [if_neg, mul_zero, mul_zero, add_zero]
      rintro (rfl | rfl) <;> simp [energies] at hn) fun _ n hn t s _ _ => by
    simp only [hamlet_parameter_L]
    split <;> simp
  others := hamlet_all (fun _ n _ t s _ _ => by simp only [hamlet_parameter_A, and_self]) fun _ n hn t s _ _ => by
    simp only [hamlet_parameter_L]
    have h : n ≠ "load" := by rintro rfl; simp [energies] at hn
    rw [if_neg h, if_neg h, if_neg h]
    exact ⟨rfl, rfl⟩

theorem hamlet_unthermal : (hamletStudy u v).WithoutThermal :=
  hamlet_all (fun _ => show "antares-historic.area" ≠ "antares-historic.thermal" by decide)
    fun _ => show "antares-historic.load" ≠ "antares-historic.thermal" by decide

theorem hamlet_spilled (hu : 0 ≤ u) (hv : v ≤ 0) : LeastCost (hamletStudy u v).Accepts (hamletStudy u v).cost (u * -v) := by
  refine ⟨⟨fun k => if k = ⟨"A", "spillage", some 0, some 0⟩ then -v else 0, ?_, ?_⟩, ?_⟩
  · rw [hamlet_accepts]
    simpa using hv
  · rw [hamlet_cost]
    simp
  · intro σ hσ
    obtain ⟨a1, a2, a3⟩ := (hamlet_accepts σ).1 hσ
    rw [hamlet_cost]
    nlinarith

/-- loads `v` and `w`, and the load between them, for any price, even a tiny one -/
example (u v w m : ℚ) (h0 : 0 ≤ m) (h1 : m ≤ 1) : ∃ o o1 o2 : Printed,
    mainOutput idealSolver textParser (fun _ => firstOrder) 8 (hamletDisk u (m * v + (1 - m) * w)) hamletFlags = some (.ok o) ∧
    mainOutput idealSolver textParser (fun _ => firstOrder) 8 (hamletDisk u v) hamletFlags = some (.ok o1) ∧
    mainOutput idealSolver textParser (fun _ => firstOrder) 8 (hamletDisk u w) hamletFlags = some (.ok o2) ∧
    (o.status = 0 → o1.status = 0 → o2.status = 0 → o.cost ≤ m * o1.cost + (1 - m) * o2.cost) :=
  c91_command idealSolver idealSolver_right (fun _ => firstOrder) (fun _ => firstOrder) (fun _ => firstOrder) (fun _ => firstOrder_valid)
    (fun _ => firstOrder_valid) (fun _ => firstOrder_valid) 8 8 8 _ _ _ hamletFlags hamletFlags hamletFlags hamlet_command (Nat.le_refl _)
    hamlet_command (Nat.le_refl _) hamlet_command (Nat.le_refl _) m h0 h1 (hamlet_between u v w m) hamlet_unthermal

/-- 5 too little or 5 too much costs 50 each, and the mean of them costs nothing: less than 50 -/
example : LeastCost (hamletStudy 10 5).Accepts (hamletStudy 10 5).cost 50 ∧ LeastCost (hamletStudy 10 (-5)).Accepts (hamletStudy 10 (-5)).cost 50 ∧
    StudyInput.Between (1 / 2) (hamletStudy 10 5) (hamletStudy 10 (-5)) (hamletStudy 10 0) ∧
    LeastCost (hamletStudy 10 0).Accepts (hamletStudy 10 0).cost 0 ∧
    ∀ c c1 c2, LeastCost (hamletStudy 10 5).Accepts (hamletStudy 10 5).cost c1 → LeastCost (hamletStudy 10 (-5)).Accepts (hamletStudy 10 (-5)).cost c2 →
      LeastCost (hamletStudy 10 0).Accepts (hamletStudy 10 0).cost c → c ≤ 1 / 2 * c1 + (1 - 1 / 2) * c2 := by
  have a := hamlet_least (u := 10) (v := 5) (by norm_num) (by norm_num)
  have b := hamlet_spilled (u := 10) (v := -5) (by norm_num) (by norm_num)
  have c := hamlet_least (u := 10) (v := 0) (by norm_num) (by norm_num)
  have d := hamlet_between 10 5 (-5) (1 / 2)
  norm_num at a b c d
  refine ⟨a, b, by norm_num; exact d, c, ?_⟩
  have l : (hamletStudy 10 0).Linked hamletNet := hamlet_linked
  exact (c91_study (1 / 2) (by norm_num) (by norm_num) _ _ _ (by norm_num; exact d) hamlet_unthermal hamlet_sound hamlet_sound hamlet_sound l
    (db := hamletData 10 0) (db1 := hamletData 10 5) (db2 := hamletData 10 (-5)) rfl rfl rfl).2

/-- the hypotheses of `c91_any_models` are met by the problems of the example -/
example (u v w m : ℚ) : ∃ (a : String → String → Prop) (x y z : OptCtx), z.OtherAmounts a x ∧ z.OtherAmounts a y ∧ AmountsBetween m a x y z ∧
    z.Amounts a ∧ z.NetworkOk ∧ z.Closed ∧ z.OwnSymbols ∧ 0 < z.scenarios := by
  have l : (hamletStudy u (m * v + (1 - m) * w)).Linked hamletNet := hamlet_linked
  obtain ⟨a, b, c⟩ := between_context (db := hamletData u (m * v + (1 - m) * w)) (db1 := hamletData u v) (db2 := hamletData u w)
    (hamlet_between u v w m) hamlet_sound hamlet_sound hamlet_sound l rfl rfl rfl
  exact ⟨_, _, _, _, a, b, c, amounts_context hamlet_sound l hamlet_unthermal, l.networkOk _ hamlet_sound, l.closed hamlet_sound, l.ownSymbols,
    Nat.one_pos⟩

/-! ## Units are on or off -/

theorem plant_between (q q' r m : ℚ) : StudyInput.Between m (plantStudy q r) (plantStudy q' r) (plantStudy (m * q + (1 - m) * q') r) where
  first := ⟨rfl, rfl, rfl, rfl⟩
  second := ⟨rfl, rfl, rfl, rfl⟩
  energies c hc n hn t s _ _ := by
    rw [plant_only hc, show (plantOne (m * q + (1 - m) * q') r).id = "T" from rfl, plant_parameter, plant_parameter, plant_parameter]
    split
    · rfl
    · ring
  others c hc n hn t s _ _ := by
    rw [plant_only hc, show (plantOne (m * q + (1 - m) * q') r).id = "T" from rfl, plant_parameter, plant_parameter, plant_parameter]
    have a : n ∉ ["p_min_cluster", "p_max_cluster"] := by
      intro h
      simp only [List.mem_cons, List.not_mem_nil, or_false] at h
      rcases h with rfl | rfl <;> simp [energies] at hn
    rw [if_neg a, if_neg a, if_neg a]
    exact ⟨rfl, rfl⟩

/-- **C91 does not extend to thermal clusters.** The unit has size 2 and costs 2 when it is on, and 2 per unit of energy.  To generate nothing costs 0,
to generate 2 costs 6, and to generate 1, which is the mean, costs 4, more than 3: the unit is on or off. -/
theorem c91_units (solve : Solver → Answer) (hsolve : RightSolver solve) (os : Nat → SetOrder) (ho : ∀ i, (os i).Valid) :
    StudyInput.Between (1 / 2) (plantStudy 0 2) (plantStudy 2 2) (plantStudy 1 2) ∧
    mainOutput solve textParser os 8 (plantDisk 0 2) hamletFlags = some (.ok ⟨0, 0⟩) ∧
    mainOutput solve textParser os 8 (plantDisk 2 2) hamletFlags = some (.ok ⟨0, 6⟩) ∧
    mainOutput solve textParser os 8 (plantDisk 1 2) hamletFlags = some (.ok ⟨0, 4⟩) := by
  have prints : ∀ {q c : ℚ}, LeastCost (plantStudy q 2).Accepts (plantStudy q 2).cost c →
      mainOutput solve textParser os 8 (plantDisk q 2) hamletFlags = some (.ok ⟨0, c⟩) := by
    intro q c hl
    obtain ⟨net, db, o, -, -, h, -, k, a⟩ := shipped_prints (fuel := 8) hsolve ho (plant_command (q := q) (r := 2)) (Nat.le_refl _)
    have hs := a (k (plant_kept q 2 os ho))
    have h0 : o.status = 0 := hs.solved.2 ⟨_, hl⟩
    have hc : o.cost = c := leastCost_unique (hs.least h0) hl
    rw [h]
    cases o
    cases h0
    cases hc
    rfl
  have a := plant_between 0 2 2 (1 / 2)
  rw [show (1 / 2 : ℚ) * 0 + (1 - 1 / 2) * 2 = 1 by norm_num] at a
  have b := plant_least (q := 2) (r := 2) (by norm_num) (by norm_num)
  have c := plant_least (q := 1) (r := 2) (by norm_num) (by norm_num)
  rw [show (2 : ℚ) * 2 + 2 = 6 by norm_num] at b
  rw [show (2 : ℚ) * 1 + 2 = 4 by norm_num] at c
  exact ⟨a, prints (plant_idle (by norm_num)), prints b, prints c⟩

end Verif.Props
