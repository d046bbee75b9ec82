import Verif.Props.Reloaded
import Verif.Props.UnitsExamples

/-!
# C96: examples
-/

namespace Verif.Props
open Verif Verif.Doc Verif.Shipped Verif.OptCtx

theorem hamlet_reloaded (u v w : ℚ) : (hamletStudy u v).Reloaded (hamletStudy u w) "L" "A" where
  toSameParts := hamlet_parts _ _ _ _
  load := ⟨_, .tail _ (.head _), rfl, rfl⟩
  area := ⟨_, .head _, rfl, rfl⟩
  connection := ⟨_, .tail _ (.head _), rfl⟩
  others := hamlet_all (fun _ _ n t s _ _ => by simp only [hamlet_parameter_A]) fun _ h => absurd rfl h

theorem hamlet_price (u v w : ℚ) : (hamletStudy u v).slackPrice (hamletStudy u w) "L" "A" = u * |w - v| := by
  show (∑ s ∈ Finset.range 1, ∑ t ∈ Finset.range 1, (u * max (w - v) 0 + u * max (-(w - v)) 0)) / ((1 : Nat) : ℚ) = _
  rw [Finset.sum_range_one, Finset.sum_range_one, Nat.cast_one, div_one, ← mul_add]
  congr 1
  rcases le_total 0 (w - v) with h | h
  · rw [max_eq_left h, max_eq_right (by linarith), abs_of_nonneg h, add_zero]
  · rw [max_eq_right h, max_eq_left (by linarith), abs_of_nonpos h, zero_add]

/-- both commands print status 0, and the costs differ by at most the price of the difference of loads -/
example (u v w : ℚ) (hu : 1 / 10 ^ 16 ≤ u) (hv : 0 ≤ v) : ∃ o o' : Printed,
    mainOutput idealSolver textParser (fun _ => firstOrder) 8 (hamletDisk u v) hamletFlags = some (.ok o) ∧
    mainOutput idealSolver textParser (fun _ => firstOrder) 8 (hamletDisk u w) hamletFlags = some (.ok o') ∧
    (o.status = 0 ↔ o'.status = 0) ∧ (o.status = 0 → |o'.cost - o.cost| ≤ u * |w - v|) := by
  obtain ⟨o, o', h, h', e⟩ := c96_command_partial idealSolver idealSolver_right (fun _ => firstOrder) (fun _ => firstOrder) (fun _ => firstOrder_valid)
    (fun _ => firstOrder_valid) 8 8 (hamletDisk u v) (hamletDisk u w) hamletFlags hamletFlags hamlet_command (Nat.le_refl _) hamlet_command (Nat.le_refl _)
    "L" "A" (hamlet_reloaded u v w)
  obtain ⟨s, c⟩ := e (hamlet_kept hu _ fun _ => firstOrder_valid) (hamlet_kept hu _ fun _ => firstOrder_valid)
  refine ⟨o, o', h, h', s, fun z => ?_⟩
  obtain ⟨c1, c2⟩ := c z
  have e1 : (hamletStudy u v).slackPrice (hamletStudy u w) "L" "A" = _ := hamlet_price u v w
  have e2 : (hamletStudy u w).slackPrice (hamletStudy u v) "L" "A" = _ := hamlet_price u w v
  rw [abs_sub_comm] at e2
  refine abs_le.2 ⟨?_, ?_⟩
  · have := c2.trans_eq e2
    linarith
  · exact c1.trans_eq e1

/-- the bound is reached: with no other source the whole load is not supplied -/
example (u v w : ℚ) (hu : 0 ≤ u) (hv : 0 ≤ v) (hw : v ≤ w) : LeastCost (hamletStudy u v).Accepts (hamletStudy u v).cost (u * v) ∧
    LeastCost (hamletStudy u w).Accepts (hamletStudy u w).cost (u * v + (hamletStudy u v).slackPrice (hamletStudy u w) "L" "A") := by
  refine ⟨hamlet_least hu hv, ?_⟩
  have : u * v + (hamletStudy u v).slackPrice (hamletStudy u w) "L" "A" = u * w := by
    rw [hamlet_price, abs_of_nonneg (by linarith)]
    ring
  rw [this]
  exact hamlet_least hu (hv.trans hw)

example (u v w : ℚ) : (∃ c, LeastCost (hamletStudy u v).Accepts (hamletStudy u v).cost c) ↔
    ∃ c, LeastCost (hamletStudy u w).Accepts (hamletStudy u w).cost c :=
  (c96_both _ _ "L" "A" (hamlet_reloaded u v w) hamlet_sound hamlet_sound).2 hamlet_linked (db := hamletData u v) rfl hamlet_linked
    (db' := hamletData u w) rfl

/-- **C96 is violated by tiny prices.** Energy that is not supplied or spilled earns `1e-17`.  When the load increases by `10^18`, not supplying it earns 10,
but the command prints the cost 0 before and after: the prices are dropped. -/
theorem c96_tiny (solve : Solver → Answer) (hsolve : RightSolver solve) (os : Nat → SetOrder) (ho : ∀ i, (os i).Valid) :
    (hamletStudy (-1 / 10 ^ 17) 0).Reloaded (hamletStudy (-1 / 10 ^ 17) (10 ^ 18)) "L" "A" ∧
    (hamletStudy (-1 / 10 ^ 17) 0).slackPrice (hamletStudy (-1 / 10 ^ 17) (10 ^ 18)) "L" "A" = -10 ∧
    mainOutput solve textParser os 8 (hamletDisk (-1 / 10 ^ 17) 0) hamletFlags = some (.ok ⟨0, 0⟩) ∧
    mainOutput solve textParser os 8 (hamletDisk (-1 / 10 ^ 17) (10 ^ 18)) hamletFlags = some (.ok ⟨0, 0⟩) := by
  have small : |(-1 / 10 ^ 17 : ℚ)| < 1 / 10 ^ 16 := by
    rw [neg_div, abs_neg, abs_of_pos (by norm_num)]
    norm_num
  refine ⟨hamlet_reloaded _ _ _, ?_, hamlet_prints_free solve hsolve os ho small le_rfl, hamlet_prints_free solve hsolve os ho small (by norm_num)⟩
  rw [hamlet_price, sub_zero, abs_of_pos (by norm_num)]
  norm_num

end Verif.Props
