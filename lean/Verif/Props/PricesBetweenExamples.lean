import Verif.Props.PricesBetween
import Verif.Props.UnitsExamples

/-!
# C92: examples, and tiny prices
-/

namespace Verif.Props
open Verif Verif.Expr Verif.OptCtx Verif.Shipped

theorem hamlet_added (u u' v a b : ℚ) : StudyInput.PricesAdd a b (hamletStudy u v) (hamletStudy u' v) (hamletStudy (a * u + b * u') v) where
  first := hamlet_parts _ _ _ _
  second := hamlet_parts _ _ _ _
  prices := hamlet_all (fun _ n hn t s _ _ => by
      simp only [hamlet_parameter_A]
      split <;> simp) fun _ n hn t s _ _ => by
    have h : n ≠ "load" := by rintro rfl; simp [prices] at hn
    simp only [hamlet_parameter_L, if_neg h]
    ring
  others := hamlet_all (fun _ n hn t s _ _ => by
      have h : ¬ (n = "spillage_cost" ∨ n = "ens_cost") := by rintro (rfl | rfl) <;> simp [prices] at hn
      simp only [hamlet_parameter_A, if_neg h, and_self]) fun _ n hn t s _ _ => by
    simp only [hamlet_parameter_L, and_self]

/-- a price made of two prices -/
example (u u' v : ℚ) (hu : 1 / 10 ^ 16 ≤ u) (hu' : 1 / 10 ^ 16 ≤ u') : ∃ o o1 o2 : Printed,
    mainOutput idealSolver textParser (fun _ => firstOrder) 8 (hamletDisk (1 * u + 1 * u') v) hamletFlags = some (.ok o) ∧
    mainOutput idealSolver textParser (fun _ => firstOrder) 8 (hamletDisk u v) hamletFlags = some (.ok o1) ∧
    mainOutput idealSolver textParser (fun _ => firstOrder) 8 (hamletDisk u' v) hamletFlags = some (.ok o2) ∧
    (o.status = 0 → o1.status = 0 → o2.status = 0 → 1 * o1.cost + 1 * o2.cost ≤ o.cost) := by
  obtain ⟨o, o1, o2, h, h1, h2, e⟩ := c92_command_partial idealSolver idealSolver_right (fun _ => firstOrder) (fun _ => firstOrder) (fun _ => firstOrder)
    (fun _ => firstOrder_valid) (fun _ => firstOrder_valid) (fun _ => firstOrder_valid) 8 8 8 _ _ _ hamletFlags hamletFlags hamletFlags hamlet_command
    (Nat.le_refl _) hamlet_command (Nat.le_refl _) hamlet_command (Nat.le_refl _) 1 1 zero_le_one zero_le_one (hamlet_added u u' v 1 1)
  have big : 1 / 10 ^ 16 ≤ 1 * u + 1 * u' := by
    have : (0 : ℚ) < 1 / 10 ^ 16 := by norm_num
    linarith
  exact ⟨o, o1, o2, h, h1, h2, e (keptRun_prices (hamlet_kept big _ fun _ => firstOrder_valid)) (keptRun_prices (hamlet_kept hu _ fun _ => firstOrder_valid))
    (keptRun_prices (hamlet_kept hu' _ fun _ => firstOrder_valid))⟩

example (u u' v a b : ℚ) (σ : TermKey → ℚ) : (hamletStudy (a * u + b * u') v).cost σ = a * (hamletStudy u v).cost σ + b * (hamletStudy u' v).cost σ := by
  have l : (hamletStudy (a * u + b * u') v).Linked hamletNet := hamlet_linked
  exact ((c92_study a b _ _ _ (hamlet_added u u' v a b) hamlet_sound hamlet_sound hamlet_sound l (db := hamletData (a * u + b * u') v)
    (db1 := hamletData u v) (db2 := hamletData u' v) rfl rfl rfl).1 σ).2.2

/-- the hypotheses of `c92_any_models` are met by the problems of the example -/
example (u u' v a b : ℚ) : ∃ (p : Component → String → Prop) (x y z : OptCtx), z.OtherPrices p x ∧ z.OtherPrices p y ∧ OptCtx.PricesAdd a b p x y z ∧
    z.Prices p ∧ z.NetworkOk ∧ z.Closed ∧ z.OwnSymbols ∧ 0 < z.scenarios := by
  have l : (hamletStudy (a * u + b * u') v).Linked hamletNet := hamlet_linked
  obtain ⟨h1, h2, h3⟩ := pricesAdd_context (db := hamletData (a * u + b * u') v) (db1 := hamletData u v) (db2 := hamletData u' v)
    (hamlet_added u u' v a b) hamlet_sound hamlet_sound hamlet_sound l rfl rfl rfl
  exact ⟨_, _, _, _, h1, h2, h3, shipped_prices hamlet_sound l, l.networkOk _ hamlet_sound, l.closed hamlet_sound, l.ownSymbols, Nat.one_pos⟩

/-- **C92 is violated by tiny prices.** A load of `10^17` is not supplied.  At the price `1e-16` the command prints the cost 10, without a price it prints
0, and at the mean of these prices it prints 0, less than 5: a price of `5e-17` is dropped. -/
theorem c92_tiny (solve : Solver → Answer) (hsolve : RightSolver solve) (os : Nat → SetOrder) (ho : ∀ i, (os i).Valid) :
    StudyInput.PricesAdd (1 / 2) (1 / 2) (hamletStudy (1 / 10 ^ 16) (10 ^ 17)) (hamletStudy 0 (10 ^ 17)) (hamletStudy (1 / (2 * 10 ^ 16)) (10 ^ 17)) ∧
    mainOutput solve textParser os 8 (hamletDisk (1 / 10 ^ 16) (10 ^ 17)) hamletFlags = some (.ok ⟨0, 10⟩) ∧
    mainOutput solve textParser os 8 (hamletDisk 0 (10 ^ 17)) hamletFlags = some (.ok ⟨0, 0⟩) ∧
    mainOutput solve textParser os 8 (hamletDisk (1 / (2 * 10 ^ 16)) (10 ^ 17)) hamletFlags = some (.ok ⟨0, 0⟩) := by
  have a := hamlet_added (1 / 10 ^ 16) 0 (10 ^ 17) (1 / 2) (1 / 2)
  rw [show (1 / 2 : ℚ) * (1 / 10 ^ 16) + 1 / 2 * 0 = 1 / (2 * 10 ^ 16) by norm_num] at a
  have b := (hamlet_prints (u := 1 / 10 ^ 16) (v := 10 ^ 17) solve hsolve os ho le_rfl (by norm_num)).1
  rw [show (1 / 10 ^ 16 : ℚ) * 10 ^ 17 = 10 by norm_num] at b
  exact ⟨a, b, hamlet_prints_free solve hsolve os ho (by norm_num) (by norm_num),
    hamlet_prints_free solve hsolve os ho (by norm_num [abs_of_nonneg]) (by norm_num)⟩

end Verif.Props
