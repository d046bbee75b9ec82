import Verif.Props.Served
import Verif.Props.SolvedExamples

/-!
# C94: examples, and tiny coefficients
-/

namespace Verif.Props
open Verif Verif.Expr Verif.OptCtx Verif.Shipped

variable {q k : ℚ}

theorem trade_paid (hk : 0 ≤ k) : (tradeStudy q k).SlackPaid := by
  intro c hc n hn t s ht hs
  have h1 : (0 : ℚ) ≤ 1000 * k := by linarith
  have h2 : (0 : ℚ) ≤ 10 * k := by linarith
  simp only [trade_declared, trade, List.cons_append, List.nil_append, List.mem_cons, List.not_mem_nil, or_false] at hc hn
  rcases hc with rfl | rfl | rfl | rfl <;> rcases hn with rfl | rfl | rfl
  · exact hk
  · exact h1
  · exact le_refl (0 : ℚ)
  · exact hk
  · exact h2
  all_goals exact le_refl (0 : ℚ)

theorem trade_restful (hq : 0 ≤ q) : (tradeStudy q k).Restful := by
  intro c hc
  simp only [trade_declared, trade, List.cons_append, List.nil_append, List.mem_cons, List.not_mem_nil, or_false] at hc
  rcases hc with rfl | rfl | rfl | rfl
  · exact ⟨[], by simp [StudyInput.restful], fun n hn => by simp at hn⟩
  · exact ⟨[], by simp [StudyInput.restful], fun n hn => by simp at hn⟩
  · exact ⟨[], by simp [StudyInput.restful], fun n hn => by simp at hn⟩
  · refine ⟨["capacity_direct", "capacity_indirect"], by simp [StudyInput.restful], fun n hn t s ht hs => ?_⟩
    simp only [List.mem_cons, List.not_mem_nil, or_false] at hn
    rcases hn with rfl | rfl
    · exact hq
    · exact le_refl (0 : ℚ)

/-- two areas, a load and a link of any capacity, at any whole prices: the command prints status 0 -/
example (hq : 0 ≤ q) (n : Nat) : ∃ o, mainOutput idealSolver textParser (fun _ => firstOrder) 8 (tradeDisk q n) tradeFlags = some (.ok o) ∧
    o.status = 0 := by
  obtain ⟨o, h, -, -, e⟩ := c94_command_partial idealSolver idealSolver_right (fun _ => firstOrder) (fun _ => firstOrder_valid) 8 (tradeDisk q n) tradeFlags
    (trade_command hq) (Nat.le_refl _) (trade_paid (Nat.cast_nonneg n)) (trade_kept hq _ fun _ => firstOrder_valid)
  exact ⟨o, h, e (trade_restful hq)⟩

/-- the other theorems on this study -/
example (hq : 0 ≤ q) (hk : 0 ≤ k) : (∃ m, ∀ σ, (tradeStudy q k).Accepts σ → m ≤ (tradeStudy q k).cost σ) ∧ (∃ σ, (tradeStudy q k).Accepts σ) ∧
    ∃ c, LeastCost (tradeStudy q k).Accepts (tradeStudy q k).cost c :=
  ⟨c94_bounded _ trade_sound (trade_paid hk), c94_rest _ trade_sound (trade_restful hq),
    (c94_study _ trade_sound trade_linked (db := tradeData q k) rfl (trade_paid hk)).2 (c94_rest _ trade_sound (trade_restful hq))⟩

theorem plant_paid (q r : ℚ) : (plantStudy q r).SlackPaid := by
  intro c hc n hn t s ht hs
  rw [plant_only hc]
  simp only [List.mem_cons, List.not_mem_nil, or_false] at hn
  rcases hn with rfl | rfl | rfl <;> exact le_refl (0 : ℚ)

theorem plant_areas (q r : ℚ) : (plantStudy q r).AreaStudy := by
  intro c hc
  rw [plant_only hc]
  show "antares-historic.thermal" ∈ _
  decide

/-- a thermal unit works exactly when what it has to generate is between 0 and its size -/
example (q : ℚ) (n : Nat) : (0 ≤ q ∧ q ≤ n) ↔ ∀ c ∈ (plantStudy q n).declared, c.model ≠ "antares-historic.area" → (plantStudy q n).CanWork c :=
  (plant_satisfied n).symm.trans (c94_areas _ plant_sound (plant_areas q n))

/-- **C94 is violated by tiny coefficients.** A unit of size `1e-17` has to generate `1e-17` and can do so, and no energy is spilled for money, but the
command does not print status 0: the size of the unit is dropped. -/
theorem c94_tiny (solve : Solver → Answer) (hsolve : RightSolver solve) (os : Nat → SetOrder) (ho : ∀ i, (os i).Valid) :
    (plantStudy (1 / 10 ^ 17) (1 / 10 ^ 17)).SlackPaid ∧ (plantStudy (1 / 10 ^ 17) (1 / 10 ^ 17)).AreaStudy ∧
    (∀ c ∈ (plantStudy (1 / 10 ^ 17) (1 / 10 ^ 17)).declared, (plantStudy (1 / 10 ^ 17) (1 / 10 ^ 17)).CanWork c) ∧
    ∃ o, mainOutput solve textParser os 8 (plantDisk (1 / 10 ^ 17) (1 / 10 ^ 17)) hamletFlags = some (.ok o) ∧ o.status ≠ 0 := by
  obtain ⟨-, h, -, l⟩ := c89_tiny solve hsolve os ho
  refine ⟨plant_paid _ _, plant_areas _ _, fun c hc => ?_, h⟩
  refine (c94_areas _ plant_sound (plant_areas _ _)).1 (least_met ⟨_, l⟩).1 c hc ?_
  rw [plant_only hc]
  show "antares-historic.thermal" ≠ "antares-historic.area"
  decide

end Verif.Props
