import Verif.Props.SolvedMore
import Verif.Props.BetweenExamples
import Verif.Props.PricesBetweenExamples

/-!
# C93: examples, studies that cannot be satisfied and costs without a lower bound
-/

namespace Verif.Props
open Verif Verif.Expr Verif.OptCtx Verif.Shipped

variable {u v q r : ℚ}

/-! ## A load and an area -/

theorem hamlet_amounts (u v w : ℚ) : (hamletStudy u v).OtherAmounts (hamletStudy u w) where
  toSameParts := hamlet_parts _ _ _ _
  others := hamlet_all (fun _ n _ t s _ _ => by simp only [hamlet_parameter_A]) fun _ n hn t s _ _ => by
    have h : n ≠ "load" := by rintro rfl; simp [amounts] at hn
    simp only [hamlet_parameter_L, if_neg h]

/-- it can be satisfied with any load -/
theorem hamlet_satisfied (u v : ℚ) : ∃ σ, (hamletStudy u v).Accepts σ := by
  refine ⟨fun k => if k = ⟨"A", "unsupplied_energy", some 0, some 0⟩ then max v 0 else if k = ⟨"A", "spillage", some 0, some 0⟩ then max v 0 - v else 0, ?_⟩
  rw [hamlet_accepts]
  simp
  ring

/-- it is solved for the load 0, and so for any load, positive or negative -/
example (hu : 0 ≤ u) (v : ℚ) : ∃ c, LeastCost (hamletStudy u v).Accepts (hamletStudy u v).cost c :=
  ((c93_study (hamletStudy u 0) hamlet_sound hamlet_linked (db := hamletData u 0) rfl).2 _ (hamlet_amounts u 0 v) hamlet_sound (hamletData u v) rfl
    ⟨_, hamlet_least hu le_rfl⟩).2 (hamlet_satisfied u v)

/-- **A lower bound is needed.** Where unsupplied and spilled energy earn money, the study can be satisfied, and there is no cheapest way to do so. -/
theorem c93_unbounded (hu : u < 0) (v : ℚ) : (∃ σ, (hamletStudy u v).Accepts σ) ∧ ¬ ∃ c, LeastCost (hamletStudy u v).Accepts (hamletStudy u v).cost c := by
  refine ⟨hamlet_satisfied u v, ?_⟩
  rw [(c93_study (hamletStudy u v) hamlet_sound hamlet_linked (db := hamletData u v) rfl).1]
  rintro ⟨-, m, hm⟩
  have : ∀ z, max v 0 ≤ z → m ≤ u * (z - v) + u * z := by
    intro z hz
    have := hm (fun k => if k = ⟨"A", "unsupplied_energy", some 0, some 0⟩ then z else if k = ⟨"A", "spillage", some 0, some 0⟩ then z - v else 0) (by
      rw [hamlet_accepts]
      have a := le_max_left v 0
      have b := le_max_right v 0
      simp
      exact ⟨a.trans hz, b.trans hz, by ring⟩)
    rw [hamlet_cost] at this
    simpa using this
  have h := this (max v 0 + |m| / -u + 1) (by
    have := div_nonneg (abs_nonneg m) (neg_nonneg.2 hu.le)
    linarith)
  have e : u * (|m| / -u) = -|m| := by
    rw [div_neg, mul_neg, mul_div_cancel₀ _ hu.ne]
  have a := le_max_left v 0
  have b := le_max_right v 0
  have c := neg_abs_le m
  have d := mul_nonneg_of_nonpos_of_nonpos hu.le (sub_nonpos.2 a)
  have f := mul_nonneg_of_nonpos_of_nonpos hu.le (neg_nonpos.2 b)
  have g := abs_nonneg m
  have k : 0 ≤ |m| / -u := div_nonneg g (neg_nonneg.2 hu.le)
  nlinarith

/-- the hypotheses of `c93_any_models` and of `c93_amounts` are met by its problem -/
example (u v w : ℚ) : ∃ (a : String → String → Prop) (z x : OptCtx), z.OtherAmounts a x ∧ z.Additive a ∧ z.NetworkOk ∧ z.Closed ∧ z.OwnSymbols ∧
    0 < z.scenarios ∧ z.SameCoefficients x := by
  have l : (hamletStudy u v).Linked hamletNet := hamlet_linked
  have o := otherAmounts_context (db := hamletData u v) (db' := hamletData u w) (hamlet_amounts u v w) hamlet_sound hamlet_sound l rfl rfl
  have a := shipped_additive_context (db := hamletData u v) hamlet_sound l
  exact ⟨_, _, _, o, a, l.networkOk _ hamlet_sound, l.closed hamlet_sound, l.ownSymbols, Nat.one_pos,
    otherAmounts_same o a (l.networkOk _ hamlet_sound) (l.closed hamlet_sound) l.ownSymbols Nat.one_pos⟩

/-- the command on any load prints status 0 -/
example (hu : 1 / 10 ^ 16 ≤ u) (v : ℚ) : ∃ o, mainOutput idealSolver textParser (fun _ => firstOrder) 8 (hamletDisk u v) hamletFlags = some (.ok o) ∧
    o.status = 0 := by
  obtain ⟨net, db, o, -, -, h, -, e⟩ := c93_command idealSolver idealSolver_right (fun _ => firstOrder) (fun _ => firstOrder_valid) 8 _ hamletFlags
    (hamlet_command (u := u) (v := v)) (Nat.le_refl _)
  have hu0 : 0 ≤ u := le_trans (by norm_num) hu
  refine ⟨o, h, (e (hamlet_kept hu _ fun _ => firstOrder_valid)).2 ⟨hamlet_satisfied u v, 0, fun σ hσ => ?_⟩⟩
  obtain ⟨a1, a2, -⟩ := (hamlet_accepts σ).1 hσ
  rw [show ((hamletDisk u v).study (hamlet u v) (some "study/input/components/series") hamletFlags).cost σ = _ from hamlet_cost σ]
  exact add_nonneg (mul_nonneg hu0 a1) (mul_nonneg hu0 a2)

/-! ## A unit that is on or off -/

theorem plant_amounts (q q' r : ℚ) : (plantStudy q r).OtherAmounts (plantStudy q' r) where
  toSameParts := ⟨rfl, rfl, rfl, rfl⟩
  others c hc n hn t s _ _ := by
    rw [plant_only hc, show (plantOne q r).id = "T" from rfl, plant_parameter, plant_parameter]
    have a : n ∉ ["p_min_cluster", "p_max_cluster"] := by
      intro h
      simp only [List.mem_cons, List.not_mem_nil, or_false] at h
      rcases h with rfl | rfl <;> simp [amounts] at hn
    rw [if_neg a, if_neg a]

theorem plant_satisfied (n : Nat) : (∃ σ, (plantStudy q n).Accepts σ) ↔ 0 ≤ q ∧ q ≤ n := by
  constructor
  · rintro ⟨σ, hσ⟩
    obtain ⟨⟨a1, a2⟩, ⟨a3, a4, -⟩, -, -, -, a7, a8, -⟩ := (plant_accepts σ).1 hσ
    have := mul_le_mul_of_nonneg_right a4 (Nat.cast_nonneg (α := ℚ) n)
    exact ⟨by linarith, by linarith⟩
  · rintro ⟨h0, h1⟩
    refine ⟨fun k => if k = plantKey "generation" then q else if k = plantKey "nb_units_on" then 1 else 0, ?_⟩
    rw [plant_accepts]
    simp [PlantOk, plantKey, h0, h1, Whole]
    exact ⟨⟨1, by norm_num⟩, ⟨0, by norm_num⟩⟩

/-- **Which commands are solved.** With a unit of size `n`, whatever has to be generated, the command prints status 0 exactly when it is between 0 and the
size: to know that the command that generates nothing is solved and whether the other one can be satisfied is enough. -/
theorem c93_plant (solve : Solver → Answer) (hsolve : RightSolver solve) (os : Nat → SetOrder) (ho : ∀ i, (os i).Valid) (q : ℚ) (n : Nat) :
    ∃ o, mainOutput solve textParser os 8 (plantDisk q n) hamletFlags = some (.ok o) ∧ (o.status = 0 ↔ 0 ≤ q ∧ q ≤ n) := by
  obtain ⟨o, net, db, o', h, -, -, h', -, e⟩ := c93_two_commands solve hsolve os os ho ho 8 8 _ _ hamletFlags hamletFlags
    (plant_command (q := 0) (r := n)) (Nat.le_refl _) (plant_command (q := q) (r := n)) (Nat.le_refl _) (plant_amounts 0 q n)
  refine ⟨o', h', (e ?_ (plant_kept 0 n os ho) (plant_kept q n os ho)).trans (plant_satisfied n)⟩
  obtain ⟨net, db, w, -, -, k, -, g, st⟩ := shipped_prints (fuel := 8) hsolve ho (plant_command (q := 0) (r := n)) (Nat.le_refl _)
  obtain rfl : w = o := by
    rw [k] at h
    simpa using h
  exact (st (g (plant_kept 0 n os ho))).solved.2 ⟨_, plant_idle (Nat.cast_nonneg n)⟩

/-! ## C87, C91 and C92: the other command is solved -/

/-- without a link the command prints status 0, and so it does with any link, at most at this cost -/
example (q : ℚ) (hq : 0 ≤ q) : ∃ o o' : Printed,
    mainOutput idealSolver textParser (fun _ => firstOrder) 8 (tradeDisk 0 1) tradeFlags = some (.ok o) ∧
    mainOutput idealSolver textParser (fun _ => firstOrder) 8 (tradeDisk q 1) tradeFlags = some (.ok o') ∧
    (o.status = 0 → o'.status = 0 ∧ o'.cost ≤ o.cost) :=
  c87_command_solved idealSolver idealSolver_right (fun _ => firstOrder) (fun _ => firstOrder) (fun _ => firstOrder_valid) (fun _ => firstOrder_valid) 8 8
    (tradeDisk 0 1) (tradeDisk q 1) tradeFlags tradeFlags (trade_command le_rfl) (Nat.le_refl _) (trade_command hq) (Nat.le_refl _)
    (trade_looser hq 1)

/-- the hypotheses of `c87_any_solved` -/
example {q q' : ℚ} (h : q ≤ q') (k : Nat) : ∃ (a : String → String → Prop) (x y : OptCtx), x.Looser y ∧ x.Additive a ∧ x.NetworkOk ∧ x.Closed ∧
    x.OwnSymbols ∧ 0 < x.scenarios ∧
    (∀ c ∈ x.network.allComponents, ∀ v ∈ x.strategy.getVariables c.model, ∀ b, v.lowerBound = some b ∨ v.upperBound = some b → b.Fixed) ∧
    ∀ c ∈ x.network.allComponents, ∀ k ∈ x.strategy.getConstraints c.model, k.lowerBound.Fixed ∧ k.upperBound.Fixed := by
  have l : (tradeStudy q k).Linked tradeNet := trade_linked
  exact ⟨_, _, _, trade_problem_looser h k, shipped_additive_context trade_sound l, l.networkOk _ trade_sound, l.closed trade_sound, l.ownSymbols,
    (trade_sound (q := q) (k := k)).scenarios, shipped_fixed_context l⟩

/-- `c87_study_solved`: the cost 5000 of the study without a link bounds that with any link -/
example {q : ℚ} (h : 0 ≤ q) : ∃ c, LeastCost (tradeStudy q 1).Accepts (tradeStudy q 1).cost c ∧ c ≤ 5000 :=
  c87_study_solved _ _ (trade_looser h 1) trade_sound trade_sound trade_linked (db := tradeData 0 1) (db' := tradeData q 1) rfl rfl _ trade_least

/-- loads `v` and `w`, and the load between them -/
example (u v w m : ℚ) (h0 : 0 ≤ m) (h1 : m ≤ 1) : ∃ o o1 o2 : Printed,
    mainOutput idealSolver textParser (fun _ => firstOrder) 8 (hamletDisk u (m * v + (1 - m) * w)) hamletFlags = some (.ok o) ∧
    mainOutput idealSolver textParser (fun _ => firstOrder) 8 (hamletDisk u v) hamletFlags = some (.ok o1) ∧
    mainOutput idealSolver textParser (fun _ => firstOrder) 8 (hamletDisk u w) hamletFlags = some (.ok o2) ∧
    (o1.status = 0 → o2.status = 0 → o.status = 0 ∧ o.cost ≤ m * o1.cost + (1 - m) * o2.cost) :=
  c91_command_solved idealSolver idealSolver_right (fun _ => firstOrder) (fun _ => firstOrder) (fun _ => firstOrder) (fun _ => firstOrder_valid)
    (fun _ => firstOrder_valid) (fun _ => firstOrder_valid) 8 8 8 _ _ _ hamletFlags hamletFlags hamletFlags hamlet_command (Nat.le_refl _)
    hamlet_command (Nat.le_refl _) hamlet_command (Nat.le_refl _) m h0 h1 (hamlet_between u v w m) hamlet_unthermal

/-- a price made of two prices -/
example (u u' v : ℚ) (hu : 1 / 10 ^ 16 ≤ u) (hu' : 1 / 10 ^ 16 ≤ u') : ∃ o o1 o2 : Printed,
    mainOutput idealSolver textParser (fun _ => firstOrder) 8 (hamletDisk (1 * u + 1 * u') v) hamletFlags = some (.ok o) ∧
    mainOutput idealSolver textParser (fun _ => firstOrder) 8 (hamletDisk u v) hamletFlags = some (.ok o1) ∧
    mainOutput idealSolver textParser (fun _ => firstOrder) 8 (hamletDisk u' v) hamletFlags = some (.ok o2) ∧
    (o1.status = 0 → o2.status = 0 → o.status = 0 ∧ 1 * o1.cost + 1 * o2.cost ≤ o.cost) := by
  obtain ⟨o, o1, o2, h, h1, h2, e⟩ := c92_command_solved_partial idealSolver idealSolver_right (fun _ => firstOrder) (fun _ => firstOrder)
    (fun _ => firstOrder) (fun _ => firstOrder_valid) (fun _ => firstOrder_valid) (fun _ => firstOrder_valid) 8 8 8 _ _ _ hamletFlags hamletFlags
    hamletFlags hamlet_command (Nat.le_refl _) hamlet_command (Nat.le_refl _) hamlet_command (Nat.le_refl _) 1 1 zero_le_one zero_le_one
    (hamlet_added u u' v 1 1)
  have big : 1 / 10 ^ 16 ≤ 1 * u + 1 * u' := by
    have : (0 : ℚ) < 1 / 10 ^ 16 := by norm_num
    linarith
  exact ⟨o, o1, o2, h, h1, h2, e (keptRun_prices (hamlet_kept big _ fun _ => firstOrder_valid)) (keptRun_prices (hamlet_kept hu _ fun _ => firstOrder_valid))
    (keptRun_prices (hamlet_kept hu' _ fun _ => firstOrder_valid))⟩

end Verif.Props
