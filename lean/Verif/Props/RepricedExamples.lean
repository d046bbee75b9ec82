import Verif.Props.RepricedAny

/-!
# C86: an example, and prices in a unit so large that they count as zero
-/

namespace Verif.Props
open Verif Verif.Doc Verif.Shipped Verif.OptCtx

theorem keptRun_prices {parser : Parser} {os : Nat → SetOrder} {fuel : Nat} {d : Disk} {f : CliFlags} (h : KeptRun parser os fuel d f) :
    PricesKeptRun parser os fuel d f := by
  intro paths comp tables ls libs s sys net db a1 a2 a3 a4 a5 a6 a7 c hc e he
  refine (h _ _ _ _ _ _ _ _ _ a1 a2 a3 a4 a5 a6 a7 c hc).2 e ?_
  have he : e ∈ ((d.study s tables f).context net db).contributions c := he
  rwa [context_contributions] at he

/-- the command prints the least cost of the problem on any network of the study -/
theorem shipped_least {solve : Solver → Answer} (hsolve : RightSolver solve) {os : Nat → SetOrder} (ho : ∀ i, (os i).Valid) {fuel : Nat}
    {d : Disk} {f : CliFlags} {paths : List String} {comp : String} {tables : Option String} {ls : List InputLibrary} {s : InputSystem}
    (h : ShippedCommand d f paths comp tables ls s) (hfuel : 3 * ls.length + 2 ≤ fuel) {net : Network} {db : DataBase}
    (l : (d.study s tables f).Linked net) (hdb : buildDataBase (d.study s tables f).load s = .ok db) :
    ∃ o, mainOutput solve textParser os fuel d f = some (.ok o) ∧
      ∀ c, LeastCost ((d.study s tables f).context net db).KeptFeasible ((d.study s tables f).context net db).keptCost c ↔
        o.status = 0 ∧ o.cost = c := by
  obtain ⟨net', db', o, l', b', h1, s1, -⟩ := shipped_prints hsolve ho h hfuel
  refine ⟨o, h1, fun c => ?_⟩
  have hsame : s.Renamed (fun n => n) s := rearranged_refl s
  have hren := renamed_networks hsame (renamed_part (I := d.study s tables f) hsame) h.sound h.sound h.joins l l' hdb b'
  have key := renamed_leastCost hren (fun _ _ ha => renamed_net_kept hren (l.networkOk db h.sound) (l'.networkOk db' h.sound) (l.closed h.sound)
    l.ownSymbols ha)
  rw [← key]
  constructor
  · intro hc
    have h0 := s1.solved.2 ⟨c, hc⟩
    exact ⟨h0, leastCost_unique (s1.least h0) hc⟩
  · rintro ⟨h0, rfl⟩
    exact s1.least h0

/-- with prices in another currency, the command prints the cost in this currency -/
example (q : ℚ) (hq : 0 ≤ q) (k : Nat) (hk : 0 < k) : ∃ o o' : Printed,
    mainOutput idealSolver textParser (fun _ => firstOrder) 8 (tradeDisk q 1) tradeFlags = some (.ok o) ∧
    mainOutput idealSolver textParser (fun _ => firstOrder) 8 (tradeDisk q k) tradeFlags = some (.ok o') ∧
    (o'.status = 0 ↔ o.status = 0) ∧ (o.status = 0 → o'.cost = k * o.cost) := by
  obtain ⟨o, o', h, h', e⟩ := c86_command_partial idealSolver idealSolver_right (fun _ => firstOrder) (fun _ => firstOrder)
    (fun _ => firstOrder_valid) (fun _ => firstOrder_valid) 8 8 (tradeDisk q 1) (tradeDisk q k) tradeFlags tradeFlags (trade_command hq)
    (Nat.le_refl _) (trade_command hq) (Nat.le_refl _) k (Nat.cast_pos.2 hk) (trade_repriced q k)
  have one := trade_kept (q := q) (k := 1) hq _ fun _ => firstOrder_valid
  rw [Nat.cast_one] at one
  exact ⟨o, o', h, h', e (keptRun_prices one) (keptRun_prices (trade_kept hq _ fun _ => firstOrder_valid))⟩

/-- the hypotheses of `c86_any_models` are met by the problem of the example -/
example (q k : ℚ) : ∃ (p : Component → String → Prop) (x y : OptCtx), x.Repriced k p y ∧ x.Prices p ∧ x.NetworkOk ∧ x.Closed ∧ x.OwnSymbols ∧
    0 < x.scenarios :=
  ⟨_, _, _, repriced_context (trade_repriced q k) trade_sound trade_sound trade_linked rfl rfl, shipped_prices trade_sound trade_linked,
    trade_linked.networkOk _ trade_sound, trade_linked.closed trade_sound, trade_linked.ownSymbols, Nat.one_pos⟩

/-! ## No import: 5 units are not supplied -/

theorem trade_island (σ : TermKey → ℚ) : (tradeStudy 0 1).Accepts σ ↔
    (0 ≤ σ ⟨"A", "spillage", some 0, some 0⟩ ∧ 0 ≤ σ ⟨"A", "unsupplied_energy", some 0, some 0⟩ ∧
      -5 + σ ⟨"K", "flow", some 0, some 0⟩ + σ ⟨"A", "unsupplied_energy", some 0, some 0⟩ = σ ⟨"A", "spillage", some 0, some 0⟩) ∧
    (0 ≤ σ ⟨"B", "spillage", some 0, some 0⟩ ∧ 0 ≤ σ ⟨"B", "unsupplied_energy", some 0, some 0⟩ ∧
      -σ ⟨"K", "flow", some 0, some 0⟩ + σ ⟨"B", "unsupplied_energy", some 0, some 0⟩ = σ ⟨"B", "spillage", some 0, some 0⟩) ∧
    (0 ≤ σ ⟨"K", "flow_direct", some 0, some 0⟩ ∧ σ ⟨"K", "flow_direct", some 0, some 0⟩ ≤ 0) ∧
    (0 ≤ σ ⟨"K", "flow_indirect", some 0, some 0⟩ ∧ σ ⟨"K", "flow_indirect", some 0, some 0⟩ ≤ 0) ∧
    σ ⟨"K", "flow", some 0, some 0⟩ = σ ⟨"K", "flow_direct", some 0, some 0⟩ - σ ⟨"K", "flow_indirect", some 0, some 0⟩ := by
  have hA : Rules.area.accepts ((tradeStudy 0 1).readings σ "A") (0 : Nat) (0 : Nat) ↔
      0 ≤ σ ⟨"A", "spillage", some 0, some 0⟩ ∧ 0 ≤ σ ⟨"A", "unsupplied_energy", some 0, some 0⟩ ∧
      -5 + σ ⟨"K", "flow", some 0, some 0⟩ + σ ⟨"A", "unsupplied_energy", some 0, some 0⟩ = σ ⟨"A", "spillage", some 0, some 0⟩ := by
    show (0 ≤ σ ⟨"A", "spillage", some 0, some 0⟩ ∧ 0 ≤ σ ⟨"A", "unsupplied_energy", some 0, some 0⟩ ∧
        ((-5 + 0) + ((0 + σ ⟨"K", "flow", some 0, some 0⟩) + ((0 + 0) + 0))) + σ ⟨"A", "unsupplied_energy", some 0, some 0⟩ =
          σ ⟨"A", "spillage", some 0, some 0⟩) ↔ _
    refine and_congr_right fun _ => and_congr_right fun _ => ?_
    constructor <;> intro h <;> linarith
  have hB : Rules.area.accepts ((tradeStudy 0 1).readings σ "B") (0 : Nat) (0 : Nat) ↔
      0 ≤ σ ⟨"B", "spillage", some 0, some 0⟩ ∧ 0 ≤ σ ⟨"B", "unsupplied_energy", some 0, some 0⟩ ∧
      -σ ⟨"K", "flow", some 0, some 0⟩ + σ ⟨"B", "unsupplied_energy", some 0, some 0⟩ = σ ⟨"B", "spillage", some 0, some 0⟩ := by
    show (0 ≤ σ ⟨"B", "spillage", some 0, some 0⟩ ∧ 0 ≤ σ ⟨"B", "unsupplied_energy", some 0, some 0⟩ ∧
        ((0 + 0) + ((0 + 0) + ((0 + -σ ⟨"K", "flow", some 0, some 0⟩) + 0))) + σ ⟨"B", "unsupplied_energy", some 0, some 0⟩ =
          σ ⟨"B", "spillage", some 0, some 0⟩) ↔ _
    refine and_congr_right fun _ => and_congr_right fun _ => ?_
    constructor <;> intro h <;> linarith
  have hK : Rules.link.accepts ((tradeStudy 0 1).readings σ "K") (0 : Nat) (0 : Nat) ↔
      (0 ≤ σ ⟨"K", "flow_direct", some 0, some 0⟩ ∧ σ ⟨"K", "flow_direct", some 0, some 0⟩ ≤ 0) ∧
      (0 ≤ σ ⟨"K", "flow_indirect", some 0, some 0⟩ ∧ σ ⟨"K", "flow_indirect", some 0, some 0⟩ ≤ 0) ∧
      σ ⟨"K", "flow", some 0, some 0⟩ = σ ⟨"K", "flow_direct", some 0, some 0⟩ - σ ⟨"K", "flow_indirect", some 0, some 0⟩ := Iff.rfl
  constructor
  · intro h
    refine ⟨hA.1 ?_, hB.1 ?_, hK.1 ?_⟩
    · exact h ((tradeStudy 0 1).declared[0]'(Nat.lt_of_sub_pos (by decide))) (List.getElem_mem _) Rules.area rfl 0 0 Nat.one_pos Nat.one_pos
    · exact h ((tradeStudy 0 1).declared[1]'(Nat.lt_of_sub_pos (by decide))) (List.getElem_mem _) Rules.area rfl 0 0 Nat.one_pos Nat.one_pos
    · exact h ((tradeStudy 0 1).declared[3]'(Nat.lt_of_sub_pos (by decide))) (List.getElem_mem _) Rules.link rfl 0 0 Nat.one_pos Nat.one_pos
  · rintro ⟨ha, hb, hk⟩ c hc r hr t s ht hs
    have hs : s = 0 := Nat.lt_one_iff.1 hs
    have ht : t = 0 := Nat.lt_one_iff.1 ht
    subst hs ht
    simp only [trade_declared, trade, List.cons_append, List.nil_append, List.mem_cons, List.not_mem_nil, or_false] at hc
    rcases hc with rfl | rfl | rfl | rfl
    · obtain rfl : r = Rules.area := by cases hr; rfl
      exact hA.2 ha
    · obtain rfl : r = Rules.area := by cases hr; rfl
      exact hB.2 hb
    · obtain rfl : r = Rules.load := by cases hr; rfl
      trivial
    · obtain rfl : r = Rules.link := by cases hr; rfl
      exact hK.2 hk

theorem trade_cost (σ : TermKey → ℚ) : (tradeStudy 0 1).cost σ =
    σ ⟨"A", "spillage", some 0, some 0⟩ + 1000 * σ ⟨"A", "unsupplied_energy", some 0, some 0⟩ +
    (σ ⟨"B", "spillage", some 0, some 0⟩ + 10 * σ ⟨"B", "unsupplied_energy", some 0, some 0⟩) := by
  show ((∑ w ∈ Finset.range 1, ∑ u ∈ Finset.range 1, (1 * σ ⟨"A", "spillage", some (u : Int), some (w : Int)⟩ +
        (1000 * 1) * σ ⟨"A", "unsupplied_energy", some (u : Int), some (w : Int)⟩)) / ((1 : Nat) : ℚ)) +
    (((∑ w ∈ Finset.range 1, ∑ u ∈ Finset.range 1, (1 * σ ⟨"B", "spillage", some (u : Int), some (w : Int)⟩ +
        (10 * 1) * σ ⟨"B", "unsupplied_energy", some (u : Int), some (w : Int)⟩)) / ((1 : Nat) : ℚ)) + (0 + (0 + 0))) = _
  rw [Finset.sum_range_one, Finset.sum_range_one, Finset.sum_range_one, Finset.sum_range_one]
  push_cast
  ring

theorem trade_least : LeastCost (tradeStudy 0 1).Accepts (tradeStudy 0 1).cost 5000 := by
  refine ⟨⟨fun k => if k = ⟨"A", "unsupplied_energy", some 0, some 0⟩ then 5 else 0, ?_, ?_⟩, ?_⟩
  · rw [trade_island]
    simp
  · rw [trade_cost]
    simp
    norm_num
  · intro σ hσ
    obtain ⟨⟨a1, a2, a3⟩, ⟨b1, b2, b3⟩, ⟨c1, c2⟩, ⟨d1, d2⟩, e⟩ := (trade_island σ).1 hσ
    rw [trade_cost]
    linarith

/-- costs that are all tiny count as zero -/
theorem trade_free (q k : ℚ) (hk : 0 < k) (hk' : k < 1 / 10 ^ 20) (σ : TermKey → ℚ) :
    ((tradeStudy q k).context tradeNet (tradeData q k)).keptCost σ = 0 := by
  unfold OptCtx.keptCost
  refine List.sum_eq_zero fun v hv => ?_
  obtain ⟨c, hc, rfl⟩ := List.mem_map.1 hv
  refine List.sum_eq_zero fun v hv => ?_
  obtain ⟨e, he, rfl⟩ := List.mem_map.1 hv
  rw [context_contributions] at he
  obtain ⟨id, u, h⟩ := trade_prices q k c hc e he
  have hu : (u : ℚ) ≤ 1000 := by exact_mod_cast (h fun _ _ _ _ => 0).2
  have h0 : ((tradeStudy q k).context tradeNet (tradeData q k)).fixedPart c e 0 0 = 0 := by
    unfold OptCtx.fixedPart
    rw [(h _).1]
    ring
  have hc : ∀ κ, keep (((tradeStudy q k).context tradeNet (tradeData q k)).coefficient c e 0 0 κ) = 0 := by
    intro κ
    unfold OptCtx.coefficient
    rw [h0, (h _).1, sub_zero]
    have hku : 0 ≤ (u : ℚ) * k ∧ (u : ℚ) * k ≤ 1000 * k := ⟨by positivity, by nlinarith⟩
    have small : |k * (if κ = ⟨id, "spillage", some 0, some 0⟩ then (1 : ℚ) else 0) +
        u * k * (if κ = ⟨id, "unsupplied_energy", some 0, some 0⟩ then (1 : ℚ) else 0)| < 1 / 10 ^ 16 := by
      rw [abs_lt]
      split_ifs <;> constructor <;> norm_num at * <;> linarith
    unfold keep
    rw [if_pos small]
  unfold OptCtx.keptValue
  simp [h0, hc]

/-- **C86 is violated by tiny prices.** A load of 5 is not supplied; the command prints the cost 5000.  With prices in a unit that is `10^21` times
larger, the command prints the cost 0, and not `5000 / 10^21`. -/
theorem c86_tiny_prices (solve : Solver → Answer) (hsolve : RightSolver solve) (os : Nat → SetOrder) (ho : ∀ i, (os i).Valid) :
    (tradeStudy 0 1).Repriced (1 / 10 ^ 21) (tradeStudy 0 (1 / 10 ^ 21)) ∧
    mainOutput solve textParser os 8 (tradeDisk 0 1) tradeFlags = some (.ok ⟨0, 5000⟩) ∧
    mainOutput solve textParser os 8 (tradeDisk 0 (1 / 10 ^ 21)) tradeFlags = some (.ok ⟨0, 0⟩) := by
  have one := trade_kept (q := 0) (k := 1) le_rfl os ho
  rw [Nat.cast_one] at one
  obtain ⟨net, db, o, -, -, h, -, k, a⟩ := shipped_prints (fuel := 8) hsolve ho (trade_command (q := 0) (k := 1) le_rfl) (Nat.le_refl _)
  have hs := a (k one)
  have h0 : o.status = 0 := hs.solved.2 ⟨_, trade_least⟩
  have hc : o.cost = 5000 := leastCost_unique (hs.least h0) trade_least
  obtain ⟨o1, h1, e1⟩ := shipped_least (fuel := 8) (db := tradeData 0 1) hsolve ho (trade_command (q := 0) (k := 1) le_rfl) (Nat.le_refl _)
    trade_linked rfl
  obtain rfl : o = o1 := by rw [h] at h1; simpa using h1
  obtain ⟨⟨σ, hσ, -⟩, -⟩ := (e1 5000).2 ⟨h0, hc⟩
  obtain ⟨o2, h2, e2⟩ := shipped_least (fuel := 8) (db := tradeData 0 (1 / 10 ^ 21)) hsolve ho (trade_command (q := 0) (k := 1 / 10 ^ 21) le_rfl)
    (Nat.le_refl _) trade_linked rfl
  have kept := (c86_any_models _ _ _ _ (repriced_context (trade_repriced 0 (1 / 10 ^ 21)) trade_sound trade_sound trade_linked rfl rfl)
    (shipped_prices trade_sound trade_linked) (trade_linked.networkOk _ trade_sound) (trade_linked.closed trade_sound) trade_linked.ownSymbols
    Nat.one_pos).2.1 σ
  have free := trade_free 0 (1 / 10 ^ 21) (by norm_num) (by norm_num)
  obtain ⟨h3, h4⟩ := (e2 0).1 ⟨⟨σ, kept.2 hσ, free σ⟩, fun τ _ => (free τ).ge⟩
  refine ⟨trade_repriced 0 _, ?_, ?_⟩
  · rw [h]
    cases o
    cases h0
    cases hc
    rfl
  · rw [h2]
    cases o2
    cases h3
    cases h4
    rfl

end Verif.Props
