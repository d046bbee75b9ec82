import Verif.Props.Rearranged

/-! # Examples for C78, C79 and C80 -/

namespace Verif.Props
open Verif Verif.Doc Verif.Shipped Verif.OptCtx

theorem cliDemo_command : ShippedCommand cliDemoDisk cliDemoFlags
    ["study/input/models/andromede_v1_models.yml", "study/input/models/antares_historic.yml"] "study/input/components/components.yml"
    (some "study/input/components/series") [andromedeInput, antaresInput] shippedDemoStudy.system :=
  ⟨cliDemo_names, cliDemo_read, by decide, by simp, rfl, cliDemo_sound, cliDemo_complete⟩

/-! ## No coefficient of the problem is tiny -/

def cliDemoData : DataBase :=
  [(("L", "load"), .timeSeries [(0, 10), (1, 20)]), (("D", "max_load"), .const 5), (("D", "curtailment_price"), .const 50),
   (("A", "spillage_cost"), .const 1), (("A", "ens_cost"), .const 1000)]

theorem cliDemo_data : buildDataBase cliDemoStudy.load cliDemoStudy.system = .ok cliDemoData := rfl

theorem cliDemo_linked : cliDemoStudy.Linked shippedDemoNet := by
  obtain ⟨sys, h1, h2⟩ := shippedDemo_resolved
  exact StudyInput.linked cliDemo_sound shippedDemoLibs_shipped h1 h2

theorem cliDemo_noTiny : ∀ c ∈ shippedDemoNet.allComponents, (∀ k ∈ c.model.allConstraints, ∀ t s : Nat, t < cliDemoStudy.steps.length →
    s < cliDemoStudy.scenarios → (cliDemoStudy.context shippedDemoNet cliDemoData).NoTiny c k.expression t s) ∧
    ∀ e ∈ c.model.objectives, (cliDemoStudy.context shippedDemoNet cliDemoData).NoTiny c e 0 0 := by
  intro c hc
  simp only [shippedDemoNet, Network.allComponents, Dict.values, List.map_cons, List.map_nil, List.cons_append, List.nil_append,
    List.mem_cons, List.not_mem_nil, or_false] at hc
  rcases hc with rfl | rfl | rfl
  · refine ⟨?_, ?_⟩
    · intro k hk t s _ _
      simp only [shippedDemoA, Model.allConstraints, antaresAreaModel, Dict.values, List.map_cons, List.map_nil, List.append_nil,
        List.mem_cons, List.not_mem_nil, or_false] at hk
      subst hk
      refine noTiny_of_int (-(cliDemoStudy.context shippedDemoNet cliDemoData).dataValue "L" "load" (some t) (some s) - 5)
        [(⟨"D", "curtailment", some t, some s⟩, 1), (⟨"A", "spillage", some t, some s⟩, -1), (⟨"A", "unsupplied_energy", some t, some s⟩, 1)]
        fun var => ?_
      show (-(cliDemoStudy.context shippedDemoNet cliDemoData).dataValue "L" "load" (some (t : Int)) (some (s : Int)) +
        ((-5 + (var "D" "curtailment" (some (t : Int)) (some (s : Int)) + 0)) + 0)) +
        (-var "A" "spillage" (some (t : Int)) (some (s : Int)) + (- -var "A" "unsupplied_energy" (some (t : Int)) (some (s : Int)) + 0)) = _
      simp only [List.map_cons, List.map_nil, List.sum_cons, List.sum_nil]
      push_cast
      ring
    · intro e he
      simp only [shippedDemoA, Model.objectives, antaresAreaModel, Option.toList, List.append_nil, List.mem_cons, List.not_mem_nil, or_false] at he
      subst he
      refine noTiny_of_int 0
        [(⟨"A", "spillage", some 0, some 0⟩, 1), (⟨"A", "unsupplied_energy", some 0, some 0⟩, 1000),
         (⟨"A", "spillage", some 1, some 0⟩, 1), (⟨"A", "unsupplied_energy", some 1, some 0⟩, 1000)] fun var => ?_
      show (∑ w ∈ Finset.range 1, ∑ u ∈ Finset.range 2, (1 * var "A" "spillage" (some (u : Int)) (some (w : Int)) +
        (1000 * var "A" "unsupplied_energy" (some (u : Int)) (some (w : Int)) + 0))) / ((1 : Nat) : ℚ) = _
      rw [Finset.sum_range_one, Finset.sum_range_succ, Finset.sum_range_one]
      simp only [List.map_cons, List.map_nil, List.sum_cons, List.sum_nil]
      push_cast
      ring
  · refine ⟨?_, ?_⟩
    · intro k hk; simp [shippedDemoL, Model.allConstraints, antaresLoadModel, Dict.values] at hk
    · intro e he; simp [shippedDemoL, Model.objectives, antaresLoadModel] at he
  · refine ⟨?_, ?_⟩
    · intro k hk; simp [shippedDemoD, Model.allConstraints, andromedeDsrModel, Dict.values] at hk
    · intro e he
      simp only [shippedDemoD, Model.objectives, andromedeDsrModel, Option.toList, List.append_nil, List.mem_cons, List.not_mem_nil, or_false] at he
      subst he
      refine noTiny_of_int 0 [(⟨"D", "curtailment", some 0, some 0⟩, 50), (⟨"D", "curtailment", some 1, some 0⟩, 50)] fun var => ?_
      show (∑ w ∈ Finset.range 1, ∑ u ∈ Finset.range 2, var "D" "curtailment" (some (u : Int)) (some (w : Int)) * 50) / ((1 : Nat) : ℚ) = _
      rw [Finset.sum_range_one, Finset.sum_range_succ, Finset.sum_range_one]
      simp only [List.map_cons, List.map_nil, List.sum_cons, List.sum_nil]
      push_cast
      ring

theorem rearranged_refl (s : InputSystem) : s.Rearranged s where
  distinct _ _ _ _ e := e
  components := ⟨_, List.forall₂_same.2 fun _ _ => ⟨rfl, rfl, .refl _⟩, .refl _⟩
  connections := ⟨_, List.forall₂_same.2 fun _ _ => .same, .refl _⟩

/-- no coefficient is tiny in the problem of a command if none is in the problem of a network that stands for the same study with other names -/
theorem keptRun_of {os : Nat → SetOrder} (ho : ∀ i, (os i).Valid) {fuel : Nat} {d : Disk} {f : CliFlags} {paths : List String} {comp : String}
    {tables : Option String} {ls : List InputLibrary} {s s0 : InputSystem} {ρ : String → String} (h : ShippedCommand d f paths comp tables ls s)
    (hr : s0.Renamed ρ s) (hs0 : (d.study s0 tables f).Sound) (hj0 : ∀ k ∈ s0.connections, (d.study s0 tables f).Joins k)
    (hfuel : 3 * ls.length + 2 ≤ fuel) {net : Network} (hl : (d.study s0 tables f).Linked net) {db : DataBase}
    (hdb : buildDataBase (d.study s0 tables f).load s0 = .ok db)
    (hk : ∀ c ∈ net.allComponents, (∀ k ∈ c.model.allConstraints, ∀ t s' : Nat, t < (d.study s0 tables f).steps.length →
      s' < (d.study s0 tables f).scenarios → ((d.study s0 tables f).context net db).NoTiny c k.expression t s') ∧
      ∀ e ∈ c.model.objectives, ((d.study s0 tables f).context net db).NoTiny c e 0 0) : KeptRun textParser os fuel d f := by
  intro paths' comp' tables' ls' libs' s' sys' net' db' a1 a2 a3 a4 a5 a6 a7
  have x := (parseCli_iff (a := ⟨paths, comp, tables, f.duration, f.scenario⟩)).2 ⟨h.names, rfl, rfl⟩
  have y := (parseCli_iff (a := ⟨paths', comp', tables', f.duration, f.scenario⟩)).2 ⟨a1, rfl, rfl⟩
  rw [x] at y
  cases y
  have := readAs_unique h.read a2
  subst this
  have e := a4.symm.trans h.system
  cases e
  obtain ⟨libs, g1, g2, -⟩ := cli_shipped ho h.shipped hfuel
  rw [a3] at g1
  cases g1
  have hl' := StudyInput.linked h.sound g2 a5 a6
  have hp := renamed_part (I := d.study s0 tables f) hr
  have hren := renamed_networks (I := d.study s0 tables f) (I' := d.study s tables f) hr hp hs0 h.sound hj0 hl hl' hdb a7
  have hlen : (d.study s0 tables f).steps.length = f.duration := by simp [Disk.study]
  intro c' hc'
  obtain ⟨c, hc, rfl⟩ := List.mem_map.1 (hren.components.symm.subset hc')
  have hch := hl.checked hc
  have key := fun {e : Expr} (he : ∀ y ∈ e.subs, y.hasComponent = false) (t s : Nat) =>
    (renamed_net_part hren).noTiny (hl.networkOk db hs0) (hl'.networkOk db' h.sound) (hl.closed hs0) hc he t s (by positivity)
  refine ⟨fun k hkm t s ht hsc => ?_, fun e he => ?_⟩
  · exact key (hch.constraint_ok hkm).2.1 t s ((hk c hc).1 k hkm t s (by rw [hlen]; exact ht) hsc)
  · exact key (hch.objective_ok he).2.2.1 0 0 ((hk c hc).2 e he)

theorem cliDemo_kept (os : Nat → SetOrder) (ho : ∀ i, (os i).Valid) : KeptRun textParser os 8 cliDemoDisk cliDemoFlags :=
  keptRun_of ho cliDemo_command (rearranged_refl _) cliDemo_sound cliDemo_command.joins (Nat.le_refl _) cliDemo_linked cliDemo_data cliDemo_noTiny

/-- the hypotheses of `c84_command_partial` are met by the command on the demonstration study: it prints something, and the study is covered -/
example (os : Nat → SetOrder) (ho : ∀ i, (os i).Valid) : ∃ o net db, mainOutput idealSolver textParser os 8 cliDemoDisk cliDemoFlags = some (.ok o) ∧
    cliDemoStudy.Linked net ∧ buildDataBase cliDemoStudy.load cliDemoStudy.system = .ok db ∧ (cliDemoStudy.context net db).Expressible := by
  obtain ⟨net, db, o, h1, h2, h3, -⟩ := shipped_prints idealSolver_right ho cliDemo_command (Nat.le_refl _)
  exact ⟨o, net, db, h3, h1, h2, h1.expressible cliDemo_sound h2⟩

/-! ## What the study costs -/

theorem cliDemo_accepts (σ : TermKey → ℚ) : cliDemoStudy.Accepts σ ↔ ∀ t : Nat, t < 2 →
    (0 ≤ σ ⟨"D", "curtailment", some t, some 0⟩ ∧ σ ⟨"D", "curtailment", some t, some 0⟩ ≤ 5) ∧
    0 ≤ σ ⟨"A", "spillage", some t, some 0⟩ ∧ 0 ≤ σ ⟨"A", "unsupplied_energy", some t, some 0⟩ ∧
    -(10 * (t + 1)) - (5 - σ ⟨"D", "curtailment", some t, some 0⟩) + σ ⟨"A", "unsupplied_energy", some t, some 0⟩ =
      σ ⟨"A", "spillage", some t, some 0⟩ := by
  have hA : ∀ t : Nat, t < 2 → (Rules.area.accepts (cliDemoStudy.readings σ "A") t (0 : Nat) ↔
      0 ≤ σ ⟨"A", "spillage", some t, some 0⟩ ∧ 0 ≤ σ ⟨"A", "unsupplied_energy", some t, some 0⟩ ∧
      -(10 * (t + 1)) - (5 - σ ⟨"D", "curtailment", some t, some 0⟩) + σ ⟨"A", "unsupplied_energy", some t, some 0⟩ =
        σ ⟨"A", "spillage", some t, some 0⟩) := by
    intro t ht
    interval_cases t
    · show (0 ≤ σ ⟨"A", "spillage", some 0, some 0⟩ ∧ 0 ≤ σ ⟨"A", "unsupplied_energy", some 0, some 0⟩ ∧
        ((-10 + 0) + ((0 + (σ ⟨"D", "curtailment", some 0, some 0⟩ - 5)) + 0)) + σ ⟨"A", "unsupplied_energy", some 0, some 0⟩ =
          σ ⟨"A", "spillage", some 0, some 0⟩) ↔ _
      refine and_congr_right fun _ => and_congr_right fun _ => ?_
      push_cast
      constructor <;> intro h <;> linarith
    · show (0 ≤ σ ⟨"A", "spillage", some 1, some 0⟩ ∧ 0 ≤ σ ⟨"A", "unsupplied_energy", some 1, some 0⟩ ∧
        ((-20 + 0) + ((0 + (σ ⟨"D", "curtailment", some 1, some 0⟩ - 5)) + 0)) + σ ⟨"A", "unsupplied_energy", some 1, some 0⟩ =
          σ ⟨"A", "spillage", some 1, some 0⟩) ↔ _
      refine and_congr_right fun _ => and_congr_right fun _ => ?_
      push_cast
      constructor <;> intro h <;> linarith
  have hD : ∀ t : Nat, t < 2 → (Rules.dsr.accepts (cliDemoStudy.readings σ "D") t (0 : Nat) ↔
      0 ≤ σ ⟨"D", "curtailment", some t, some 0⟩ ∧ σ ⟨"D", "curtailment", some t, some 0⟩ ≤ 5) := by
    intro t ht
    interval_cases t <;> exact Iff.rfl
  constructor
  · intro h t ht
    refine ⟨(hD t ht).1 ?_, (hA t ht).1 ?_⟩
    · exact h (cliDemoStudy.declared[2]'(by decide)) (List.getElem_mem _) Rules.dsr rfl t 0 ht (by decide)
    · exact h (cliDemoStudy.declared[0]'(by decide)) (List.getElem_mem _) Rules.area rfl t 0 ht (by decide)
  · intro h c hc r hr t s ht hs
    have hs : s = 0 := Nat.lt_one_iff.1 hs
    subst hs
    simp only [StudyInput.declared, cliDemoStudy, shippedDemoStudy, Disk.study, List.cons_append, List.nil_append, List.mem_cons, List.not_mem_nil, or_false] at hc
    rcases hc with rfl | rfl | rfl
    · have : r = Rules.area := by cases hr; rfl
      subst this
      exact (hA t ht).2 (h t ht).2
    · have : r = Rules.load := by cases hr; rfl
      subst this
      trivial
    · have : r = Rules.dsr := by cases hr; rfl
      subst this
      exact (hD t ht).2 (h t ht).1

theorem cliDemo_cost (σ : TermKey → ℚ) : cliDemoStudy.cost σ =
    σ ⟨"A", "spillage", some 0, some 0⟩ + 1000 * σ ⟨"A", "unsupplied_energy", some 0, some 0⟩ +
    (σ ⟨"A", "spillage", some 1, some 0⟩ + 1000 * σ ⟨"A", "unsupplied_energy", some 1, some 0⟩) +
    50 * (σ ⟨"D", "curtailment", some 0, some 0⟩ + σ ⟨"D", "curtailment", some 1, some 0⟩) := by
  show ((∑ w ∈ Finset.range 1, ∑ u ∈ Finset.range 2, (1 * σ ⟨"A", "spillage", some (u : Int), some (w : Int)⟩ +
        1000 * σ ⟨"A", "unsupplied_energy", some (u : Int), some (w : Int)⟩)) / ((1 : Nat) : ℚ)) + (0 +
    ((∑ w ∈ Finset.range 1, ∑ u ∈ Finset.range 2, 50 * σ ⟨"D", "curtailment", some (u : Int), some (w : Int)⟩) / ((1 : Nat) : ℚ) + 0)) = _
  rw [Finset.sum_range_one, Finset.sum_range_one, Finset.sum_range_succ, Finset.sum_range_one, Finset.sum_range_succ, Finset.sum_range_one]
  push_cast
  ring

/-- curtail 5 and do not supply 10 then 20 -/
theorem cliDemo_least : LeastCost cliDemoStudy.Accepts cliDemoStudy.cost 30500 := by
  refine ⟨⟨fun k => if k.var = "curtailment" then 5 else if k.var = "unsupplied_energy" then (if k.time = some 0 then 10 else 20) else 0, ?_, ?_⟩, ?_⟩
  · rw [cliDemo_accepts]
    intro t ht
    interval_cases t <;> simp <;> norm_num
  · rw [cliDemo_cost]
    simp
    norm_num
  · intro σ hσ
    rw [cliDemo_accepts] at hσ
    obtain ⟨⟨a1, a2⟩, a3, a4, a5⟩ := hσ 0 (by decide)
    obtain ⟨⟨b1, b2⟩, b3, b4, b5⟩ := hσ 1 (by decide)
    rw [cliDemo_cost]
    push_cast at *
    linarith

theorem cliDemo_prints (solve : Solver → Answer) (hsolve : RightSolver solve) (os : Nat → SetOrder) (ho : ∀ i, (os i).Valid) :
    mainOutput solve textParser os 8 cliDemoDisk cliDemoFlags = some (.ok ⟨0, 30500⟩) := by
  obtain ⟨net, db, o, l, b, h, -, k, a⟩ := shipped_prints (fuel := 8) hsolve ho cliDemo_command (Nat.le_refl _)
  have hs := a (k (cliDemo_kept os ho))
  have h0 : o.status = 0 := hs.solved.2 ⟨_, cliDemo_least⟩
  have hc : o.cost = 30500 := by
    obtain ⟨⟨m, hm, e⟩, mm⟩ := hs.least h0
    obtain ⟨⟨n, hn, e'⟩, nn⟩ := cliDemo_least
    exact le_antisymm (e' ▸ mm n hn) (e ▸ nn m hm)
  rw [h]
  cases o
  cases h0
  cases hc
  rfl

/-! ## The study written in another order -/

/-- the system of `shippedDemoStudy`, without nodes, in another order, with a connection from the other end and with scenario groups -/
def otherOrder : InputSystem where
  components :=
    [⟨"D", "andromede-v1-models.dsr", some "g", [⟨"curtailment_price", false, false, .number 50, none⟩, ⟨"max_load", false, false, .number 5, none⟩]⟩,
     ⟨"A", "antares-historic.area", none, [⟨"spillage_cost", false, false, .number 1, none⟩, ⟨"ens_cost", false, false, .number 1000, none⟩]⟩,
     ⟨"L", "antares-historic.load", none, [⟨"load", true, false, .name "load", none⟩]⟩]
  connections := [⟨"D", "balance_port", "A", "balance_port"⟩, ⟨"L", "balance_port", "A", "balance_port"⟩]

theorem otherOrder_rearranged : shippedDemoStudy.system.Rearranged otherOrder where
  distinct _ _ _ _ e := e
  components :=
    ⟨[⟨"A", "antares-historic.area", none, [⟨"spillage_cost", false, false, .number 1, none⟩, ⟨"ens_cost", false, false, .number 1000, none⟩]⟩,
      ⟨"L", "antares-historic.load", none, [⟨"load", true, false, .name "load", none⟩]⟩,
      ⟨"D", "andromede-v1-models.dsr", some "g", [⟨"curtailment_price", false, false, .number 50, none⟩, ⟨"max_load", false, false, .number 5, none⟩]⟩],
      .cons ⟨rfl, rfl, .refl _⟩ (.cons ⟨rfl, rfl, .refl _⟩ (.cons ⟨rfl, rfl, .swap _ _ _⟩ .nil)),
      (List.Perm.cons _ (List.Perm.swap _ _ _)).trans (List.Perm.swap _ _ _)⟩
  connections := ⟨[⟨"L", "balance_port", "A", "balance_port"⟩, ⟨"D", "balance_port", "A", "balance_port"⟩],
    .cons .flipped (.cons .same .nil), List.Perm.swap _ _ _⟩

example : mainOutput idealSolver textParser (fun _ => lastOrder) 9 { cliDemoDisk with system := fun _ => .ok otherOrder } cliDemoFlags =
    some (.ok ⟨0, 30500⟩) := by
  obtain ⟨o, o', h1, h2, h3⟩ := c78_command idealSolver idealSolver_right (fun _ => firstOrder) (fun _ => lastOrder)
    (fun _ => firstOrder_valid) (fun _ => lastOrder_valid) 8 9 cliDemoDisk { cliDemoDisk with system := fun _ => .ok otherOrder } cliDemoFlags
    cliDemoFlags cliDemo_command otherOrder_rearranged
    (.directory (s := "study") (files := ["andromede_v1_models.yml", "antares_historic.yml"]) rfl rfl rfl rfl rfl)
    (ls' := [andromedeInput, antaresInput]) (.cons rfl (.cons rfl .nil)) (by decide) (by simp) (fun _ h => h) rfl rfl rfl rfl (Nat.le_refl _)
    (by decide)
  obtain ⟨h3, h4⟩ := h3
  rw [cliDemo_prints idealSolver idealSolver_right (fun _ => firstOrder) fun _ => firstOrder_valid] at h1
  cases h1
  have h3 := h3.1 rfl
  have h4 := h4 rfl
  rw [h2]
  cases o'
  cases h3
  cases h4
  rfl

/-! ## The study with other names -/

/-- the same system with other names -/
def otherNames : InputSystem where
  nodes := [⟨"A2", "antares-historic.area", none, [⟨"spillage_cost", false, false, .number 1, none⟩, ⟨"ens_cost", false, false, .number 1000, none⟩]⟩]
  components :=
    [⟨"L2", "antares-historic.load", none, [⟨"load", true, false, .name "load", none⟩]⟩,
     ⟨"D2", "andromede-v1-models.dsr", none, [⟨"max_load", false, false, .number 5, none⟩, ⟨"curtailment_price", false, false, .number 50, none⟩]⟩]
  connections := [⟨"A2", "balance_port", "L2", "balance_port"⟩, ⟨"D2", "balance_port", "A2", "balance_port"⟩]

theorem otherNames_renamed : shippedDemoStudy.system.Renamed (· ++ "2") otherNames where
  distinct := by decide
  components := ⟨otherNames.declared, .cons ⟨by decide, rfl, .refl _⟩ (.cons ⟨by decide, rfl, .refl _⟩ (.cons ⟨by decide, rfl, .refl _⟩ .nil)), .refl _⟩
  connections := ⟨[⟨"A2", "balance_port", "L2", "balance_port"⟩, ⟨"D2", "balance_port", "A2", "balance_port"⟩], .cons .same (.cons .same .nil), .refl _⟩

example : mainOutput idealSolver textParser (fun _ => firstOrder) 8 { cliDemoDisk with system := fun _ => .ok otherNames } cliDemoFlags =
    some (.ok ⟨0, 30500⟩) := by
  obtain ⟨o, o', h1, h2, h3⟩ := c79_command idealSolver idealSolver_right (fun _ => firstOrder) (fun _ => firstOrder)
    (fun _ => firstOrder_valid) (fun _ => firstOrder_valid) 8 8 _ cliDemoDisk { cliDemoDisk with system := fun _ => .ok otherNames } cliDemoFlags
    cliDemoFlags cliDemo_command otherNames_renamed
    (.directory (s := "study") (files := ["andromede_v1_models.yml", "antares_historic.yml"]) rfl rfl rfl rfl rfl)
    (ls' := [andromedeInput, antaresInput]) (.cons rfl (.cons rfl .nil)) (by decide) (by simp) (fun _ h => h) rfl rfl rfl rfl (Nat.le_refl _)
    (Nat.le_refl _)
  obtain ⟨h3, h4⟩ := h3
  rw [cliDemo_prints idealSolver idealSolver_right (fun _ => firstOrder) fun _ => firstOrder_valid] at h1
  cases h1
  have h3 := h3.1 rfl
  have h4 := h4 rfl
  rw [h2]
  cases o'
  cases h3
  cases h4
  rfl

/-! ## The two side by side -/

def bothDemos : InputSystem where
  nodes := shippedDemoStudy.system.nodes ++ otherNames.nodes
  components := shippedDemoStudy.system.components ++ otherNames.components
  connections := otherNames.connections ++ shippedDemoStudy.system.connections

theorem bothDemos_side : shippedDemoStudy.system.SideBySide otherNames bothDemos where
  distinct := by decide
  components := by decide
  connections := by decide

def otherNamesDisk : Disk := { cliDemoDisk with system := fun _ => .ok otherNames }

theorem otherNames_command : ShippedCommand otherNamesDisk cliDemoFlags
    ["study/input/models/andromede_v1_models.yml", "study/input/models/antares_historic.yml"] "study/input/components/components.yml"
    (some "study/input/components/series") [andromedeInput, antaresInput] otherNames :=
  renamed_command cliDemo_command otherNames_renamed
    (.directory (s := "study") (files := ["andromede_v1_models.yml", "antares_historic.yml"]) rfl rfl rfl rfl rfl)
    (.cons rfl (.cons rfl .nil)) (by decide) (by simp) (fun _ h => h) rfl rfl rfl rfl

/-- two copies of the same study side by side cost twice as much -/
example : mainOutput idealSolver textParser (fun _ => firstOrder) 8 { cliDemoDisk with system := fun _ => .ok bothDemos } cliDemoFlags =
    some (.ok ⟨0, 61000⟩) := by
  obtain ⟨o1, o2, o, h1, h2, h, hk⟩ := c80_command idealSolver idealSolver_right (fun _ => firstOrder) (fun _ => firstOrder)
    (fun _ => firstOrder) (fun _ => firstOrder_valid) (fun _ => firstOrder_valid) (fun _ => firstOrder_valid) 8 8 8 cliDemoDisk otherNamesDisk
    { cliDemoDisk with system := fun _ => .ok bothDemos } cliDemoFlags cliDemoFlags cliDemoFlags cliDemo_command otherNames_command bothDemos_side
    (.directory (s := "study") (files := ["andromede_v1_models.yml", "antares_historic.yml"]) rfl rfl rfl rfl rfl)
    (ls := [andromedeInput, antaresInput]) (.cons rfl (.cons rfl .nil)) (by decide) (by simp) (by simp) rfl rfl rfl rfl rfl rfl rfl
    (Nat.le_refl _) (Nat.le_refl _) (Nat.le_refl _)
  obtain ⟨p1, p2⟩ := hk
  obtain ⟨q, q', g1, g2, g3⟩ := c79_command idealSolver idealSolver_right (fun _ => firstOrder) (fun _ => firstOrder)
    (fun _ => firstOrder_valid) (fun _ => firstOrder_valid) 8 8 _ cliDemoDisk otherNamesDisk cliDemoFlags cliDemoFlags cliDemo_command
    otherNames_renamed otherNames_command.names otherNames_command.read otherNames_command.distinct otherNames_command.shipped (fun _ h => h)
    otherNames_command.system rfl rfl rfl (Nat.le_refl _) (Nat.le_refl _)
  obtain ⟨g3, g4⟩ := g3
  rw [h1] at g1
  rw [h2] at g2
  cases g1
  cases g2
  have e := cliDemo_prints idealSolver idealSolver_right (fun _ => firstOrder) fun _ => firstOrder_valid
  rw [h1] at e
  cases e
  have h0 : o.status = 0 := p1.2 ⟨rfl, g3.1 rfl⟩
  have hc : o.cost = 61000 := by
    rw [p2 h0, ← g4 rfl]
    norm_num
  rw [h]
  cases o
  cases h0
  cases hc
  rfl

end Verif.Props
