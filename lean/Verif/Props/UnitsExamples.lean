import Verif.Props.UnitsShipped
import Verif.Props.RepricedExamples

/-!
# C89 and C90: examples, sizes so small that they count as zero, and units so large that prices count as zero
-/

namespace Verif.Props
open Verif Verif.Doc Verif.Shipped Verif.OptCtx

/-! ## A load of `v` that is not supplied, at the price `u` -/

def hamlet (u v : ℚ) : InputSystem where
  nodes := [⟨"A", "antares-historic.area", none, [⟨"spillage_cost", false, false, .number (.fin u), none⟩,
    ⟨"ens_cost", false, false, .number (.fin u), none⟩]⟩]
  components := [⟨"L", "antares-historic.load", none, [⟨"load", false, false, .number (.fin v), none⟩]⟩]
  connections := [⟨"A", "balance_port", "L", "balance_port"⟩]

def hamletDisk (u v : ℚ) : Disk := { cliDemoDisk with
  system := fun p => if p = "study/input/components/components.yml" then .ok (hamlet u v) else .error (.exception "FileNotFoundError")
  table := fun _ _ => .error (.exception "FileNotFoundError") }

def hamletFlags : CliFlags := { study := some "study", duration := 1, scenario := 1 }

def hamletStudy (u v : ℚ) : StudyInput := (hamletDisk u v).study (hamlet u v) (some "study/input/components/series") hamletFlags

variable {u v : ℚ}

theorem hamlet_declared : (hamletStudy u v).declared = (hamlet u v).nodes ++ (hamlet u v).components := rfl

theorem hamlet_number {c : InputComponent} (hc : c ∈ (hamletStudy u v).declared) {p : InputParam} (hp : p ∈ c.parameters) :
    p.timeDependent = false ∧ p.scenarioDependent = false ∧ ∃ v : ℚ, p.value = .number (.fin v) := by
  simp only [hamlet_declared, hamlet, List.cons_append, List.nil_append, List.mem_cons, List.not_mem_nil, or_false] at hc
  rcases hc with rfl | rfl <;> simp only [List.mem_cons, List.not_mem_nil, or_false] at hp <;> (try casesm* _ ∨ _) <;> subst hp <;>
    exact ⟨rfl, rfl, _, rfl⟩

theorem hamlet_sound : (hamletStudy u v).Sound := by
  refine ⟨by rw [hamlet_declared]; simp [hamlet], by rw [hamlet_declared]; simp [hamlet], ?_, ?_, by simp [hamletStudy, Disk.study, hamletFlags], ?_, Nat.one_pos, ?_⟩
  · intro n f h
    cases h
  · intro c hc p hp t s v h
    obtain ⟨h1, h2, w, h3⟩ := hamlet_number hc hp
    obtain ⟨i, b1, b2, val, g⟩ := p
    subst h1 h2 h3
    cases h
    rfl
  · intro t ht
    have ht : t ∈ [(0 : Int)] := ht
    simp only [List.mem_cons, List.not_mem_nil, or_false] at ht
    omega
  · intro c hc p hp r hr q hq hid
    obtain ⟨h1, h2, -⟩ := hamlet_number hc hp
    simp [h1, h2]

theorem hamlet_complete (libs : Dict String Library)
    (hlib : ∀ l ∈ [andromedeInput, antaresInput], (Dict.get? libs l.id).isSome = true) : (hamletStudy u v).Complete libs := by
  refine ⟨?_, ?_, ?_, ?_, ?_, ?_⟩
  · intro c hc
    simp only [hamlet_declared, hamlet, List.cons_append, List.nil_append, List.mem_cons, List.not_mem_nil, or_false] at hc
    have h1 : Rules.libraryOf "antares-historic.area" = antaresInput.id := by decide +kernel
    have h2 : Rules.libraryOf "antares-historic.load" = antaresInput.id := by decide +kernel
    have ha := hlib antaresInput (by simp)
    rcases hc with rfl | rfl
    · exact ⟨⟨_, rfl⟩, h1 ▸ ha⟩
    · exact ⟨⟨_, rfl⟩, h2 ▸ ha⟩
  · intro c hc r hr z hz
    simp only [hamlet_declared, hamlet, List.cons_append, List.nil_append, List.mem_cons, List.not_mem_nil, or_false] at hc
    rcases hc with rfl | rfl
    · obtain rfl : r = Rules.area := by cases hr; rfl
      simp only [Rules.area, List.mem_cons, List.not_mem_nil, or_false] at hz
      rcases hz with rfl | rfl <;> simp
    · obtain rfl : r = Rules.load := by cases hr; rfl
      simp only [Rules.load, List.mem_cons, List.not_mem_nil, or_false] at hz
      subst hz
      simp
  · intro c hc p hp
    obtain ⟨h1, h2, w, h3⟩ := hamlet_number hc hp
    obtain ⟨i, b1, b2, val, g⟩ := p
    subst h1 h2 h3
    exact ⟨rfl, rfl⟩
  · intro c hc p hp t ht s hs
    obtain ⟨h1, h2, w, h3⟩ := hamlet_number hc hp
    obtain ⟨i, b1, b2, val, g⟩ := p
    subst h1 h2 h3
    exact ⟨_, rfl⟩
  · intro z hz
    have hz : z ∈ (hamlet u v).connections := hz
    simp only [hamlet, List.mem_cons, List.not_mem_nil, or_false] at hz
    subst hz
    refine ⟨Rules.area, Rules.load, _, _, rfl, rfl, .head _, .head _, rfl, ?_⟩
    intro f hf
    simp only [List.map_cons, List.map_nil, List.mem_cons, List.not_mem_nil, or_false] at hf
    subst hf
    simp [Rules.sends, Rules.area, Rules.load]
  · intro c hc d hd t s ht hs
    simp only [hamlet_declared, hamlet, List.cons_append, List.nil_append, List.mem_cons, List.not_mem_nil, or_false] at hc
    rcases hc with rfl | rfl
    · simp [Rules.needs] at hd
    · simp [Rules.needs] at hd

theorem hamlet_command : ShippedCommand (hamletDisk u v) hamletFlags
    ["study/input/models/andromede_v1_models.yml", "study/input/models/antares_historic.yml"] "study/input/components/components.yml"
    (some "study/input/components/series") [andromedeInput, antaresInput] (hamlet u v) :=
  ⟨.directory (s := "study") (files := ["andromede_v1_models.yml", "antares_historic.yml"]) rfl rfl rfl rfl rfl, .cons rfl (.cons rfl .nil),
    by decide, by simp, rfl, hamlet_sound, hamlet_complete⟩

def hamletNet : Network where
  id := "study"
  nodes := [("A", tradeA)]
  components := [("L", tradeL)]
  connections := [⟨⟨tradeA, "balance_port"⟩, ⟨tradeL, "balance_port"⟩, [("flow", ⟨tradeL, "balance_port"⟩)]⟩]

def hamletData (u v : ℚ) : DataBase :=
  [(("L", "load"), .const (.fin v)), (("A", "spillage_cost"), .const (.fin u)), (("A", "ens_cost"), .const (.fin u))]

def hamletBare : InputSystem where
  nodes := [⟨"A", "antares-historic.area", none, []⟩]
  components := [⟨"L", "antares-historic.load", none, []⟩]
  connections := (hamlet 0 0).connections

theorem hamlet_resolved (u v : ℚ) (libs : Dict String Library) : resolveSystem (hamlet u v) libs = resolveSystem hamletBare libs := by
  have h1 := appendAll_map (resolveComponent libs) (fun c => { c with parameters := [] }) (fun _ => rfl) (hamlet u v).components
  have h2 := appendAll_map (resolveComponent libs) (fun c => { c with parameters := [] }) (fun _ => rfl) (hamlet u v).nodes
  unfold resolveSystem
  rw [← h1, ← h2]
  rfl

theorem hamlet_linked : (hamletStudy u v).Linked hamletNet := by
  have : ∃ sys, resolveSystem hamletBare shippedDemoLibs = .ok sys ∧ buildNetwork sys = .ok hamletNet := ⟨_, rfl, rfl⟩
  obtain ⟨sys, h1, h2⟩ := this
  exact StudyInput.linked (hamlet_sound) shippedDemoLibs_shipped ((hamlet_resolved u v _).trans h1) h2

/-- the only cost is that of area A -/
theorem hamlet_cost1 (W : String → String → Option Int → Option Int → ℚ) : ∀ c ∈ hamletNet.allComponents, ∀ e ∈ c.model.objectives,
    mden (((hamletStudy u v).context hamletNet (hamletData u v)).readAs (((hamletStudy u v).context hamletNet (hamletData u v)).unwrapped W) c) e 0 0 =
      u * W "A" "spillage" (some 0) (some 0) + u * W "A" "unsupplied_energy" (some 0) (some 0) := by
  intro c hc e he
  simp only [hamletNet, Network.allComponents, Dict.values, List.map_cons, List.map_nil, List.cons_append, List.nil_append,
    List.mem_cons, List.not_mem_nil, or_false] at hc
  rcases hc with rfl | rfl
  · simp only [tradeA, Model.objectives, antaresAreaModel, Option.toList, List.append_nil, List.mem_cons, List.not_mem_nil, or_false] at he
    subst he
    show (∑ w ∈ Finset.range 1, ∑ z ∈ Finset.range 1, (u * W "A" "spillage" (some (z : Int)) (some (w : Int)) +
      (u * W "A" "unsupplied_energy" (some (z : Int)) (some (w : Int)) + 0))) / ((1 : Nat) : ℚ) = _
    rw [Finset.sum_range_one, Finset.sum_range_one]
    push_cast
    ring
  · simp [tradeL, Model.objectives, antaresLoadModel] at he

theorem hamlet_noTiny (hu : 1 / 10 ^ 16 ≤ u) : ∀ c ∈ hamletNet.allComponents, (∀ z ∈ c.model.allConstraints, ∀ t s : Nat,
    t < (hamletStudy u v).steps.length → s < (hamletStudy u v).scenarios →
    ((hamletStudy u v).context hamletNet (hamletData u v)).NoTiny c z.expression t s) ∧
    ∀ e ∈ c.model.objectives, ((hamletStudy u v).context hamletNet (hamletData u v)).NoTiny c e 0 0 := by
  refine fun c hc => ⟨?_, fun e he W κ => ?_⟩
  · simp only [hamletNet, Network.allComponents, Dict.values, List.map_cons, List.map_nil, List.cons_append, List.nil_append,
      List.mem_cons, List.not_mem_nil, or_false] at hc
    rcases hc with rfl | rfl
    · intro z hz t s _ _
      simp only [tradeA, Model.allConstraints, antaresAreaModel, Dict.values, List.map_cons, List.map_nil, List.append_nil,
        List.mem_cons, List.not_mem_nil, or_false] at hz
      subst hz
      refine noTiny_of_int (-v) [(⟨"A", "spillage", some t, some s⟩, -1), (⟨"A", "unsupplied_energy", some t, some s⟩, 1)] fun W => ?_
      show (-v + 0) + (-W "A" "spillage" (some (t : Int)) (some (s : Int)) + (- -W "A" "unsupplied_energy" (some (t : Int)) (some (s : Int)) + 0)) = _
      simp only [List.map_cons, List.map_nil, List.sum_cons, List.sum_nil]
      push_cast
      ring
    · intro z hz; simp [tradeL, Model.allConstraints, antaresLoadModel, Dict.values] at hz
  · intro var' change
    have hu0 : 0 < u := lt_of_lt_of_le (by norm_num) hu
    have hch : change = u * (if κ = ⟨"A", "spillage", some 0, some 0⟩ then 1 else 0) +
        u * (if κ = ⟨"A", "unsupplied_energy", some 0, some 0⟩ then 1 else 0) := by
      show mden _ e 0 0 - mden _ e 0 0 = _
      rw [hamlet_cost1 _ c hc e he, hamlet_cost1 _ c hc e he]
      dsimp only [var']
      split_ifs <;> ring
    rw [hch]
    by_cases h1 : κ = ⟨"A", "spillage", some 0, some 0⟩
    · subst h1
      right
      simpa [abs_of_pos hu0] using hu
    · by_cases h2 : κ = ⟨"A", "unsupplied_energy", some 0, some 0⟩
      · subst h2
        right
        simpa [abs_of_pos hu0] using hu
      · left
        simp [h1, h2]

theorem hamlet_kept (hu : 1 / 10 ^ 16 ≤ u) (os : Nat → SetOrder) (ho : ∀ i, (os i).Valid) :
    KeptRun textParser os 8 (hamletDisk u v) hamletFlags := by
  have hx : buildDataBase (hamletStudy u v).load (hamlet u v) = .ok (hamletData u v) := rfl
  exact keptRun_of ho hamlet_command (rearranged_refl _) hamlet_sound hamlet_command.joins (Nat.le_refl _)
    hamlet_linked hx (hamlet_noTiny hu)

theorem hamlet_accepts (σ : TermKey → ℚ) : (hamletStudy u v).Accepts σ ↔
    0 ≤ σ ⟨"A", "spillage", some 0, some 0⟩ ∧ 0 ≤ σ ⟨"A", "unsupplied_energy", some 0, some 0⟩ ∧
      -v + σ ⟨"A", "unsupplied_energy", some 0, some 0⟩ = σ ⟨"A", "spillage", some 0, some 0⟩ := by
  have hA : Rules.area.accepts ((hamletStudy u v).readings σ "A") (0 : Nat) (0 : Nat) ↔
      0 ≤ σ ⟨"A", "spillage", some 0, some 0⟩ ∧ 0 ≤ σ ⟨"A", "unsupplied_energy", some 0, some 0⟩ ∧
      -v + σ ⟨"A", "unsupplied_energy", some 0, some 0⟩ = σ ⟨"A", "spillage", some 0, some 0⟩ := by
    show (0 ≤ σ ⟨"A", "spillage", some 0, some 0⟩ ∧ 0 ≤ σ ⟨"A", "unsupplied_energy", some 0, some 0⟩ ∧
        ((-v + 0) + 0) + σ ⟨"A", "unsupplied_energy", some 0, some 0⟩ = σ ⟨"A", "spillage", some 0, some 0⟩) ↔ _
    refine and_congr_right fun _ => and_congr_right fun _ => ?_
    constructor <;> intro h <;> linarith
  constructor
  · intro h
    exact hA.1 (h ((hamletStudy u v).declared[0]'(show 0 < 2 from Nat.two_pos)) (List.getElem_mem _) Rules.area rfl 0 0 Nat.one_pos Nat.one_pos)
  · rintro ha c hc r hr t s ht hs
    have hs : s = 0 := Nat.lt_one_iff.1 hs
    have ht : t = 0 := Nat.lt_one_iff.1 ht
    subst hs ht
    simp only [hamlet_declared, hamlet, List.cons_append, List.nil_append, List.mem_cons, List.not_mem_nil, or_false] at hc
    rcases hc with rfl | rfl
    · obtain rfl : r = Rules.area := by cases hr; rfl
      exact hA.2 ha
    · obtain rfl : r = Rules.load := by cases hr; rfl
      trivial

theorem hamlet_cost (σ : TermKey → ℚ) : (hamletStudy u v).cost σ =
    u * σ ⟨"A", "spillage", some 0, some 0⟩ + u * σ ⟨"A", "unsupplied_energy", some 0, some 0⟩ := by
  show ((∑ w ∈ Finset.range 1, ∑ z ∈ Finset.range 1, (u * σ ⟨"A", "spillage", some (z : Int), some (w : Int)⟩ +
        u * σ ⟨"A", "unsupplied_energy", some (z : Int), some (w : Int)⟩)) / ((1 : Nat) : ℚ)) + (0 + 0) = _
  rw [Finset.sum_range_one, Finset.sum_range_one]
  push_cast
  ring

theorem hamlet_least (hu : 0 ≤ u) (hv : 0 ≤ v) : LeastCost (hamletStudy u v).Accepts (hamletStudy u v).cost (u * v) := by
  refine ⟨⟨fun k => if k = ⟨"A", "unsupplied_energy", some 0, some 0⟩ then v else 0, ?_, ?_⟩, ?_⟩
  · rw [hamlet_accepts]
    simpa using hv
  · rw [hamlet_cost]
    simp
  · intro σ hσ
    obtain ⟨a1, a2, a3⟩ := (hamlet_accepts σ).1 hσ
    rw [hamlet_cost]
    nlinarith


theorem hamlet_parameter_A (u v : ℚ) (n : String) (t : Int) (s : Nat) :
    (hamletStudy u v).parameter "A" n t s = if n = "spillage_cost" ∨ n = "ens_cost" then u else 0 := by
  by_cases h1 : n = "spillage_cost"
  · subst h1; rfl
  by_cases h2 : n = "ens_cost"
  · subst h2; rfl
  simp [StudyInput.parameter, StudyInput.component?, hamlet_declared, hamlet, h1, h2, Ne.symm h1, Ne.symm h2]

theorem hamlet_parameter_L (u v : ℚ) (n : String) (t : Int) (s : Nat) :
    (hamletStudy u v).parameter "L" n t s = if n = "load" then v else 0 := by
  by_cases h1 : n = "load"
  · subst h1; rfl
  simp [StudyInput.parameter, StudyInput.component?, hamlet_declared, hamlet, h1, Ne.symm h1]

theorem hamlet_all {u v : ℚ} {P : InputComponent → Prop} (hA : ∀ ps, P ⟨"A", "antares-historic.area", none, ps⟩)
    (hL : ∀ ps, P ⟨"L", "antares-historic.load", none, ps⟩) : ∀ c ∈ (hamletStudy u v).declared, P c := by
  intro c hc
  simp only [hamlet_declared, hamlet, List.cons_append, List.nil_append, List.mem_cons, List.not_mem_nil, or_false] at hc
  rcases hc with rfl | rfl
  · exact hA _
  · exact hL _

theorem hamlet_parts (u v u' v' : ℚ) : (hamletStudy u v).SameParts (hamletStudy u' v') := ⟨rfl, rfl, rfl, rfl⟩

theorem hamlet_enlarged (u v k : ℚ) : (hamletStudy u v).Enlarged k (hamletStudy u (k * v)) where
  toSameParts := hamlet_parts _ _ _ _
  sizes := hamlet_all (fun _ n hn t s _ _ => by
      simp only [hamlet_parameter_A]
      rw [if_neg, mul_zero]
      rintro (rfl | rfl) <;> simp [energies, unitPrices] at hn) fun _ n hn t s _ _ => by
    simp only [hamlet_parameter_L, mul_ite, mul_zero]
  others := hamlet_all (fun _ n _ _ t s _ _ => by simp only [hamlet_parameter_A]) fun _ n hn _ t s _ _ => by
    simp only [hamlet_parameter_L]
    rw [if_neg, if_neg] <;> (rintro rfl; simp [energies] at hn)

theorem hamlet_otherUnit (u v k : ℚ) : (hamletStudy u v).InOtherUnit k (hamletStudy (u / k) (k * v)) where
  toSameParts := hamlet_parts _ _ _ _
  energies := hamlet_all (fun _ n hn t s _ _ => by
      simp only [hamlet_parameter_A]
      rw [if_neg, if_neg, mul_zero] <;> (rintro (rfl | rfl) <;> simp [energies] at hn)) fun _ n hn t s _ _ => by
    simp only [hamlet_parameter_L, mul_ite, mul_zero]
  prices := hamlet_all (fun _ n hn t s _ _ => by simp only [hamlet_parameter_A, ite_div, zero_div]) fun _ n hn t s _ _ => by
    simp only [hamlet_parameter_L]
    rw [if_neg, if_neg, zero_div] <;> (rintro rfl; simp [energyPrices] at hn)
  others := hamlet_all (fun _ n _ hn t s _ _ => by
      simp only [hamlet_parameter_A]
      rw [if_neg, if_neg] <;> (rintro (rfl | rfl) <;> simp [energyPrices] at hn)) fun _ n hn _ t s _ _ => by
    simp only [hamlet_parameter_L]
    rw [if_neg, if_neg] <;> (rintro rfl; simp [energies] at hn)

/-- `k` times as large, for any price, even a tiny one -/
example (u v k : ℚ) (hk : 0 < k) : ∃ o o' : Printed,
    mainOutput idealSolver textParser (fun _ => firstOrder) 8 (hamletDisk u v) hamletFlags = some (.ok o) ∧
    mainOutput idealSolver textParser (fun _ => firstOrder) 8 (hamletDisk u (k * v)) hamletFlags = some (.ok o') ∧
    (o'.status = 0 ↔ o.status = 0) ∧ (o.status = 0 → o'.cost = k * o.cost) :=
  c89_command idealSolver idealSolver_right (fun _ => firstOrder) (fun _ => firstOrder) (fun _ => firstOrder_valid) (fun _ => firstOrder_valid) 8 8
    (hamletDisk u v) (hamletDisk u (k * v)) hamletFlags hamletFlags hamlet_command (Nat.le_refl _) hamlet_command (Nat.le_refl _) k hk (hamlet_enlarged u v k)
    (hamlet_all (fun _ => show "antares-historic.area" ≠ "antares-historic.thermal" by decide)
      fun _ => show "antares-historic.load" ≠ "antares-historic.thermal" by decide)

/-- in a unit that is 1000 times as large -/
example : ∃ o o' : Printed,
    mainOutput idealSolver textParser (fun _ => firstOrder) 8 (hamletDisk 5 4000) hamletFlags = some (.ok o) ∧
    mainOutput idealSolver textParser (fun _ => firstOrder) 8 (hamletDisk 5000 4) hamletFlags = some (.ok o') ∧
    (o'.status = 0 ↔ o.status = 0) ∧ (o.status = 0 → o'.cost = o.cost) := by
  have e := hamlet_otherUnit 5 4000 (1 / 1000)
  rw [show (5 : ℚ) / (1 / 1000) = 5000 by norm_num, show (1 : ℚ) / 1000 * 4000 = 4 by norm_num] at e
  obtain ⟨o, o', h, h', q⟩ := c90_command_partial idealSolver idealSolver_right (fun _ => firstOrder) (fun _ => firstOrder)
    (fun _ => firstOrder_valid) (fun _ => firstOrder_valid) 8 8 (hamletDisk 5 4000) (hamletDisk 5000 4) hamletFlags hamletFlags hamlet_command (Nat.le_refl _)
    hamlet_command (Nat.le_refl _) (1 / 1000) (by norm_num) e
  exact ⟨o, o', h, h', q (hamlet_kept (by norm_num) _ fun _ => firstOrder_valid) (hamlet_kept (by norm_num) _ fun _ => firstOrder_valid)⟩

/-- the hypotheses of `c89_any_models` are met by the problem of the example -/
example (u v k : ℚ) : ∃ (U : String → Units) (w : ℤ) (x y : OptCtx), x.Rescaled k U y ∧ x.Consistent U w ∧ x.NetworkOk ∧ x.Closed ∧ x.OwnSymbols ∧
    0 < x.scenarios ∧ x.OnePower U w := by
  have model : ∀ c ∈ hamletNet.allComponents, consistentModel (sizes []) 1 c.model = true ∧ onePowerModel (sizes []) 1 c.model = true := by
    intro c hc
    simp only [hamletNet, Network.allComponents, Dict.values, List.map_cons, List.map_nil, List.cons_append, List.nil_append,
      List.mem_cons, List.not_mem_nil, or_false] at hc
    rcases hc with rfl | rfl
    · exact shipped_oneSize ("antares-historic.area", _, Rules.area) (by simp [shippedModels, tradeA]) (by decide)
    · exact shipped_oneSize ("antares-historic.load", _, Rules.load) (by simp [shippedModels, tradeL]) (by decide)
  have l : (hamletStudy u v).Linked hamletNet := hamlet_linked
  exact ⟨fun _ => sizes [], 1, (hamletStudy u v).context hamletNet (hamletData u v), (hamletStudy u (k * v)).context hamletNet (hamletData u (k * v)),
    rescaled_context (hamlet_parts _ _ _ _) (enlarged_values (hamlet_enlarged u v k) []) hamlet_sound hamlet_sound l rfl rfl,
    consistent_context hamlet_sound l (fun c hc => (model c hc).1) fun _ _ => rfl, l.networkOk _ hamlet_sound, l.closed hamlet_sound, l.ownSymbols,
    Nat.one_pos, onePower_context rfl fun c hc => (model c hc).2⟩

/-! ## Prices that count as zero in a larger unit -/

theorem hamlet_repriced (u v k : ℚ) : (hamletStudy u v).Repriced k (hamletStudy (k * u) v) where
  toSameParts := hamlet_parts _ _ _ _
  prices := hamlet_all (fun _ n hn t s _ _ => by simp only [hamlet_parameter_A, mul_ite, mul_zero]) fun _ n hn t s _ _ => by
    simp only [hamlet_parameter_L]
    rw [if_neg, mul_zero]
    rintro rfl
    simp [prices] at hn
  others := hamlet_all (fun _ n hn t s _ _ => by
      simp only [hamlet_parameter_A]
      rw [if_neg, if_neg] <;> (rintro (rfl | rfl) <;> simp [prices] at hn)) fun _ n hn t s _ _ => by
    simp only [hamlet_parameter_L]

theorem hamlet_free (hu : |u| < 1 / 10 ^ 16) (σ : TermKey → ℚ) :
    ((hamletStudy u v).context hamletNet (hamletData u v)).keptCost σ = 0 := by
  unfold OptCtx.keptCost
  refine List.sum_eq_zero fun w hw => ?_
  obtain ⟨c, hc, rfl⟩ := List.mem_map.1 hw
  refine List.sum_eq_zero fun w hw => ?_
  obtain ⟨e, he, rfl⟩ := List.mem_map.1 hw
  rw [context_contributions] at he
  have h := fun W => hamlet_cost1 (u := u) (v := v) W c hc e he
  have h0 : ((hamletStudy u v).context hamletNet (hamletData u v)).fixedPart c e 0 0 = 0 := by
    unfold OptCtx.fixedPart
    rw [h]
    ring
  have hc : ∀ κ, keep (((hamletStudy u v).context hamletNet (hamletData u v)).coefficient c e 0 0 κ) = 0 := by
    intro κ
    unfold OptCtx.coefficient
    rw [h0, h, sub_zero]
    have small : |u * (if κ = ⟨"A", "spillage", some 0, some 0⟩ then (1 : ℚ) else 0) +
        u * (if κ = ⟨"A", "unsupplied_energy", some 0, some 0⟩ then (1 : ℚ) else 0)| < 1 / 10 ^ 16 := by
      by_cases h1 : κ = ⟨"A", "spillage", some 0, some 0⟩
      · subst h1; simpa using hu
      by_cases h2 : κ = ⟨"A", "unsupplied_energy", some 0, some 0⟩
      · subst h2; simpa using hu
      simp [h1, h2]
    unfold keep
    rw [if_pos small]
  unfold OptCtx.keptValue
  simp [h0, hc]

/-- what the command prints at a price that is not tiny -/
theorem hamlet_prints (solve : Solver → Answer) (hsolve : RightSolver solve) (os : Nat → SetOrder) (ho : ∀ i, (os i).Valid) (hu : 1 / 10 ^ 16 ≤ u)
    (hv : 0 ≤ v) : mainOutput solve textParser os 8 (hamletDisk u v) hamletFlags = some (.ok ⟨0, u * v⟩) ∧
      ∃ σ, ((hamletStudy u v).context hamletNet (hamletData u v)).KeptFeasible σ := by
  have hu0 : 0 ≤ u := le_trans (by norm_num) hu
  obtain ⟨net, db, o, -, -, h, -, k, a⟩ := shipped_prints (fuel := 8) hsolve ho (hamlet_command (u := u) (v := v)) (Nat.le_refl _)
  have hs := a (k (hamlet_kept hu os ho))
  have h0 : o.status = 0 := hs.solved.2 ⟨_, hamlet_least hu0 hv⟩
  have hc : o.cost = u * v := leastCost_unique (hs.least h0) (hamlet_least hu0 hv)
  obtain ⟨o1, h1, e1⟩ := shipped_least (fuel := 8) (db := hamletData u v) hsolve ho (hamlet_command (u := u) (v := v)) (Nat.le_refl _)
    hamlet_linked rfl
  obtain rfl : o = o1 := by rw [h] at h1; simpa using h1
  obtain ⟨⟨σ, hσ, -⟩, -⟩ := (e1 _).2 ⟨h0, hc⟩
  refine ⟨?_, σ, hσ⟩
  rw [h]
  cases o
  cases h0
  cases hc
  rfl

/-- what the command prints at a tiny price -/
theorem hamlet_prints_free (solve : Solver → Answer) (hsolve : RightSolver solve) (os : Nat → SetOrder) (ho : ∀ i, (os i).Valid)
    (hu : |u| < 1 / 10 ^ 16) (hv : 0 ≤ v) : mainOutput solve textParser os 8 (hamletDisk u v) hamletFlags = some (.ok ⟨0, 0⟩) := by
  obtain ⟨-, σ, hσ⟩ := hamlet_prints (u := 1) (v := v) solve hsolve os ho (by norm_num) hv
  obtain ⟨o2, h2, e2⟩ := shipped_least (fuel := 8) (db := hamletData u v) hsolve ho (hamlet_command (u := u) (v := v)) (Nat.le_refl _) hamlet_linked rfl
  have r := hamlet_repriced 1 v u
  rw [mul_one] at r
  have l : (hamletStudy 1 v).Linked hamletNet := hamlet_linked
  have kept := (c86_any_models _ _ _ _ (repriced_context (db := hamletData 1 v) (db' := hamletData u v) r hamlet_sound
    hamlet_sound l rfl rfl) (shipped_prices hamlet_sound l) (l.networkOk _ hamlet_sound) (l.closed hamlet_sound) l.ownSymbols Nat.one_pos).2.1 σ
  have free := hamlet_free (u := u) (v := v) hu
  obtain ⟨h3, h4⟩ := (e2 0).1 ⟨⟨σ, kept.2 hσ, free σ⟩, fun τ _ => (free τ).ge⟩
  rw [h2]
  cases o2
  cases h3
  cases h4
  rfl

/-- **C90 is violated by tiny prices.** A load of 5 is not supplied, at the price 1: the command prints the cost 5.  In a unit of energy that is
`10^17` times smaller, it prints the cost 0: prices per unit of energy are below `1e-16`. -/
theorem c90_tiny (solve : Solver → Answer) (hsolve : RightSolver solve) (os : Nat → SetOrder) (ho : ∀ i, (os i).Valid) :
    (hamletStudy 1 5).InOtherUnit (10 ^ 17) (hamletStudy (1 / 10 ^ 17) (10 ^ 17 * 5)) ∧
    mainOutput solve textParser os 8 (hamletDisk 1 5) hamletFlags = some (.ok ⟨0, 5⟩) ∧
    mainOutput solve textParser os 8 (hamletDisk (1 / 10 ^ 17) (10 ^ 17 * 5)) hamletFlags = some (.ok ⟨0, 0⟩) := by
  have h := (hamlet_prints (u := 1) (v := 5) solve hsolve os ho (by norm_num) (by norm_num)).1
  rw [one_mul] at h
  exact ⟨hamlet_otherUnit _ _ _, h, hamlet_prints_free solve hsolve os ho (by norm_num [abs_of_nonneg]) (by norm_num)⟩

/-! ## One thermal unit of size `r`, that has to generate `q` -/

def plantOne (q r : ℚ) : InputComponent := ⟨"T", "antares-historic.thermal", none, [⟨"p_min_cluster", false, false, .number (.fin q), none⟩,
    ⟨"p_max_cluster", false, false, .number (.fin q), none⟩, ⟨"p_min_unit", false, false, .number (.fin 0), none⟩,
    ⟨"p_max_unit", false, false, .number (.fin r), none⟩, ⟨"generation_cost", false, false, .number (.fin 2), none⟩,
    ⟨"startup_cost", false, false, .number (.fin r), none⟩, ⟨"fixed_cost", false, false, .number (.fin r), none⟩,
    ⟨"d_min_up", false, false, .number (.fin 1), none⟩, ⟨"d_min_down", false, false, .number (.fin 0), none⟩,
    ⟨"nb_units_min", false, false, .number (.fin 0), none⟩, ⟨"nb_units_max", false, false, .number (.fin 1), none⟩,
    ⟨"nb_units_max_variation_forward", false, false, .number (.fin 0), none⟩,
    ⟨"nb_units_max_variation_backward", false, false, .number (.fin 0), none⟩]⟩

def plant (q r : ℚ) : InputSystem where
  nodes := []
  components := [plantOne q r]
  connections := []

def plantDisk (q r : ℚ) : Disk := { cliDemoDisk with
  system := fun p => if p = "study/input/components/components.yml" then .ok (plant q r) else .error (.exception "FileNotFoundError")
  table := fun _ _ => .error (.exception "FileNotFoundError") }

def plantStudy (q r : ℚ) : StudyInput := (plantDisk q r).study (plant q r) (some "study/input/components/series") hamletFlags

variable {q r : ℚ}

theorem plant_declared : (plantStudy q r).declared = (plant q r).components := rfl

theorem plant_only {c : InputComponent} (hc : c ∈ (plantStudy q r).declared) : c = plantOne q r := by
  simpa [plant_declared, plant] using hc

theorem plant_number {c : InputComponent} (hc : c ∈ (plantStudy q r).declared) {p : InputParam} (hp : p ∈ c.parameters) :
    p.timeDependent = false ∧ p.scenarioDependent = false ∧ ∃ v : ℚ, p.value = .number (.fin v) := by
  rw [plant_only hc] at hp
  simp only [plantOne, List.mem_cons, List.not_mem_nil, or_false] at hp
  casesm* _ ∨ _ <;> subst hp <;> exact ⟨rfl, rfl, _, rfl⟩

theorem plant_sound : (plantStudy q r).Sound := by
  refine ⟨by rw [plant_declared]; simp [plant], by rw [plant_declared]; simp [plant, plantOne], ?_, ?_, by simp [plantStudy, Disk.study, hamletFlags], ?_,
    Nat.one_pos, ?_⟩
  · intro n f h
    cases h
  · intro c hc p hp t s v h
    obtain ⟨h1, h2, w, h3⟩ := plant_number hc hp
    obtain ⟨i, b1, b2, val, g⟩ := p
    subst h1 h2 h3
    cases h
    rfl
  · intro t ht
    have ht : t ∈ [(0 : Int)] := ht
    simp only [List.mem_cons, List.not_mem_nil, or_false] at ht
    omega
  · intro c hc p hp r hr q hq hid
    obtain ⟨h1, h2, -⟩ := plant_number hc hp
    simp [h1, h2]

theorem plant_complete (libs : Dict String Library)
    (hlib : ∀ l ∈ [andromedeInput, antaresInput], (Dict.get? libs l.id).isSome = true) : (plantStudy q r).Complete libs := by
  refine ⟨?_, ?_, ?_, ?_, ?_, ?_⟩
  · intro c hc
    rw [plant_only hc]
    have h1 : Rules.libraryOf "antares-historic.thermal" = antaresInput.id := by decide +kernel
    exact ⟨⟨_, rfl⟩, h1 ▸ hlib antaresInput (by simp)⟩
  · intro c hc r hr z hz
    rw [plant_only hc] at hr ⊢
    obtain rfl : r = Rules.thermal := by cases hr; rfl
    simp only [Rules.thermal, List.mem_cons, List.not_mem_nil, or_false] at hz
    casesm* _ ∨ _ <;> subst hz <;> simp [plantOne]
  · intro c hc p hp
    obtain ⟨h1, h2, w, h3⟩ := plant_number hc hp
    obtain ⟨i, b1, b2, val, g⟩ := p
    subst h1 h2 h3
    exact ⟨rfl, rfl⟩
  · intro c hc p hp t ht s hs
    obtain ⟨h1, h2, w, h3⟩ := plant_number hc hp
    obtain ⟨i, b1, b2, val, g⟩ := p
    subst h1 h2 h3
    exact ⟨_, rfl⟩
  · intro z hz
    have hz : z ∈ (plant q r).connections := hz
    simp [plant] at hz
  · intro c hc d hd t s ht hs
    rw [plant_only hc] at hd ⊢
    have hid : (plantOne q r).id = "T" := rfl
    simp [Rules.needs, plantOne] at hd
    subst hd
    refine ⟨le_refl q, ?_, ?_, ⟨1, ?_⟩, ⟨0, ?_⟩⟩
    · show (0 : ℚ) ≤ 1
      norm_num
    · show (0 : ℚ) ≤ 1
      norm_num
    · show (1 : ℚ) = ((1 : Nat) : ℚ)
      norm_num
    · show (0 : ℚ) = ((0 : Nat) : ℚ)
      norm_num

theorem plant_command : ShippedCommand (plantDisk q r) hamletFlags
    ["study/input/models/andromede_v1_models.yml", "study/input/models/antares_historic.yml"] "study/input/components/components.yml"
    (some "study/input/components/series") [andromedeInput, antaresInput] (plant q r) :=
  ⟨.directory (s := "study") (files := ["andromede_v1_models.yml", "antares_historic.yml"]) rfl rfl rfl rfl rfl, .cons rfl (.cons rfl .nil),
    by decide, by simp, rfl, plant_sound, plant_complete⟩

def plantT : Component := ⟨antaresThermalModel, "T"⟩

def plantNet : Network where
  id := "study"
  nodes := []
  components := [("T", plantT)]
  connections := []

def plantData (q r : ℚ) : DataBase :=
  [(("T", "p_min_cluster"), .const (.fin q)), (("T", "p_max_cluster"), .const (.fin q)), (("T", "p_min_unit"), .const (.fin 0)),
   (("T", "p_max_unit"), .const (.fin r)), (("T", "generation_cost"), .const (.fin 2)), (("T", "startup_cost"), .const (.fin r)),
   (("T", "fixed_cost"), .const (.fin r)), (("T", "d_min_up"), .const (.fin 1)), (("T", "d_min_down"), .const (.fin 0)),
   (("T", "nb_units_min"), .const (.fin 0)), (("T", "nb_units_max"), .const (.fin 1)), (("T", "nb_units_max_variation_forward"), .const (.fin 0)),
   (("T", "nb_units_max_variation_backward"), .const (.fin 0))]

def plantBare : InputSystem where
  nodes := []
  components := [⟨"T", "antares-historic.thermal", none, []⟩]
  connections := []

theorem plant_resolved (q r : ℚ) (libs : Dict String Library) : resolveSystem (plant q r) libs = resolveSystem plantBare libs := by
  have h1 := appendAll_map (resolveComponent libs) (fun c => { c with parameters := [] }) (fun _ => rfl) (plant q r).components
  unfold resolveSystem
  rw [← h1]
  rfl

theorem plant_linked : (plantStudy q r).Linked plantNet := by
  have : ∃ sys, resolveSystem plantBare shippedDemoLibs = .ok sys ∧ buildNetwork sys = .ok plantNet := ⟨_, rfl, rfl⟩
  obtain ⟨sys, h1, h2⟩ := this
  exact StudyInput.linked plant_sound shippedDemoLibs_shipped ((plant_resolved q r _).trans h1) h2

theorem plant_data : buildDataBase (plantStudy q r).load (plant q r) = .ok (plantData q r) := rfl

/-- the instance of variable `n` at the only timestep -/
def plantKey (n : String) : TermKey := ⟨"T", n, some 0, some 0⟩

/-- what the one timestep of the study has to satisfy -/
def PlantOk (q r : ℚ) (σ : TermKey → ℚ) : Prop :=
    (q ≤ σ (plantKey "generation") ∧ σ (plantKey "generation") ≤ q) ∧
    (0 ≤ σ (plantKey "nb_units_on") ∧ σ (plantKey "nb_units_on") ≤ 1 ∧ Whole (σ (plantKey "nb_units_on"))) ∧
    (0 ≤ σ (plantKey "nb_starting") ∧ σ (plantKey "nb_starting") ≤ 1 ∧ Whole (σ (plantKey "nb_starting"))) ∧
    (0 ≤ σ (plantKey "nb_stopping") ∧ Whole (σ (plantKey "nb_stopping"))) ∧
    0 ≤ σ (plantKey "nb_failing") ∧
    σ (plantKey "generation") ≤ σ (plantKey "nb_units_on") * r ∧
    σ (plantKey "nb_units_on") * 0 ≤ σ (plantKey "generation") ∧
    σ (plantKey "nb_units_on") = σ (plantKey "nb_units_on") + σ (plantKey "nb_starting") - σ (plantKey "nb_stopping") ∧
    σ (plantKey "nb_failing") ≤ σ (plantKey "nb_stopping") ∧ σ (plantKey "nb_failing") ≤ 0 ∧
    σ (plantKey "nb_starting") - σ (plantKey "nb_failing") ≤ σ (plantKey "nb_units_on") ∧
    0 ≤ 1 - σ (plantKey "nb_units_on") + 0

theorem plant_accepts (σ : TermKey → ℚ) : (plantStudy q r).Accepts σ ↔ PlantOk q r σ := by
  have hT : Rules.thermal.accepts ((plantStudy q r).readings σ "T") (0 : Nat) (0 : Nat) ↔ PlantOk q r σ := by
    have hc1 : (1 : ℚ).ceil = 1 := by rfl
    have hc0 : (0 : ℚ).ceil = 0 := by rfl
    have h1 : ∀ f : Int → ℚ, Rules.lastSteps 1 f 0 = f 0 := by intro f; simp [Rules.lastSteps, hc1]
    have h0 : ∀ f : Int → ℚ, Rules.lastSteps 0 f 0 = 0 := by intro f; simp [Rules.lastSteps, hc0]
    show ((q ≤ σ (plantKey "generation") ∧ σ (plantKey "generation") ≤ q) ∧
      (0 ≤ σ (plantKey "nb_units_on") ∧ σ (plantKey "nb_units_on") ≤ 1 ∧ Whole (σ (plantKey "nb_units_on"))) ∧
      (0 ≤ σ (plantKey "nb_starting") ∧ σ (plantKey "nb_starting") ≤ 1 ∧ Whole (σ (plantKey "nb_starting"))) ∧
      (0 ≤ σ (plantKey "nb_stopping") ∧ Whole (σ (plantKey "nb_stopping"))) ∧
      0 ≤ σ (plantKey "nb_failing") ∧
      σ (plantKey "generation") ≤ σ (plantKey "nb_units_on") * r ∧
      σ (plantKey "nb_units_on") * 0 ≤ σ (plantKey "generation") ∧
      σ (plantKey "nb_units_on") = σ (plantKey "nb_units_on") + σ (plantKey "nb_starting") - σ (plantKey "nb_stopping") ∧
      σ (plantKey "nb_failing") ≤ σ (plantKey "nb_stopping") ∧ σ (plantKey "nb_failing") ≤ 0 ∧
      Rules.lastSteps 1 (fun k => ((plantStudy q r).readings σ "T").v "nb_starting" k 0 - ((plantStudy q r).readings σ "T").v "nb_failing" k 0) 0 ≤
        σ (plantKey "nb_units_on") ∧
      Rules.lastSteps 0 (fun k => ((plantStudy q r).readings σ "T").v "nb_stopping" k 0) 0 ≤ 1 - σ (plantKey "nb_units_on") +
        Rules.lastSteps 0 (fun k => ((plantStudy q r).readings σ "T").p "nb_units_max_variation_backward" k 0) 0) ↔ _
    rw [h1, h0, h0]
    exact Iff.rfl
  constructor
  · intro h
    exact hT.1 (h (plantOne q r) (.head _) Rules.thermal rfl 0 0 Nat.one_pos Nat.one_pos)
  · rintro ha c hc r hr t s ht hs
    have hs : s = 0 := Nat.lt_one_iff.1 hs
    have ht : t = 0 := Nat.lt_one_iff.1 ht
    subst hs ht
    rw [plant_only hc] at hr ⊢
    obtain rfl : r = Rules.thermal := by cases hr; rfl
    exact hT.2 ha

theorem plant_cost (σ : TermKey → ℚ) : (plantStudy q r).cost σ =
    2 * σ (plantKey "generation") + r * σ (plantKey "nb_starting") + r * σ (plantKey "nb_units_on") := by
  show ((∑ w ∈ Finset.range 1, ∑ z ∈ Finset.range 1, (2 * σ ⟨"T", "generation", some (z : Int), some (w : Int)⟩ +
        r * σ ⟨"T", "nb_starting", some (z : Int), some (w : Int)⟩ + r * σ ⟨"T", "nb_units_on", some (z : Int), some (w : Int)⟩)) / ((1 : Nat) : ℚ)) + 0 = _
  rw [Finset.sum_range_one, Finset.sum_range_one]
  push_cast
  rw [div_one, add_zero]
  rfl

theorem plant_least (hq : 0 < q) (hr : q ≤ r) : LeastCost (plantStudy q r).Accepts (plantStudy q r).cost (2 * q + r) := by
  refine ⟨⟨fun k => if k = plantKey "generation" then q else if k = plantKey "nb_units_on" then 1 else 0, ?_, ?_⟩, ?_⟩
  · rw [plant_accepts]
    simp [PlantOk, plantKey, hq.le, hr, Whole]
    exact ⟨⟨1, by norm_num⟩, ⟨0, by norm_num⟩⟩
  · rw [plant_cost]
    simp [plantKey]
  · intro σ hσ
    obtain ⟨⟨a1, a2⟩, ⟨a3, a4, k, hk⟩, ⟨a6, -⟩, -, -, a7, -⟩ := (plant_accepts σ).1 hσ
    have hr0 : 0 < r := hq.trans_le hr
    have pos : 0 < σ (plantKey "nb_units_on") := by
      rcases a3.eq_or_lt with h | h
      · rw [← h, zero_mul] at a7
        linarith
      · exact h
    have one : 1 ≤ σ (plantKey "nb_units_on") := by
      rw [hk] at pos ⊢
      exact_mod_cast pos
    rw [plant_cost]
    nlinarith

theorem plant_idle (hr : 0 ≤ r) : LeastCost (plantStudy 0 r).Accepts (plantStudy 0 r).cost 0 := by
  refine ⟨⟨fun _ => 0, ?_, ?_⟩, ?_⟩
  · rw [plant_accepts]
    simp [PlantOk, Whole]
    exact ⟨0, by norm_num⟩
  · rw [plant_cost]
    simp
  · intro σ hσ
    obtain ⟨⟨a1, a2⟩, ⟨a3, -⟩, ⟨a6, -⟩, -⟩ := (plant_accepts σ).1 hσ
    rw [plant_cost]
    nlinarith

theorem plant_cost1 (W : String → String → Option Int → Option Int → ℚ) : ∀ c ∈ plantNet.allComponents, ∀ e ∈ c.model.objectives,
    mden (((plantStudy q r).context plantNet (plantData q r)).readAs (((plantStudy q r).context plantNet (plantData q r)).unwrapped W) c) e 0 0 =
      2 * W "T" "generation" (some 0) (some 0) + r * W "T" "nb_starting" (some 0) (some 0) + r * W "T" "nb_units_on" (some 0) (some 0) := by
  intro c hc e he
  simp only [plantNet, Network.allComponents, Dict.values, List.map_cons, List.map_nil, List.cons_append, List.nil_append,
    List.mem_cons, List.not_mem_nil, or_false] at hc
  subst hc
  simp only [plantT, Model.objectives, antaresThermalModel, Option.toList, List.append_nil, List.mem_cons, List.not_mem_nil, or_false] at he
  subst he
  show (∑ w ∈ Finset.range 1, ∑ z ∈ Finset.range 1, (2 * W "T" "generation" (some (z : Int)) (some (w : Int)) +
      (r * W "T" "nb_starting" (some (z : Int)) (some (w : Int)) + (r * W "T" "nb_units_on" (some (z : Int)) (some (w : Int)) + 0)))) / ((1 : Nat) : ℚ) = _
  rw [Finset.sum_range_one, Finset.sum_range_one]
  push_cast
  ring

theorem plant_noTiny (q : ℚ) (n : Nat) : ∀ c ∈ plantNet.allComponents, (∀ z ∈ c.model.allConstraints, ∀ t s : Nat,
    t < (plantStudy q n).steps.length → s < (plantStudy q n).scenarios →
    ((plantStudy q n).context plantNet (plantData q n)).NoTiny c z.expression t s) ∧
    ∀ e ∈ c.model.objectives, ((plantStudy q n).context plantNet (plantData q n)).NoTiny c e 0 0 := by
  intro c hc
  have hf0 : (-(0 : ℚ) + (1 + 0)).floor = 1 := by norm_num; rfl
  have hf1 : (-(1 : ℚ) + (1 + 0)).floor = 0 := by norm_num; rfl
  have hz0 : (0 : ℚ).floor = 0 := by rfl
  refine ⟨?_, fun e he => ?_⟩
  · simp only [plantNet, Network.allComponents, Dict.values, List.map_cons, List.map_nil, List.nil_append, List.mem_cons, List.not_mem_nil,
      or_false] at hc
    subst hc
    intro z hz t s ht hs
    have hs : s = 0 := Nat.lt_one_iff.1 hs
    have ht : t = 0 := Nat.lt_one_iff.1 ht
    subst hs ht
    simp only [plantT, Model.allConstraints, antaresThermalModel, Dict.values, List.map_cons, List.map_nil, List.nil_append, List.cons_append,
      List.append_nil, List.mem_cons, List.not_mem_nil, or_false] at hz
    rcases hz with rfl | rfl | rfl | rfl | rfl | rfl | rfl
    · refine noTiny_of_int 0 [(plantKey "generation", 1), (plantKey "nb_units_on", -n)] fun W => ?_
      show W "T" "generation" (some 0) (some 0) + (-(W "T" "nb_units_on" (some 0) (some 0) * (n : ℚ)) + 0) = _
      simp only [plantKey, List.map_cons, List.map_nil, List.sum_cons, List.sum_nil]
      push_cast
      ring
    · refine noTiny_of_int 0 [(plantKey "generation", 1)] fun W => ?_
      show W "T" "generation" (some 0) (some 0) + (-(W "T" "nb_units_on" (some 0) (some 0) * 0) + 0) = _
      simp only [plantKey, List.map_cons, List.map_nil, List.sum_cons, List.sum_nil]
      push_cast
      ring
    · refine noTiny_of_int 0 [(plantKey "nb_units_on", 1), (⟨"T", "nb_units_on", some (-1), some 0⟩, -1), (plantKey "nb_starting", -1), (plantKey "nb_stopping", 1)]
        fun W => ?_
      show W "T" "nb_units_on" (some 0) (some 0) + (-W "T" "nb_units_on" (some (-1)) (some 0) + (-W "T" "nb_starting" (some 0) (some 0) +
        (- -W "T" "nb_stopping" (some 0) (some 0) + 0))) = _
      simp only [plantKey, List.map_cons, List.map_nil, List.sum_cons, List.sum_nil]
      push_cast
      ring
    · refine noTiny_of_int 0 [(plantKey "nb_failing", 1), (plantKey "nb_stopping", -1)] fun W => ?_
      show W "T" "nb_failing" (some 0) (some 0) + (-W "T" "nb_stopping" (some 0) (some 0) + 0) = _
      simp only [plantKey, List.map_cons, List.map_nil, List.sum_cons, List.sum_nil]
      push_cast
      ring
    · refine noTiny_of_int 0 [(plantKey "nb_failing", 1)] fun W => ?_
      show W "T" "nb_failing" (some 0) (some 0) + (-0 + 0) = _
      simp only [plantKey, List.map_cons, List.map_nil, List.sum_cons, List.sum_nil]
      push_cast
      ring
    · refine noTiny_of_int 0 [(plantKey "nb_starting", 1), (plantKey "nb_failing", -1), (plantKey "nb_units_on", -1)] fun W => ?_
      show (∑ k ∈ Finset.Icc (-(1 : ℚ) + (1 + 0)).floor (0 : ℚ).floor, (W "T" "nb_starting" (some (0 + k)) (some 0) +
        (-W "T" "nb_failing" (some (0 + k)) (some 0) + 0))) + (-W "T" "nb_units_on" (some 0) (some 0) + 0) = _
      rw [hf1, hz0, Finset.Icc_self, Finset.sum_singleton]
      simp only [plantKey, List.map_cons, List.map_nil, List.sum_cons, List.sum_nil]
      push_cast
      ring_nf
    · refine noTiny_of_int (-1) [(plantKey "nb_units_on", 1)] fun W => ?_
      show (∑ k ∈ Finset.Icc (-(0 : ℚ) + (1 + 0)).floor (0 : ℚ).floor, W "T" "nb_stopping" (some (0 + k)) (some 0)) +
        (-1 + (- -W "T" "nb_units_on" (some 0) (some 0) +
          (-(∑ k ∈ Finset.Icc (-(0 : ℚ) + (1 + 0)).floor (0 : ℚ).floor, (0 : ℚ)) + 0))) = _
      rw [hf0, hz0, show Finset.Icc (1 : Int) 0 = ∅ from rfl, Finset.sum_empty, Finset.sum_empty]
      simp only [plantKey, List.map_cons, List.map_nil, List.sum_cons, List.sum_nil]
      push_cast
      ring
  · refine noTiny_of_int 0 [(plantKey "generation", 2), (plantKey "nb_starting", n), (plantKey "nb_units_on", n)] fun W => ?_
    rw [plant_cost1 W c hc e he]
    simp only [plantKey, List.map_cons, List.map_nil, List.sum_cons, List.sum_nil]
    push_cast
    ring

theorem plant_kept (q : ℚ) (n : Nat) (os : Nat → SetOrder) (ho : ∀ i, (os i).Valid) : KeptRun textParser os 8 (plantDisk q n) hamletFlags :=
  keptRun_of ho plant_command (rearranged_refl _) plant_sound plant_command.joins (Nat.le_refl _) plant_linked plant_data (plant_noTiny q n)

theorem plant_parameter (q r : ℚ) (n : String) (t : Int) (s : Nat) : (plantStudy q r).parameter "T" n t s =
    if n ∈ ["p_min_cluster", "p_max_cluster"] then q else if n ∈ ["p_max_unit", "startup_cost", "fixed_cost"] then r else
      if n = "generation_cost" then 2 else if n ∈ ["d_min_up", "nb_units_max"] then 1 else 0 := by
  by_cases h : n ∈ (plantOne q r).parameters.map (·.id)
  · simp only [plantOne, List.map_cons, List.map_nil, List.mem_cons, List.not_mem_nil, or_false] at h
    casesm* _ ∨ _ <;> subst h <;> rfl
  · have hn := h
    simp only [plantOne, List.map_cons, List.map_nil, List.mem_cons, List.not_mem_nil, or_false, not_or] at hn
    obtain ⟨a1, a2, a3, a4, a5, a6, a7, a8, a9, a10, a11, a12, a13⟩ := hn
    simp [StudyInput.parameter, StudyInput.component?, plant_declared, plant, plantOne, a1, a2, a3, a4, a5, a6, a7, a8, a9, a10, a11, a12, a13,
      Ne.symm a1, Ne.symm a2, Ne.symm a3, Ne.symm a4, Ne.symm a5, Ne.symm a6, Ne.symm a7, Ne.symm a8, Ne.symm a9, Ne.symm a10, Ne.symm a11,
      Ne.symm a12, Ne.symm a13]

theorem plant_enlarged (q r k : ℚ) : (plantStudy q r).Enlarged k (plantStudy (k * q) (k * r)) where
  toSameParts := ⟨rfl, rfl, rfl, rfl⟩
  sizes c hc n hn t s _ _ := by
    rw [plant_only hc, show (plantOne q r).id = "T" from rfl, plant_parameter, plant_parameter]
    have h1 : n ≠ "generation_cost" := by rintro rfl; simp [energies, unitPrices] at hn
    have h2 : n ∉ ["d_min_up", "nb_units_max"] := by
      intro h
      simp only [List.mem_cons, List.not_mem_nil, or_false] at h
      rcases h with rfl | rfl <;> simp [energies, unitPrices] at hn
    rw [if_neg h1, if_neg h2, mul_ite, mul_ite, mul_zero]
  others c hc n h1 h2 t s _ _ := by
    rw [plant_only hc, show (plantOne q r).id = "T" from rfl, plant_parameter, plant_parameter]
    have a : n ∉ ["p_min_cluster", "p_max_cluster"] := by
      intro h
      simp only [List.mem_cons, List.not_mem_nil, or_false] at h
      rcases h with rfl | rfl <;> simp [energies] at h1
    have b : n ∉ ["p_max_unit", "startup_cost", "fixed_cost"] := by
      intro h
      simp only [List.mem_cons, List.not_mem_nil, or_false] at h
      rcases h with rfl | rfl | rfl <;> simp [energies, unitPrices] at h1 h2
    rw [if_neg a, if_neg a, if_neg b, if_neg b]

/-- a thermal unit that is `k` times as large -/
example (n k : Nat) (hk : 0 < k) : ∃ o o' : Printed,
    mainOutput idealSolver textParser (fun _ => firstOrder) 8 (plantDisk n n) hamletFlags = some (.ok o) ∧
    mainOutput idealSolver textParser (fun _ => firstOrder) 8 (plantDisk (k * n) (k * n)) hamletFlags = some (.ok o') ∧
    (o'.status = 0 ↔ o.status = 0) ∧ (o.status = 0 → o'.cost = k * o.cost) := by
  obtain ⟨o, o', h, h', e⟩ := c89_command_partial idealSolver idealSolver_right (fun _ => firstOrder) (fun _ => firstOrder)
    (fun _ => firstOrder_valid) (fun _ => firstOrder_valid) 8 8 (plantDisk n n) (plantDisk (k * n) (k * n)) hamletFlags hamletFlags plant_command
    (Nat.le_refl _) plant_command (Nat.le_refl _) k (by exact_mod_cast hk) (plant_enlarged n n k)
  refine ⟨o, o', h, h', e (plant_kept n n _ fun _ => firstOrder_valid) ?_⟩
  have := plant_kept (k * n) (k * n) (fun _ => firstOrder) fun _ => firstOrder_valid
  rwa [Nat.cast_mul] at this

/-- generation - nb_units_on * p_max_unit -/
def plantMax : Expr := .add [.var "generation", .neg (.mul (.var "nb_units_on") (.par "p_max_unit"))]

example (n k : ℚ) (hk : 0 < k) (c : ℚ) :
    LeastCost (plantStudy (k * n) (k * n)).Accepts (plantStudy (k * n) (k * n)).cost (k * c) ↔ LeastCost (plantStudy n n).Accepts (plantStudy n n).cost c :=
  (c89_study k hk _ _ (plant_enlarged n n k) plant_sound plant_sound plant_linked plant_data plant_data).2 c

example (u v k : ℚ) (hk : 0 < k) (c : ℚ) :
    LeastCost (hamletStudy (u / k) (k * v)).Accepts (hamletStudy (u / k) (k * v)).cost c ↔
      LeastCost (hamletStudy u v).Accepts (hamletStudy u v).cost c :=
  (c90_study k hk _ _ (hamlet_otherUnit u v k) hamlet_sound hamlet_sound hamlet_linked rfl rfl).2 c

/-- a unit whose size counts as zero cannot generate -/
theorem plant_never (hq : 0 < q) (hr : 0 ≤ r) (hr' : r < 1 / 10 ^ 16) (σ : TermKey → ℚ) :
    ¬ ((plantStudy q r).context plantNet (plantData q r)).KeptFeasible σ := by
  intro h
  have g : q ≤ σ (plantKey "generation") := (h.vars plantT (.head _) _ (.head _) 0 0 Nat.one_pos Nat.one_pos).1
  have m := (h.constraints plantT (.head _) _ (.head _) 0 0 ⟨Nat.one_pos, Nat.one_pos, fun _ => rfl, fun _ => rfl⟩).2
  set e : Expr := plantMax with he
  have v : ∀ W : String → String → Option Int → Option Int → ℚ,
      mden (((plantStudy q r).context plantNet (plantData q r)).readAs (((plantStudy q r).context plantNet (plantData q r)).unwrapped W) plantT) e 0 0 =
        W "T" "generation" (some 0) (some 0) + (-(W "T" "nb_units_on" (some 0) (some 0) * r) + 0) := fun W => rfl
  have h0 : ((plantStudy q r).context plantNet (plantData q r)).fixedPart plantT e 0 0 = 0 := by
    unfold OptCtx.fixedPart
    rw [v]
    ring
  have hc : ∀ κ, keep (((plantStudy q r).context plantNet (plantData q r)).coefficient plantT e 0 0 κ) = if κ = plantKey "generation" then 1 else 0 := by
    intro κ
    unfold OptCtx.coefficient
    rw [h0, v, sub_zero]
    unfold keep
    by_cases h1 : κ = plantKey "generation"
    · subst h1
      simp [plantKey]
      norm_num
    · by_cases h2 : κ = plantKey "nb_units_on"
      · subst h2
        simp [plantKey, abs_of_nonneg hr]
        intro h3
        exfalso
        norm_num at hr'
        linarith
      · simp [plantKey] at h1 h2
        simp [plantKey, h1, h2]
  have k : ((plantStudy q r).context plantNet (plantData q r)).keptValue σ plantT e 0 0 = σ (plantKey "generation") := by
    unfold OptCtx.keptValue
    rw [h0, zero_add, finsum_eq_single _ (plantKey "generation")]
    · rw [hc, if_pos rfl, one_mul]
      rfl
    · intro κ hκ
      rw [hc, if_neg hκ, zero_mul]
  have m : ((plantStudy q r).context plantNet (plantData q r)).keptValue σ plantT e 0 0 ≤ 0 := m
  rw [k] at m
  linarith

/-- **C89 is violated by tiny sizes of thermal units.** A unit of size `1e-17` must run: the command prints a status other than 0, since
what one unit can generate counts as zero.  The same unit, `10^17` times as large: it prints the cost 3. -/
theorem c89_tiny (solve : Solver → Answer) (hsolve : RightSolver solve) (os : Nat → SetOrder) (ho : ∀ i, (os i).Valid) :
    (plantStudy (1 / 10 ^ 17) (1 / 10 ^ 17)).Enlarged (10 ^ 17) (plantStudy 1 1) ∧
    (∃ o, mainOutput solve textParser os 8 (plantDisk (1 / 10 ^ 17) (1 / 10 ^ 17)) hamletFlags = some (.ok o) ∧ o.status ≠ 0) ∧
    mainOutput solve textParser os 8 (plantDisk 1 1) hamletFlags = some (.ok ⟨0, 3⟩) ∧
    LeastCost (plantStudy (1 / 10 ^ 17) (1 / 10 ^ 17)).Accepts (plantStudy (1 / 10 ^ 17) (1 / 10 ^ 17)).cost (3 / 10 ^ 17) := by
  have r := plant_enlarged (1 / 10 ^ 17) (1 / 10 ^ 17) (10 ^ 17)
  rw [show (10 : ℚ) ^ 17 * (1 / 10 ^ 17) = 1 by norm_num] at r
  have l := plant_least (q := 1 / 10 ^ 17) (r := 1 / 10 ^ 17) (by norm_num) le_rfl
  rw [show (2 : ℚ) * (1 / 10 ^ 17) + 1 / 10 ^ 17 = 3 / 10 ^ 17 by norm_num] at l
  refine ⟨r, ?_, ?_, l⟩
  · obtain ⟨o, h, e⟩ := shipped_least (fuel := 8) (db := plantData (1 / 10 ^ 17) (1 / 10 ^ 17)) hsolve ho (plant_command (q := 1 / 10 ^ 17) (r := 1 / 10 ^ 17)) (Nat.le_refl _)
      plant_linked plant_data
    refine ⟨o, h, fun h0 => ?_⟩
    obtain ⟨⟨σ, hσ, -⟩, -⟩ := (e o.cost).2 ⟨h0, rfl⟩
    exact plant_never (by norm_num) (by norm_num) (by norm_num) σ hσ
  · obtain ⟨net, db, o, -, -, h, -, k, a⟩ := shipped_prints (fuel := 8) hsolve ho (plant_command (q := 1) (r := 1)) (Nat.le_refl _)
    have kept := plant_kept 1 1 os ho
    rw [Nat.cast_one] at kept
    have hs := a (k kept)
    have h0 : o.status = 0 := hs.solved.2 ⟨_, plant_least one_pos le_rfl⟩
    have hc : o.cost = 3 := (leastCost_unique (hs.least h0) (plant_least one_pos le_rfl)).trans (by norm_num)
    rw [h]
    cases o
    cases h0
    cases hc
    rfl

end Verif.Props
