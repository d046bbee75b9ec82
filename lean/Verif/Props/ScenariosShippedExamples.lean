import Verif.Props.ScenariosShipped
import Verif.Props.RepricedExamples
import Verif.Props.ScenariosExamples

/-!
# C81 for the command: an example, and prices that count as zero once they are divided by the number of scenarios
-/

namespace Verif.Props
open Verif Verif.Doc Verif.Shipped Verif.OptCtx

/-- the command with two scenarios prints the average of what it prints for each of them -/
example (p p' q q' : ℚ) : ∃ o o1 o2 : Printed,
    mainOutput idealSolver textParser (fun _ => firstOrder) 8 (weatherDisk [p, p'] [q, q']) (weatherFlags 2) = some (.ok o) ∧
    mainOutput idealSolver textParser (fun _ => firstOrder) 8 (weatherDisk [p] [q]) (weatherFlags 1) = some (.ok o1) ∧
    mainOutput idealSolver textParser (fun _ => firstOrder) 8 (weatherDisk [p'] [q']) (weatherFlags 1) = some (.ok o2) ∧
    (o.status = 0 ↔ o1.status = 0 ∧ o2.status = 0) ∧ (o.status = 0 → o.cost = (o1.cost + o2.cost) / 2) := by
  obtain ⟨o, h, o', h', hk⟩ := c81_command_partial idealSolver idealSolver_right (fun _ => firstOrder) (fun _ => firstOrder_valid) 8
    (weatherDisk [p, p'] [q, q']) (weatherFlags 2) (weather_command (a := [p, p']) (b := [q, q']) Nat.two_pos rfl) (Nat.le_refl _)
    (fun s => weatherDisk [[p, p'].getD s 0] [[q, q'].getD s 0]) (fun _ => weatherFlags 1)
    fun s hs => ⟨weather_command (a := [[p, p'].getD s 0]) (b := [[q, q'].getD s 0]) Nat.one_pos rfl, Nat.le_refl _,
      weather_in (a := [p, p']) (b := [q, q']) rfl hs⟩
  obtain ⟨e1, e2⟩ := (hk (keptRun_prices (weather_kept2 p p' q q' _ fun _ => firstOrder_valid))
    fun s _ => keptRun_prices (weather_kept1 _ _ _ fun _ => firstOrder_valid)).2
    weather_chosen
  refine ⟨o, o' 0, o' 1, h, h' 0 (by decide), h' 1 (by decide), ?_, fun h0 => ?_⟩
  · rw [e1]
    constructor
    · intro q
      exact ⟨q 0 (by decide), q 1 (by decide)⟩
    · rintro ⟨q1, q2⟩ w hw
      have : w = 0 ∨ w = 1 := by
        have : w < 2 := hw
        omega
      rcases this with rfl | rfl
      · exact q1
      · exact q2
  · rw [e2 h0]
    simp [average, weatherFlags, Finset.sum_range_succ]

/-! ## A load of 5 that is not supplied, at the price `u` -/

def dark (u : ℚ) : InputSystem where
  nodes := [⟨"A", "antares-historic.area", none, [⟨"spillage_cost", false, false, .number (.fin u), none⟩,
    ⟨"ens_cost", false, false, .number (.fin u), none⟩]⟩]
  components := [⟨"L", "antares-historic.load", none, [⟨"load", false, false, .number 5, none⟩]⟩]
  connections := [⟨"A", "balance_port", "L", "balance_port"⟩]

def darkDisk (u : ℚ) : Disk := { cliDemoDisk with
  system := fun p => if p = "study/input/components/components.yml" then .ok (dark u) else .error (.exception "FileNotFoundError")
  table := fun _ _ => .error (.exception "FileNotFoundError") }

def darkFlags (S : Nat) : CliFlags := { study := some "study", duration := 1, scenario := S }

def darkStudy (u : ℚ) (S : Nat) : StudyInput := (darkDisk u).study (dark u) (some "study/input/components/series") (darkFlags S)

variable {u : ℚ} {S : Nat}

theorem dark_declared : (darkStudy u S).declared = (dark u).nodes ++ (dark u).components := rfl

theorem dark_number {c : InputComponent} (hc : c ∈ (darkStudy u S).declared) {p : InputParam} (hp : p ∈ c.parameters) :
    p.timeDependent = false ∧ p.scenarioDependent = false ∧ ∃ v : ℚ, p.value = .number (.fin v) := by
  simp only [dark_declared, dark, List.cons_append, List.nil_append, List.mem_cons, List.not_mem_nil, or_false] at hc
  rcases hc with rfl | rfl <;> simp only [List.mem_cons, List.not_mem_nil, or_false] at hp <;> (try casesm* _ ∨ _) <;> subst hp <;>
    exact ⟨rfl, rfl, _, rfl⟩

theorem dark_sound (hS : 0 < S) : (darkStudy u S).Sound := by
  refine ⟨by rw [dark_declared]; simp [dark], by rw [dark_declared]; simp [dark], ?_, ?_, by simp [darkStudy, Disk.study, darkFlags], ?_, hS, ?_⟩
  · intro n f h
    cases h
  · intro c hc p hp t s v h
    obtain ⟨h1, h2, w, h3⟩ := dark_number hc hp
    obtain ⟨i, b1, b2, val, g⟩ := p
    subst h1 h2 h3
    cases h
    rfl
  · intro t ht
    have ht : t ∈ [(0 : Int)] := ht
    simp only [List.mem_cons, List.not_mem_nil, or_false] at ht
    omega
  · intro c hc p hp r hr q hq hid
    obtain ⟨h1, h2, -⟩ := dark_number hc hp
    simp [h1, h2]

theorem dark_complete (libs : Dict String Library)
    (hlib : ∀ l ∈ [andromedeInput, antaresInput], (Dict.get? libs l.id).isSome = true) : (darkStudy u S).Complete libs := by
  refine ⟨?_, ?_, ?_, ?_, ?_, ?_⟩
  · intro c hc
    simp only [dark_declared, dark, List.cons_append, List.nil_append, List.mem_cons, List.not_mem_nil, or_false] at hc
    have h1 : Rules.libraryOf "antares-historic.area" = antaresInput.id := by decide +kernel
    have h2 : Rules.libraryOf "antares-historic.load" = antaresInput.id := by decide +kernel
    have ha := hlib antaresInput (by simp)
    rcases hc with rfl | rfl
    · exact ⟨⟨_, rfl⟩, h1 ▸ ha⟩
    · exact ⟨⟨_, rfl⟩, h2 ▸ ha⟩
  · intro c hc r hr z hz
    simp only [dark_declared, dark, List.cons_append, List.nil_append, List.mem_cons, List.not_mem_nil, or_false] at hc
    rcases hc with rfl | rfl
    · obtain rfl : r = Rules.area := by cases hr; rfl
      simp only [Rules.area, List.mem_cons, List.not_mem_nil, or_false] at hz
      rcases hz with rfl | rfl <;> simp
    · obtain rfl : r = Rules.load := by cases hr; rfl
      simp only [Rules.load, List.mem_cons, List.not_mem_nil, or_false] at hz
      subst hz
      simp
  · intro c hc p hp
    obtain ⟨h1, h2, w, h3⟩ := dark_number hc hp
    obtain ⟨i, b1, b2, val, g⟩ := p
    subst h1 h2 h3
    exact ⟨rfl, rfl⟩
  · intro c hc p hp t ht s hs
    obtain ⟨h1, h2, w, h3⟩ := dark_number hc hp
    obtain ⟨i, b1, b2, val, g⟩ := p
    subst h1 h2 h3
    exact ⟨_, rfl⟩
  · intro z hz
    have hz : z ∈ (dark u).connections := hz
    simp only [dark, List.mem_cons, List.not_mem_nil, or_false] at hz
    subst hz
    refine ⟨Rules.area, Rules.load, _, _, rfl, rfl, .head _, .head _, rfl, ?_⟩
    intro f hf
    simp only [List.map_cons, List.map_nil, List.mem_cons, List.not_mem_nil, or_false] at hf
    subst hf
    simp [Rules.sends, Rules.area, Rules.load]
  · intro c hc d hd t s ht hs
    simp only [dark_declared, dark, List.cons_append, List.nil_append, List.mem_cons, List.not_mem_nil, or_false] at hc
    rcases hc with rfl | rfl
    · simp [Rules.needs] at hd
    · simp [Rules.needs] at hd

theorem dark_command (hS : 0 < S) : ShippedCommand (darkDisk u) (darkFlags S)
    ["study/input/models/andromede_v1_models.yml", "study/input/models/antares_historic.yml"] "study/input/components/components.yml"
    (some "study/input/components/series") [andromedeInput, antaresInput] (dark u) :=
  ⟨.directory (s := "study") (files := ["andromede_v1_models.yml", "antares_historic.yml"]) rfl rfl rfl rfl rfl, .cons rfl (.cons rfl .nil),
    by decide, by simp, rfl, dark_sound hS, dark_complete⟩

def darkNet : Network where
  id := "study"
  nodes := [("A", tradeA)]
  components := [("L", tradeL)]
  connections := [⟨⟨tradeA, "balance_port"⟩, ⟨tradeL, "balance_port"⟩, [("flow", ⟨tradeL, "balance_port"⟩)]⟩]

def darkData (u : ℚ) : DataBase :=
  [(("L", "load"), .const 5), (("A", "spillage_cost"), .const (.fin u)), (("A", "ens_cost"), .const (.fin u))]

def darkBare : InputSystem where
  nodes := [⟨"A", "antares-historic.area", none, []⟩]
  components := [⟨"L", "antares-historic.load", none, []⟩]
  connections := (dark 0).connections

theorem dark_resolved (u : ℚ) (libs : Dict String Library) : resolveSystem (dark u) libs = resolveSystem darkBare libs := by
  have h1 := appendAll_map (resolveComponent libs) (fun c => { c with parameters := [] }) (fun _ => rfl) (dark u).components
  have h2 := appendAll_map (resolveComponent libs) (fun c => { c with parameters := [] }) (fun _ => rfl) (dark u).nodes
  unfold resolveSystem
  rw [← h1, ← h2]
  rfl

theorem dark_linked (hS : 0 < S) : (darkStudy u S).Linked darkNet := by
  have : ∃ sys, resolveSystem darkBare shippedDemoLibs = .ok sys ∧ buildNetwork sys = .ok darkNet := ⟨_, rfl, rfl⟩
  obtain ⟨sys, h1, h2⟩ := this
  exact StudyInput.linked (dark_sound hS) shippedDemoLibs_shipped ((dark_resolved u _).trans h1) h2

/-- each scenario alone is the study with one scenario -/
theorem dark_in {w : Nat} : (darkStudy u S).InScenario w (darkStudy u 1) where
  system := rfl
  steps := rfl
  scenarios := rfl
  values c hc p hp t ht := by
    obtain ⟨h1, h2, w, h3⟩ := dark_number hc hp
    obtain ⟨i, b1, b2, val, g⟩ := p
    subst h1 h2 h3
    rfl

theorem dark_chosen : (darkStudy u S).ChosenPerScenario := by
  intro c hc r hr
  simp only [dark_declared, dark, List.cons_append, List.nil_append, List.mem_cons, List.not_mem_nil, or_false] at hc
  rcases hc with rfl | rfl
  · have : r = Rules.area := by cases hr; rfl
    subst this
    decide
  · have : r = Rules.load := by cases hr; rfl
    subst this
    decide

/-- the only cost is that of area A -/
theorem dark_cost1 (W : String → String → Option Int → Option Int → ℚ) : ∀ c ∈ darkNet.allComponents, ∀ e ∈ c.model.objectives,
    mden (((darkStudy u 1).context darkNet (darkData u)).readAs (((darkStudy u 1).context darkNet (darkData u)).unwrapped W) c) e 0 0 =
      u * W "A" "spillage" (some 0) (some 0) + u * W "A" "unsupplied_energy" (some 0) (some 0) := by
  intro c hc e he
  simp only [darkNet, Network.allComponents, Dict.values, List.map_cons, List.map_nil, List.cons_append, List.nil_append,
    List.mem_cons, List.not_mem_nil, or_false] at hc
  rcases hc with rfl | rfl
  · simp only [tradeA, Model.objectives, antaresAreaModel, Option.toList, List.append_nil, List.mem_cons, List.not_mem_nil, or_false] at he
    subst he
    show (∑ w ∈ Finset.range 1, ∑ z ∈ Finset.range 1, (u * W "A" "spillage" (some (z : Int)) (some (w : Int)) +
      (u * W "A" "unsupplied_energy" (some (z : Int)) (some (w : Int)) + 0))) / ((1 : Nat) : ℚ) = _
    rw [Finset.sum_range_one, Finset.sum_range_one]
    push_cast
    ring
  · simp [tradeL, Model.objectives, antaresLoadModel] at he

theorem dark_cost2 (W : String → String → Option Int → Option Int → ℚ) : ∀ c ∈ darkNet.allComponents, ∀ e ∈ c.model.objectives,
    mden (((darkStudy u 2).context darkNet (darkData u)).readAs (((darkStudy u 2).context darkNet (darkData u)).unwrapped W) c) e 0 0 =
      u / 2 * W "A" "spillage" (some 0) (some 0) + u / 2 * W "A" "unsupplied_energy" (some 0) (some 0) +
        (u / 2 * W "A" "spillage" (some 0) (some 1) + u / 2 * W "A" "unsupplied_energy" (some 0) (some 1)) := by
  intro c hc e he
  simp only [darkNet, Network.allComponents, Dict.values, List.map_cons, List.map_nil, List.cons_append, List.nil_append,
    List.mem_cons, List.not_mem_nil, or_false] at hc
  rcases hc with rfl | rfl
  · simp only [tradeA, Model.objectives, antaresAreaModel, Option.toList, List.append_nil, List.mem_cons, List.not_mem_nil, or_false] at he
    subst he
    show (∑ w ∈ Finset.range 2, ∑ z ∈ Finset.range 1, (u * W "A" "spillage" (some (z : Int)) (some (w : Int)) +
      (u * W "A" "unsupplied_energy" (some (z : Int)) (some (w : Int)) + 0))) / ((2 : Nat) : ℚ) = _
    simp only [Finset.sum_range_succ, Finset.sum_range_zero]
    push_cast
    ring
  · simp [tradeL, Model.objectives, antaresLoadModel] at he

theorem dark_noTiny (hu : 1 / 10 ^ 16 ≤ u) : ∀ c ∈ darkNet.allComponents, (∀ z ∈ c.model.allConstraints, ∀ t s : Nat,
    t < (darkStudy u 1).steps.length → s < (darkStudy u 1).scenarios →
    ((darkStudy u 1).context darkNet (darkData u)).NoTiny c z.expression t s) ∧
    ∀ e ∈ c.model.objectives, ((darkStudy u 1).context darkNet (darkData u)).NoTiny c e 0 0 := by
  refine fun c hc => ⟨?_, fun e he W κ => ?_⟩
  · simp only [darkNet, Network.allComponents, Dict.values, List.map_cons, List.map_nil, List.cons_append, List.nil_append,
      List.mem_cons, List.not_mem_nil, or_false] at hc
    rcases hc with rfl | rfl
    · intro z hz t s _ _
      simp only [tradeA, Model.allConstraints, antaresAreaModel, Dict.values, List.map_cons, List.map_nil, List.append_nil,
        List.mem_cons, List.not_mem_nil, or_false] at hz
      subst hz
      refine noTiny_of_int (-5) [(⟨"A", "spillage", some t, some s⟩, -1), (⟨"A", "unsupplied_energy", some t, some s⟩, 1)] fun W => ?_
      show (-5 + 0) + (-W "A" "spillage" (some (t : Int)) (some (s : Int)) + (- -W "A" "unsupplied_energy" (some (t : Int)) (some (s : Int)) + 0)) = _
      simp only [List.map_cons, List.map_nil, List.sum_cons, List.sum_nil]
      push_cast
      ring
    · intro z hz; simp [tradeL, Model.allConstraints, antaresLoadModel, Dict.values] at hz
  · intro var' change
    have hu0 : 0 < u := lt_of_lt_of_le (by norm_num) hu
    have hch : change = u * (if κ = ⟨"A", "spillage", some 0, some 0⟩ then 1 else 0) +
        u * (if κ = ⟨"A", "unsupplied_energy", some 0, some 0⟩ then 1 else 0) := by
      show mden _ e 0 0 - mden _ e 0 0 = _
      rw [dark_cost1 _ c hc e he, dark_cost1 _ c hc e he]
      dsimp only [var']
      split_ifs <;> ring
    rw [hch]
    by_cases h1 : κ = ⟨"A", "spillage", some 0, some 0⟩
    · subst h1
      right
      simpa [abs_of_pos hu0] using hu
    · by_cases h2 : κ = ⟨"A", "unsupplied_energy", some 0, some 0⟩
      · subst h2
        right
        simpa [abs_of_pos hu0] using hu
      · left
        simp [h1, h2]

theorem dark_kept (hu : 1 / 10 ^ 16 ≤ u) (os : Nat → SetOrder) (ho : ∀ i, (os i).Valid) :
    KeptRun textParser os 8 (darkDisk u) (darkFlags 1) := by
  have hx : buildDataBase (darkStudy u 1).load (dark u) = .ok (darkData u) := rfl
  exact keptRun_of ho (dark_command Nat.one_pos) (rearranged_refl _) (dark_sound Nat.one_pos) (dark_command Nat.one_pos).joins (Nat.le_refl _)
    (dark_linked Nat.one_pos) hx (dark_noTiny hu)

theorem dark_accepts (σ : TermKey → ℚ) : (darkStudy u 1).Accepts σ ↔
    0 ≤ σ ⟨"A", "spillage", some 0, some 0⟩ ∧ 0 ≤ σ ⟨"A", "unsupplied_energy", some 0, some 0⟩ ∧
      -5 + σ ⟨"A", "unsupplied_energy", some 0, some 0⟩ = σ ⟨"A", "spillage", some 0, some 0⟩ := by
  have hA : Rules.area.accepts ((darkStudy u 1).readings σ "A") (0 : Nat) (0 : Nat) ↔
      0 ≤ σ ⟨"A", "spillage", some 0, some 0⟩ ∧ 0 ≤ σ ⟨"A", "unsupplied_energy", some 0, some 0⟩ ∧
      -5 + σ ⟨"A", "unsupplied_energy", some 0, some 0⟩ = σ ⟨"A", "spillage", some 0, some 0⟩ := by
    show (0 ≤ σ ⟨"A", "spillage", some 0, some 0⟩ ∧ 0 ≤ σ ⟨"A", "unsupplied_energy", some 0, some 0⟩ ∧
        ((-5 + 0) + 0) + σ ⟨"A", "unsupplied_energy", some 0, some 0⟩ = σ ⟨"A", "spillage", some 0, some 0⟩) ↔ _
    refine and_congr_right fun _ => and_congr_right fun _ => ?_
    constructor <;> intro h <;> linarith
  constructor
  · intro h
    exact hA.1 (h ((darkStudy u 1).declared[0]'(show 0 < 2 from Nat.two_pos)) (List.getElem_mem _) Rules.area rfl 0 0 Nat.one_pos Nat.one_pos)
  · rintro ha c hc r hr t s ht hs
    have hs : s = 0 := Nat.lt_one_iff.1 hs
    have ht : t = 0 := Nat.lt_one_iff.1 ht
    subst hs ht
    simp only [dark_declared, dark, List.cons_append, List.nil_append, List.mem_cons, List.not_mem_nil, or_false] at hc
    rcases hc with rfl | rfl
    · obtain rfl : r = Rules.area := by cases hr; rfl
      exact hA.2 ha
    · obtain rfl : r = Rules.load := by cases hr; rfl
      trivial

theorem dark_cost (σ : TermKey → ℚ) : (darkStudy u 1).cost σ =
    u * σ ⟨"A", "spillage", some 0, some 0⟩ + u * σ ⟨"A", "unsupplied_energy", some 0, some 0⟩ := by
  show ((∑ w ∈ Finset.range 1, ∑ z ∈ Finset.range 1, (u * σ ⟨"A", "spillage", some (z : Int), some (w : Int)⟩ +
        u * σ ⟨"A", "unsupplied_energy", some (z : Int), some (w : Int)⟩)) / ((1 : Nat) : ℚ)) + (0 + 0) = _
  rw [Finset.sum_range_one, Finset.sum_range_one]
  push_cast
  ring

theorem dark_least (hu : 0 ≤ u) : LeastCost (darkStudy u 1).Accepts (darkStudy u 1).cost (5 * u) := by
  refine ⟨⟨fun k => if k = ⟨"A", "unsupplied_energy", some 0, some 0⟩ then 5 else 0, ?_, ?_⟩, ?_⟩
  · rw [dark_accepts]
    simp
  · rw [dark_cost]
    simp
    ring
  · intro σ hσ
    obtain ⟨a1, a2, a3⟩ := (dark_accepts σ).1 hσ
    rw [dark_cost]
    nlinarith

/-- with two scenarios, the coefficients are tiny -/
theorem dark_free (hu : 0 ≤ u) (hu' : u / 2 < 1 / 10 ^ 16) (σ : TermKey → ℚ) :
    ((darkStudy u 2).context darkNet (darkData u)).keptCost σ = 0 := by
  unfold OptCtx.keptCost
  refine List.sum_eq_zero fun v hv => ?_
  obtain ⟨c, hc, rfl⟩ := List.mem_map.1 hv
  refine List.sum_eq_zero fun v hv => ?_
  obtain ⟨e, he, rfl⟩ := List.mem_map.1 hv
  rw [context_contributions] at he
  have h := fun W => dark_cost2 (u := u) W c hc e he
  have h0 : ((darkStudy u 2).context darkNet (darkData u)).fixedPart c e 0 0 = 0 := by
    unfold OptCtx.fixedPart
    rw [h]
    ring
  have hc : ∀ κ, keep (((darkStudy u 2).context darkNet (darkData u)).coefficient c e 0 0 κ) = 0 := by
    intro κ
    unfold OptCtx.coefficient
    rw [h0, h, sub_zero]
    have small : |u / 2 * (if κ = ⟨"A", "spillage", some 0, some 0⟩ then (1 : ℚ) else 0) +
        u / 2 * (if κ = ⟨"A", "unsupplied_energy", some 0, some 0⟩ then (1 : ℚ) else 0) +
        (u / 2 * (if κ = ⟨"A", "spillage", some 0, some 1⟩ then (1 : ℚ) else 0) +
        u / 2 * (if κ = ⟨"A", "unsupplied_energy", some 0, some 1⟩ then (1 : ℚ) else 0))| < 1 / 10 ^ 16 := by
      have p : (0 : ℚ) ≤ u / 2 := by positivity
      by_cases h1 : κ = ⟨"A", "spillage", some 0, some 0⟩
      · subst h1; simpa [abs_of_nonneg p] using hu'
      by_cases h2 : κ = ⟨"A", "unsupplied_energy", some 0, some 0⟩
      · subst h2; simpa [abs_of_nonneg p] using hu'
      by_cases h3 : κ = ⟨"A", "spillage", some 0, some 1⟩
      · subst h3; simpa [abs_of_nonneg p] using hu'
      by_cases h4 : κ = ⟨"A", "unsupplied_energy", some 0, some 1⟩
      · subst h4; simpa [abs_of_nonneg p] using hu'
      simp [h1, h2, h3, h4]
    unfold keep
    rw [if_pos small]
  unfold OptCtx.keptValue
  simp [h0, hc]

/-- **C81 is violated by small prices.** A load of 5 is not supplied, at the price `1.5e-16`: with one scenario the command prints the cost
`7.5e-16`.  With two scenarios, each of which is the one above, it prints the cost 0, which is below the average: prices are divided by the number of
scenarios before they are compared with `1e-16`. -/
theorem c81_tiny_prices (solve : Solver → Answer) (hsolve : RightSolver solve) (os : Nat → SetOrder) (ho : ∀ i, (os i).Valid) :
    let u : ℚ := 3 / 2 / 10 ^ 16
    (∀ w < 2, (darkStudy u 2).InScenario w (darkStudy u 1)) ∧ (darkStudy u 2).ChosenPerScenario ∧
    mainOutput solve textParser os 8 (darkDisk u) (darkFlags 1) = some (.ok ⟨0, 5 * u⟩) ∧
    mainOutput solve textParser os 8 (darkDisk u) (darkFlags 2) = some (.ok ⟨0, 0⟩) := by
  intro u
  have hu : 1 / 10 ^ 16 ≤ u := by norm_num [u]
  have hu0 : 0 ≤ u := by norm_num [u]
  have hu2 : u / 2 < 1 / 10 ^ 16 := by norm_num [u]
  obtain ⟨net, db, o, -, -, h, -, k, a⟩ := shipped_prints (fuel := 8) hsolve ho (dark_command (u := u) Nat.one_pos) (Nat.le_refl _)
  have hs := a (k (dark_kept hu os ho))
  have h0 : o.status = 0 := hs.solved.2 ⟨_, dark_least hu0⟩
  have hc : o.cost = 5 * u := leastCost_unique (hs.least h0) (dark_least hu0)
  obtain ⟨o1, h1, e1⟩ := shipped_least (fuel := 8) (db := darkData u) hsolve ho (dark_command (u := u) Nat.one_pos) (Nat.le_refl _)
    (dark_linked Nat.one_pos) rfl
  obtain rfl : o = o1 := by rw [h] at h1; simpa using h1
  obtain ⟨⟨τ, hτ, -⟩, -⟩ := (e1 (5 * u)).2 ⟨h0, hc⟩
  obtain ⟨o2, h2, e2⟩ := shipped_least (fuel := 8) (db := darkData u) hsolve ho (dark_command (u := u) Nat.two_pos) (Nat.le_refl _)
    (dark_linked Nat.two_pos) rfl
  have s2 : (darkStudy u 2).Sound := dark_sound Nat.two_pos
  have l2 : (darkStudy u 2).Linked darkNet := dark_linked Nat.two_pos
  have hch := chosen_context dark_chosen s2 l2 (darkData u)
  have kept := (scenarios_kept (l2.networkOk (darkData u) s2) (l2.closed s2) l2.ownSymbols (separate_context s2 l2 _) ⟨hch.selected, hch.named⟩
    (sureBounds_context l2 _)
    (fun w _ => inScenario_context (dark_in (w := w)) s2 (dark_sound Nat.one_pos) l2 rfl (rfl : buildDataBase _ _ = .ok (darkData u)))
    (fun w _ => assembled_seen w fun _ => τ)).2 fun w _ => hτ
  have free := dark_free hu0 hu2
  obtain ⟨h3, h4⟩ := (e2 0).1 ⟨⟨_, kept, free _⟩, fun τ _ => (free τ).ge⟩
  refine ⟨fun w _ => dark_in, dark_chosen, ?_, ?_⟩
  · rw [h]
    cases o
    cases h0
    cases hc
    rfl
  · rw [h2]
    cases o2
    cases h3
    cases h4
    rfl

end Verif.Props
