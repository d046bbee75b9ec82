import Verif.Props.Scenarios

/-! # Examples for C81: a load with two scenarios -/

namespace Verif.Props
open Verif Verif.Doc Verif.Shipped Verif.OptCtx

/-- the system of `shippedDemoStudy` with a load that depends on the scenario -/
def weather : InputSystem where
  nodes := [⟨"A", "antares-historic.area", none, [⟨"spillage_cost", false, false, .number 2, none⟩, ⟨"ens_cost", false, false, .number 1000, none⟩]⟩]
  components :=
    [⟨"L", "antares-historic.load", none, [⟨"load", true, true, .name "load", none⟩]⟩,
     ⟨"D", "andromede-v1-models.dsr", none, [⟨"max_load", false, false, .number 5, none⟩, ⟨"curtailment_price", false, false, .number 50, none⟩]⟩]
  connections := [⟨"A", "balance_port", "L", "balance_port"⟩, ⟨"D", "balance_port", "A", "balance_port"⟩]

/-- the load is `a` in the first hour and `b` in the second one, with a value for each scenario -/
def weatherDisk (a b : List ℚ) : Disk := { cliDemoDisk with
  system := fun p => if p = "study/input/components/components.yml" then .ok weather else .error (.exception "FileNotFoundError")
  table := fun p n => if p = "study/input/components/series" ∧ n = "load" then .ok ⟨a.length, [a.map .fin, b.map .fin]⟩
    else .error (.exception "FileNotFoundError") }

def weatherFlags (S : Nat) : CliFlags := { study := some "study", duration := 2, scenario := S }

def weatherStudy (a b : List ℚ) : StudyInput :=
  (weatherDisk a b).study weather (some "study/input/components/series") (weatherFlags a.length)

variable {a b : List ℚ}

theorem weather_table {n : String} {f : Frame} (h : (weatherStudy a b).load n = .ok f) : f = ⟨a.length, [a.map .fin, b.map .fin]⟩ := by
  simp only [weatherStudy, Disk.study, weatherDisk] at h
  split_ifs at h
  cases h
  rfl

theorem weather_declared : (weatherStudy a b).declared = weather.nodes ++ weather.components := rfl

theorem weather_sound (h0 : 0 < a.length) (hl : b.length = a.length) : (weatherStudy a b).Sound := by
  refine ⟨by rw [weather_declared]; decide, by rw [weather_declared]; decide, ?_, ?_, by simp [weatherStudy, Disk.study, weatherFlags], ?_, h0, ?_⟩
  · intro n f h
    rw [weather_table h]
    simp [Frame.Rectangular, hl]
  · intro c hc p hp t s v h
    rcases declaredEntry_mem h with h | ⟨n, f, row, h, hl, hr, hv⟩
    · simp only [weather_declared, weather, List.cons_append, List.nil_append, List.mem_cons, List.not_mem_nil, or_false] at hc
      rcases hc with rfl | rfl | rfl <;> simp only [List.mem_cons, List.not_mem_nil, or_false] at hp <;> (try casesm* _ ∨ _) <;> subst hp <;> cases h <;> rfl
    · rw [weather_table hl] at hr
      simp only [List.mem_cons, List.not_mem_nil, or_false] at hr
      rcases hr with rfl | rfl <;> obtain ⟨q, -, rfl⟩ := List.mem_map.1 hv <;> rfl
  · intro t ht
    have ht : t ∈ [(0 : Int), 1] := ht
    simp only [List.mem_cons, List.not_mem_nil, or_false] at ht
    omega
  · intro c hc p hp r hr q hq hid
    simp only [weather_declared, weather, List.cons_append, List.nil_append, List.mem_cons, List.not_mem_nil, or_false] at hc
    rcases hc with rfl | rfl | rfl
    · have : r = Rules.area := by cases hr; rfl
      subst this
      simp only [List.mem_cons, List.not_mem_nil, or_false] at hp
      rcases hp with rfl | rfl <;> exact ⟨by simp, by simp⟩
    · have : r = Rules.load := by cases hr; rfl
      subst this
      simp only [List.mem_cons, List.not_mem_nil, or_false] at hp
      subst hp
      simp only [Rules.load, List.mem_cons, List.not_mem_nil, or_false] at hq
      subst hq
      exact ⟨by simp, by simp⟩
    · have : r = Rules.dsr := by cases hr; rfl
      subst this
      simp only [List.mem_cons, List.not_mem_nil, or_false] at hp
      rcases hp with rfl | rfl <;> exact ⟨by simp, by simp⟩

theorem weather_entry (hl : b.length = a.length) {t : Int} (ht : t ∈ [(0 : Int), 1]) {s : Nat} (hs : s < a.length) :
    declaredEntry (weatherStudy a b).load ⟨"load", true, true, .name "load", none⟩ t s =
      some (.fin (if t = 0 then a.getD s 0 else b.getD s 0)) := by
  have hat : ∀ l : List ℚ, s < l.length → atPos (l.map Num.fin) (s : Int) = some (.fin (l.getD s 0)) := by
    intro l h
    simp [atPos, h]
  simp only [List.mem_cons, List.not_mem_nil, or_false] at ht
  rcases ht with rfl | rfl
  · exact hat a hs
  · exact hat b (hl ▸ hs)

theorem weather_complete (hl : b.length = a.length) (libs : Dict String Library)
    (hlib : ∀ l ∈ [andromedeInput, antaresInput], (Dict.get? libs l.id).isSome = true) : (weatherStudy a b).Complete libs := by
  refine ⟨?_, ?_, ?_, ?_, ?_, ?_⟩
  · intro c hc
    simp only [weather_declared, weather, List.cons_append, List.nil_append, List.mem_cons, List.not_mem_nil, or_false] at hc
    rcases hc with rfl | rfl | rfl
    · exact ⟨⟨_, rfl⟩, hlib antaresInput (by simp)⟩
    · exact ⟨⟨_, rfl⟩, hlib antaresInput (by simp)⟩
    · exact ⟨⟨_, rfl⟩, hlib andromedeInput (by simp)⟩
  · intro c hc r hr q hq
    simp only [weather_declared, weather, List.cons_append, List.nil_append, List.mem_cons, List.not_mem_nil, or_false] at hc
    rcases hc with rfl | rfl | rfl
    · have : r = Rules.area := by cases hr; rfl
      subst this
      simp only [Rules.area, List.mem_cons, List.not_mem_nil, or_false] at hq
      rcases hq with rfl | rfl <;> simp
    · have : r = Rules.load := by cases hr; rfl
      subst this
      simp only [Rules.load, List.mem_cons, List.not_mem_nil, or_false] at hq
      subst hq
      simp
    · have : r = Rules.dsr := by cases hr; rfl
      subst this
      simp only [Rules.dsr, List.mem_cons, List.not_mem_nil, or_false] at hq
      rcases hq with rfl | rfl <;> simp
  · intro c hc p hp
    simp only [weather_declared, weather, List.cons_append, List.nil_append, List.mem_cons, List.not_mem_nil, or_false] at hc
    rcases hc with rfl | rfl | rfl <;> simp only [List.mem_cons, List.not_mem_nil, or_false] at hp
    · rcases hp with rfl | rfl <;> exact ⟨rfl, rfl⟩
    · subst hp
      exact ⟨.inl rfl, _, rfl, by simp, by simp⟩
    · rcases hp with rfl | rfl <;> exact ⟨rfl, rfl⟩
  · intro c hc p hp t ht s hs
    have ht : t ∈ [(0 : Int), 1] := ht
    simp only [weather_declared, weather, List.cons_append, List.nil_append, List.mem_cons, List.not_mem_nil, or_false] at hc
    rcases hc with rfl | rfl | rfl <;> simp only [List.mem_cons, List.not_mem_nil, or_false] at hp
    · rcases hp with rfl | rfl <;> exact ⟨_, rfl⟩
    · subst hp
      exact ⟨_, weather_entry hl ht hs⟩
    · rcases hp with rfl | rfl <;> exact ⟨_, rfl⟩
  · intro k hk
    have hk : k ∈ weather.connections := hk
    simp only [weather, List.mem_cons, List.not_mem_nil, or_false] at hk
    rcases hk with rfl | rfl
    · refine ⟨Rules.area, Rules.load, _, _, rfl, rfl, .head _, .head _, rfl, ?_⟩
      intro f hf
      simp only [List.map_cons, List.map_nil, List.mem_cons, List.not_mem_nil, or_false] at hf
      subst hf
      simp [Rules.sends, Rules.area, Rules.load]
    · refine ⟨Rules.dsr, Rules.area, _, _, rfl, rfl, .head _, .head _, rfl, ?_⟩
      intro f hf
      simp only [List.map_cons, List.map_nil, List.mem_cons, List.not_mem_nil, or_false] at hf
      subst hf
      simp [Rules.sends, Rules.area, Rules.dsr]
  · intro c hc d hd t s ht hs
    simp only [weather_declared, weather, List.cons_append, List.nil_append, List.mem_cons, List.not_mem_nil, or_false] at hc
    rcases hc with rfl | rfl | rfl
    · simp [Rules.needs] at hd
    · simp [Rules.needs] at hd
    · simp only [Rules.needs, List.mem_cons, Prod.mk.injEq, List.not_mem_nil, or_false, String.reduceEq, false_and, true_and, false_or] at hd
      subst hd
      show (0 : ℚ) ≤ 5
      norm_num

theorem weather_command (h0 : 0 < a.length) (hl : b.length = a.length) : ShippedCommand (weatherDisk a b) (weatherFlags a.length)
    ["study/input/models/andromede_v1_models.yml", "study/input/models/antares_historic.yml"] "study/input/components/components.yml"
    (some "study/input/components/series") [andromedeInput, antaresInput] weather :=
  ⟨.directory (s := "study") (files := ["andromede_v1_models.yml", "antares_historic.yml"]) rfl rfl rfl rfl rfl, .cons rfl (.cons rfl .nil),
    by decide, by simp, rfl, weather_sound h0 hl, weather_complete hl⟩

/-- the study of one scenario -/
theorem weather_in (hl : b.length = a.length) {s : Nat} (hs : s < a.length) :
    (weatherStudy a b).InScenario s (weatherStudy [a.getD s 0] [b.getD s 0]) where
  system := rfl
  steps := rfl
  scenarios := rfl
  values c hc p hp t ht := by
    have ht : t ∈ [(0 : Int), 1] := ht
    simp only [weather_declared, weather, List.cons_append, List.nil_append, List.mem_cons, List.not_mem_nil, or_false] at hc
    rcases hc with rfl | rfl | rfl <;> simp only [List.mem_cons, List.not_mem_nil, or_false] at hp
    · rcases hp with rfl | rfl <;> rfl
    · subst hp
      rw [weather_entry hl ht hs]
      exact weather_entry (a := [a.getD s 0]) (b := [b.getD s 0]) (s := 0) rfl ht Nat.one_pos
    · rcases hp with rfl | rfl <;> rfl

theorem weather_chosen : (weatherStudy a b).ChosenPerScenario := by
  intro c hc r hr
  simp only [weather_declared, weather, List.cons_append, List.nil_append, List.mem_cons, List.not_mem_nil, or_false] at hc
  rcases hc with rfl | rfl | rfl
  · have : r = Rules.area := by cases hr; rfl
    subst this
    decide
  · have : r = Rules.load := by cases hr; rfl
    subst this
    decide
  · have : r = Rules.dsr := by cases hr; rfl
    subst this
    decide

/-! ## No coefficient is tiny -/

def weatherData (x : Data) : DataBase :=
  [(("L", "load"), x), (("D", "max_load"), .const 5), (("D", "curtailment_price"), .const 50),
   (("A", "spillage_cost"), .const 2), (("A", "ens_cost"), .const 1000)]

theorem weather_linked (h0 : 0 < a.length) (hl : b.length = a.length) : (weatherStudy a b).Linked shippedDemoNet := by
  have : ∃ sys, resolveSystem weather shippedDemoLibs = .ok sys ∧ buildNetwork sys = .ok shippedDemoNet := ⟨_, rfl, rfl⟩
  obtain ⟨sys, h1, h2⟩ := this
  exact StudyInput.linked (weather_sound h0 hl) shippedDemoLibs_shipped h1 h2

theorem weather_noTiny1 (p q : ℚ) (x : Data) : ∀ c ∈ shippedDemoNet.allComponents, (∀ k ∈ c.model.allConstraints, ∀ t s : Nat, t < (weatherStudy [p] [q]).steps.length →
    s < (weatherStudy [p] [q]).scenarios → ((weatherStudy [p] [q]).context shippedDemoNet (weatherData x)).NoTiny c k.expression t s) ∧
    ∀ e ∈ c.model.objectives, ((weatherStudy [p] [q]).context shippedDemoNet (weatherData x)).NoTiny c e 0 0 := by
  intro c hc
  simp only [shippedDemoNet, Network.allComponents, Dict.values, List.map_cons, List.map_nil, List.cons_append, List.nil_append,
    List.mem_cons, List.not_mem_nil, or_false] at hc
  rcases hc with rfl | rfl | rfl
  · refine ⟨?_, ?_⟩
    · intro k hk t s _ _
      simp only [shippedDemoA, Model.allConstraints, antaresAreaModel, Dict.values, List.map_cons, List.map_nil, List.append_nil,
        List.mem_cons, List.not_mem_nil, or_false] at hk
      subst hk
      refine noTiny_of_int (-((weatherStudy [p] [q]).context shippedDemoNet (weatherData x)).dataValue "L" "load" (some t) (some s) - 5)
        [(⟨"D", "curtailment", some t, some s⟩, 1), (⟨"A", "spillage", some t, some s⟩, -1), (⟨"A", "unsupplied_energy", some t, some s⟩, 1)]
        fun var => ?_
      show (-((weatherStudy [p] [q]).context shippedDemoNet (weatherData x)).dataValue "L" "load" (some (t : Int)) (some (s : Int)) +
        ((-5 + (var "D" "curtailment" (some (t : Int)) (some (s : Int)) + 0)) + 0)) +
        (-var "A" "spillage" (some (t : Int)) (some (s : Int)) + (- -var "A" "unsupplied_energy" (some (t : Int)) (some (s : Int)) + 0)) = _
      simp only [List.map_cons, List.map_nil, List.sum_cons, List.sum_nil]
      push_cast
      ring
    · intro e he
      simp only [shippedDemoA, Model.objectives, antaresAreaModel, Option.toList, List.append_nil, List.mem_cons, List.not_mem_nil, or_false] at he
      subst he
      refine noTiny_of_int 0
        [(⟨"A", "spillage", some 0, some 0⟩, 2), (⟨"A", "unsupplied_energy", some 0, some 0⟩, 1000),
         (⟨"A", "spillage", some 1, some 0⟩, 2), (⟨"A", "unsupplied_energy", some 1, some 0⟩, 1000)] fun var => ?_
      show (∑ w ∈ Finset.range 1, ∑ u ∈ Finset.range 2, (2 * var "A" "spillage" (some (u : Int)) (some (w : Int)) +
        (1000 * var "A" "unsupplied_energy" (some (u : Int)) (some (w : Int)) + 0))) / ((1 : Nat) : ℚ) = _
      rw [Finset.sum_range_one, Finset.sum_range_succ, Finset.sum_range_one]
      simp only [List.map_cons, List.map_nil, List.sum_cons, List.sum_nil]
      push_cast
      ring
  · refine ⟨?_, ?_⟩
    · intro k hk; simp [shippedDemoL, Model.allConstraints, antaresLoadModel, Dict.values] at hk
    · intro e he; simp [shippedDemoL, Model.objectives, antaresLoadModel] at he
  · refine ⟨?_, ?_⟩
    · intro k hk; simp [shippedDemoD, Model.allConstraints, andromedeDsrModel, Dict.values] at hk
    · intro e he
      simp only [shippedDemoD, Model.objectives, andromedeDsrModel, Option.toList, List.append_nil, List.mem_cons, List.not_mem_nil, or_false] at he
      subst he
      refine noTiny_of_int 0 [(⟨"D", "curtailment", some 0, some 0⟩, 50), (⟨"D", "curtailment", some 1, some 0⟩, 50)] fun var => ?_
      show (∑ w ∈ Finset.range 1, ∑ u ∈ Finset.range 2, var "D" "curtailment" (some (u : Int)) (some (w : Int)) * 50) / ((1 : Nat) : ℚ) = _
      rw [Finset.sum_range_one, Finset.sum_range_succ, Finset.sum_range_one]
      simp only [List.map_cons, List.map_nil, List.sum_cons, List.sum_nil]
      push_cast
      ring


theorem weather_noTiny2 (p p' q q' : ℚ) (x : Data) : ∀ c ∈ shippedDemoNet.allComponents, (∀ k ∈ c.model.allConstraints, ∀ t s : Nat, t < (weatherStudy [p, p'] [q, q']).steps.length →
    s < (weatherStudy [p, p'] [q, q']).scenarios → ((weatherStudy [p, p'] [q, q']).context shippedDemoNet (weatherData x)).NoTiny c k.expression t s) ∧
    ∀ e ∈ c.model.objectives, ((weatherStudy [p, p'] [q, q']).context shippedDemoNet (weatherData x)).NoTiny c e 0 0 := by
  intro c hc
  simp only [shippedDemoNet, Network.allComponents, Dict.values, List.map_cons, List.map_nil, List.cons_append, List.nil_append,
    List.mem_cons, List.not_mem_nil, or_false] at hc
  rcases hc with rfl | rfl | rfl
  · refine ⟨?_, ?_⟩
    · intro k hk t s _ _
      simp only [shippedDemoA, Model.allConstraints, antaresAreaModel, Dict.values, List.map_cons, List.map_nil, List.append_nil,
        List.mem_cons, List.not_mem_nil, or_false] at hk
      subst hk
      refine noTiny_of_int (-((weatherStudy [p, p'] [q, q']).context shippedDemoNet (weatherData x)).dataValue "L" "load" (some t) (some s) - 5)
        [(⟨"D", "curtailment", some t, some s⟩, 1), (⟨"A", "spillage", some t, some s⟩, -1), (⟨"A", "unsupplied_energy", some t, some s⟩, 1)]
        fun var => ?_
      show (-((weatherStudy [p, p'] [q, q']).context shippedDemoNet (weatherData x)).dataValue "L" "load" (some (t : Int)) (some (s : Int)) +
        ((-5 + (var "D" "curtailment" (some (t : Int)) (some (s : Int)) + 0)) + 0)) +
        (-var "A" "spillage" (some (t : Int)) (some (s : Int)) + (- -var "A" "unsupplied_energy" (some (t : Int)) (some (s : Int)) + 0)) = _
      simp only [List.map_cons, List.map_nil, List.sum_cons, List.sum_nil]
      push_cast
      ring
    · intro e he
      simp only [shippedDemoA, Model.objectives, antaresAreaModel, Option.toList, List.append_nil, List.mem_cons, List.not_mem_nil, or_false] at he
      subst he
      refine noTiny_of_int 0
        [(⟨"A", "spillage", some 0, some 0⟩, 1), (⟨"A", "unsupplied_energy", some 0, some 0⟩, 500),
         (⟨"A", "spillage", some 1, some 0⟩, 1), (⟨"A", "unsupplied_energy", some 1, some 0⟩, 500),
         (⟨"A", "spillage", some 0, some 1⟩, 1), (⟨"A", "unsupplied_energy", some 0, some 1⟩, 500),
         (⟨"A", "spillage", some 1, some 1⟩, 1), (⟨"A", "unsupplied_energy", some 1, some 1⟩, 500)] fun var => ?_
      show (∑ w ∈ Finset.range 2, ∑ u ∈ Finset.range 2, (2 * var "A" "spillage" (some (u : Int)) (some (w : Int)) +
        (1000 * var "A" "unsupplied_energy" (some (u : Int)) (some (w : Int)) + 0))) / ((2 : Nat) : ℚ) = _
      simp only [Finset.sum_range_succ, Finset.sum_range_zero]
      simp only [List.map_cons, List.map_nil, List.sum_cons, List.sum_nil]
      push_cast
      ring
  · refine ⟨?_, ?_⟩
    · intro k hk; simp [shippedDemoL, Model.allConstraints, antaresLoadModel, Dict.values] at hk
    · intro e he; simp [shippedDemoL, Model.objectives, antaresLoadModel] at he
  · refine ⟨?_, ?_⟩
    · intro k hk; simp [shippedDemoD, Model.allConstraints, andromedeDsrModel, Dict.values] at hk
    · intro e he
      simp only [shippedDemoD, Model.objectives, andromedeDsrModel, Option.toList, List.append_nil, List.mem_cons, List.not_mem_nil, or_false] at he
      subst he
      refine noTiny_of_int 0 [(⟨"D", "curtailment", some 0, some 0⟩, 25), (⟨"D", "curtailment", some 1, some 0⟩, 25),
        (⟨"D", "curtailment", some 0, some 1⟩, 25), (⟨"D", "curtailment", some 1, some 1⟩, 25)] fun var => ?_
      show (∑ w ∈ Finset.range 2, ∑ u ∈ Finset.range 2, var "D" "curtailment" (some (u : Int)) (some (w : Int)) * 50) / ((2 : Nat) : ℚ) = _
      simp only [Finset.sum_range_succ, Finset.sum_range_zero]
      simp only [List.map_cons, List.map_nil, List.sum_cons, List.sum_nil]
      push_cast
      ring


theorem weather_kept1 (p q : ℚ) (os : Nat → SetOrder) (ho : ∀ i, (os i).Valid) :
    KeptRun textParser os 8 (weatherDisk [p] [q]) (weatherFlags 1) := by
  obtain ⟨x, hx⟩ : ∃ x, buildDataBase (weatherStudy [p] [q]).load weather = .ok (weatherData x) := ⟨_, rfl⟩
  exact keptRun_of ho (weather_command (a := [p]) (b := [q]) Nat.one_pos rfl) (rearranged_refl _) (weather_sound Nat.one_pos rfl)
    (weather_command (a := [p]) (b := [q]) Nat.one_pos rfl).joins (Nat.le_refl _) (weather_linked Nat.one_pos rfl) hx (weather_noTiny1 p q x)

theorem weather_kept2 (p p' q q' : ℚ) (os : Nat → SetOrder) (ho : ∀ i, (os i).Valid) :
    KeptRun textParser os 8 (weatherDisk [p, p'] [q, q']) (weatherFlags 2) := by
  obtain ⟨x, hx⟩ : ∃ x, buildDataBase (weatherStudy [p, p'] [q, q']).load weather = .ok (weatherData x) := ⟨_, rfl⟩
  exact keptRun_of ho (weather_command (a := [p, p']) (b := [q, q']) Nat.two_pos rfl) (rearranged_refl _) (weather_sound Nat.two_pos rfl)
    (weather_command (a := [p, p']) (b := [q, q']) Nat.two_pos rfl).joins (Nat.le_refl _) (weather_linked Nat.two_pos rfl) hx
    (weather_noTiny2 p p' q q' x)

end Verif.Props
