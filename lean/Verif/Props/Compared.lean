import Verif.Lemmas.Compared
import Verif.Props.ScenariosExamples

/-!
# C86 and C87: prices in another currency, and looser limits
-/

namespace Verif.Props
open Verif Verif.Doc Verif.Shipped Verif.OptCtx

/-- **C86, the study.** When all prices are multiplied by `k`, the same values of the variables are accepted and cost `k` times as much; with
`k > 0` the least cost is multiplied by `k`. -/
theorem c86_study (k : ℚ) (I J : StudyInput) (h : I.Repriced k J) (hs : I.Sound) :
    (∀ σ, (J.Accepts σ ↔ I.Accepts σ) ∧ J.cost σ = k * I.cost σ) ∧
    (0 < k → ∀ c, LeastCost J.Accepts J.cost (k * c) ↔ LeastCost I.Accepts I.cost c) := by
  have key : ∀ σ, (J.Accepts σ ↔ I.Accepts σ) ∧ J.cost σ = k * I.cost σ := by
    intro σ
    constructor
    · unfold StudyInput.Accepts
      rw [h.length, h.scenarios]
      rw [h.toSameParts.forall_declared fun id m => ∀ r, Rules.named m = some r → ∀ t s : Nat, t < I.steps.length → s < I.scenarios →
        r.accepts (J.readings σ id) t s]
      refine forall_congr' fun c => forall_congr' fun hc => forall_congr' fun r => forall_congr' fun hr => forall_congr' fun t =>
        forall_congr' fun s => forall_congr' fun _ => forall_congr' fun hsc => ?_
      exact (Rules.named_priced hr).accepts k _ _ hs.scenarios (h.alike hs σ hc) t s hsc
    · exact h.toSameParts.cost σ σ k fun c hc r hr => (Rules.named_priced hr).cost k _ _ hs.scenarios (h.alike hs σ hc)
  refine ⟨key, fun hk c => ?_⟩
  unfold LeastCost
  have hne := hk.ne'
  refine and_congr (exists_congr fun σ => ?_) (forall_congr' fun σ => ?_)
  · rw [(key σ).1, (key σ).2]
    exact and_congr_right fun _ => ⟨fun e => mul_left_cancel₀ hne e, fun e => by rw [e]⟩
  · rw [(key σ).1, (key σ).2]
    exact forall_congr' fun _ => mul_le_mul_iff_right₀ hk

/-- **C87, the study.** With looser limits, the values of the variables that were accepted still are, at the same cost; the least cost is not
higher. -/
theorem c87_study (I J : StudyInput) (h : I.Looser J) (hs : I.Sound) :
    (∀ σ, (I.Accepts σ → J.Accepts σ) ∧ J.cost σ = I.cost σ) ∧
    ∀ c c', LeastCost I.Accepts I.cost c → LeastCost J.Accepts J.cost c' → c' ≤ c := by
  have key : ∀ σ, (I.Accepts σ → J.Accepts σ) ∧ J.cost σ = I.cost σ := by
    intro σ
    constructor
    · unfold StudyInput.Accepts
      rw [h.length, h.scenarios]
      rw [h.toSameParts.forall_declared fun id m => ∀ r, Rules.named m = some r → ∀ t s : Nat, t < I.steps.length → s < I.scenarios →
        r.accepts (J.readings σ id) t s]
      intro ha c hc r hr t s ht hsc
      exact (Rules.named_loose hr).accepts _ _ hs.scenarios (h.alike hs σ hc) t s hsc (ha c hc r hr t s ht hsc)
    · rw [← one_mul (I.cost σ)]
      refine h.toSameParts.cost σ σ 1 fun c hc r hr => ?_
      rw [one_mul]
      exact (Rules.named_loose hr).cost _ _ hs.scenarios (h.alike hs σ hc)
  refine ⟨key, ?_⟩
  rintro c c' ⟨⟨σ, hσ, rfl⟩, -⟩ ⟨-, h'⟩
  rw [← (key σ).2]
  exact h' σ ((key σ).1 hσ)

/-! ## An example: import from a cheap area -/

/-- a load of 5 in area A, which can import up to `q` from area B; prices are multiplied by `k` -/
def trade (q : ℚ) (k : ℚ) : InputSystem where
  nodes :=
    [⟨"A", "antares-historic.area", none, [⟨"spillage_cost", false, false, .number (.fin k), none⟩,
      ⟨"ens_cost", false, false, .number (.fin (1000 * k)), none⟩]⟩,
     ⟨"B", "antares-historic.area", none, [⟨"spillage_cost", false, false, .number (.fin k), none⟩,
      ⟨"ens_cost", false, false, .number (.fin (10 * k)), none⟩]⟩]
  components :=
    [⟨"L", "antares-historic.load", none, [⟨"load", false, false, .number 5, none⟩]⟩,
     ⟨"K", "antares-historic.link", none, [⟨"capacity_direct", false, false, .number (.fin q), none⟩,
      ⟨"capacity_indirect", false, false, .number 0, none⟩]⟩]
  connections := [⟨"A", "balance_port", "L", "balance_port"⟩, ⟨"K", "out_port", "A", "balance_port"⟩, ⟨"K", "in_port", "B", "balance_port"⟩]

def tradeDisk (q : ℚ) (k : ℚ) : Disk := { cliDemoDisk with
  system := fun p => if p = "study/input/components/components.yml" then .ok (trade q k) else .error (.exception "FileNotFoundError")
  table := fun _ _ => .error (.exception "FileNotFoundError") }

def tradeFlags : CliFlags := { study := some "study", duration := 1, scenario := 1 }

def tradeStudy (q : ℚ) (k : ℚ) : StudyInput := (tradeDisk q k).study (trade q k) (some "study/input/components/series") tradeFlags

variable {q : ℚ} {k : ℚ}

theorem trade_declared : (tradeStudy q k).declared = (trade q k).nodes ++ (trade q k).components := rfl

/-- all values are the declared numbers -/
theorem trade_number {c : InputComponent} (hc : c ∈ (tradeStudy q k).declared) {p : InputParam} (hp : p ∈ c.parameters) :
    p.timeDependent = false ∧ p.scenarioDependent = false ∧ ∃ v : ℚ, p.value = .number (.fin v) := by
  simp only [trade_declared, trade, List.cons_append, List.nil_append, List.mem_cons, List.not_mem_nil, or_false] at hc
  rcases hc with rfl | rfl | rfl | rfl <;> simp only [List.mem_cons, List.not_mem_nil, or_false] at hp <;> (try casesm* _ ∨ _) <;> subst hp <;>
    exact ⟨rfl, rfl, _, rfl⟩

theorem trade_sound : (tradeStudy q k).Sound := by
  refine ⟨by rw [trade_declared]; simp [trade], by rw [trade_declared]; simp [trade], ?_, ?_, by simp [tradeStudy, Disk.study, tradeFlags], ?_,
    Nat.one_pos, ?_⟩
  · intro n f h
    cases h
  · intro c hc p hp t s v h
    obtain ⟨h1, h2, w, h3⟩ := trade_number hc hp
    obtain ⟨i, b1, b2, val, g⟩ := p
    subst h1 h2 h3
    cases h
    rfl
  · intro t ht
    have ht : t ∈ [(0 : Int)] := ht
    simp only [List.mem_cons, List.not_mem_nil, or_false] at ht
    omega
  · intro c hc p hp r hr q hq hid
    obtain ⟨h1, h2, -⟩ := trade_number hc hp
    simp [h1, h2]

theorem trade_complete (hq : 0 ≤ q) (libs : Dict String Library)
    (hlib : ∀ l ∈ [andromedeInput, antaresInput], (Dict.get? libs l.id).isSome = true) : (tradeStudy q k).Complete libs := by
  refine ⟨?_, ?_, ?_, ?_, ?_, ?_⟩
  · intro c hc
    simp only [trade_declared, trade, List.cons_append, List.nil_append, List.mem_cons, List.not_mem_nil, or_false] at hc
    have h1 : Rules.libraryOf "antares-historic.area" = antaresInput.id := by decide +kernel
    have h2 : Rules.libraryOf "antares-historic.load" = antaresInput.id := by decide +kernel
    have h3 : Rules.libraryOf "antares-historic.link" = antaresInput.id := by decide +kernel
    have ha := hlib antaresInput (by simp)
    rcases hc with rfl | rfl | rfl | rfl
    · exact ⟨⟨_, rfl⟩, h1 ▸ ha⟩
    · exact ⟨⟨_, rfl⟩, h1 ▸ ha⟩
    · exact ⟨⟨_, rfl⟩, h2 ▸ ha⟩
    · exact ⟨⟨_, rfl⟩, h3 ▸ ha⟩
  · intro c hc r hr z hz
    simp only [trade_declared, trade, List.cons_append, List.nil_append, List.mem_cons, List.not_mem_nil, or_false] at hc
    rcases hc with rfl | rfl | rfl | rfl
    · obtain rfl : r = Rules.area := by cases hr; rfl
      simp only [Rules.area, List.mem_cons, List.not_mem_nil, or_false] at hz
      rcases hz with rfl | rfl <;> simp
    · obtain rfl : r = Rules.area := by cases hr; rfl
      simp only [Rules.area, List.mem_cons, List.not_mem_nil, or_false] at hz
      rcases hz with rfl | rfl <;> simp
    · obtain rfl : r = Rules.load := by cases hr; rfl
      simp only [Rules.load, List.mem_cons, List.not_mem_nil, or_false] at hz
      subst hz
      simp
    · obtain rfl : r = Rules.link := by cases hr; rfl
      simp only [Rules.link, List.mem_cons, List.not_mem_nil, or_false] at hz
      rcases hz with rfl | rfl <;> simp
  · intro c hc p hp
    obtain ⟨h1, h2, w, h3⟩ := trade_number hc hp
    obtain ⟨i, b1, b2, val, g⟩ := p
    subst h1 h2 h3
    exact ⟨rfl, rfl⟩
  · intro c hc p hp t ht s hs
    obtain ⟨h1, h2, w, h3⟩ := trade_number hc hp
    obtain ⟨i, b1, b2, val, g⟩ := p
    subst h1 h2 h3
    exact ⟨_, rfl⟩
  · intro z hz
    have hz : z ∈ (trade q k).connections := hz
    simp only [trade, List.mem_cons, List.not_mem_nil, or_false] at hz
    rcases hz with rfl | rfl | rfl
    · refine ⟨Rules.area, Rules.load, _, _, rfl, rfl, .head _, .head _, rfl, ?_⟩
      intro f hf
      simp only [List.map_cons, List.map_nil, List.mem_cons, List.not_mem_nil, or_false] at hf
      subst hf
      simp [Rules.sends, Rules.area, Rules.load]
    · refine ⟨Rules.link, Rules.area, _, _, rfl, rfl, .head _, .head _, rfl, ?_⟩
      intro f hf
      simp only [List.map_cons, List.map_nil, List.mem_cons, List.not_mem_nil, or_false] at hf
      subst hf
      simp [Rules.sends, Rules.area, Rules.link]
    · refine ⟨Rules.link, Rules.area, _, _, rfl, rfl, .tail _ (.head _), .head _, rfl, ?_⟩
      intro f hf
      simp only [List.map_cons, List.map_nil, List.mem_cons, List.not_mem_nil, or_false] at hf
      subst hf
      simp [Rules.sends, Rules.area, Rules.link]
  · intro c hc d hd t s ht hs
    simp only [trade_declared, trade, List.cons_append, List.nil_append, List.mem_cons, List.not_mem_nil, or_false] at hc
    rcases hc with rfl | rfl | rfl | rfl
    · simp [Rules.needs] at hd
    · simp [Rules.needs] at hd
    · simp [Rules.needs] at hd
    · simp only [Rules.needs, List.mem_cons, Prod.mk.injEq, List.not_mem_nil, or_false, String.reduceEq, false_and, true_and] at hd
      subst hd
      exact ⟨hq, le_refl (0 : ℚ)⟩

theorem trade_command (hq : 0 ≤ q) : ShippedCommand (tradeDisk q k) tradeFlags
    ["study/input/models/andromede_v1_models.yml", "study/input/models/antares_historic.yml"] "study/input/components/components.yml"
    (some "study/input/components/series") [andromedeInput, antaresInput] (trade q k) :=
  ⟨.directory (s := "study") (files := ["andromede_v1_models.yml", "antares_historic.yml"]) rfl rfl rfl rfl rfl, .cons rfl (.cons rfl .nil),
    by decide, by simp, rfl, trade_sound, trade_complete hq⟩

/-! No coefficient is tiny. -/

def tradeA : Component := ⟨antaresAreaModel, "A"⟩
def tradeB : Component := ⟨antaresAreaModel, "B"⟩
def tradeL : Component := ⟨antaresLoadModel, "L"⟩
def tradeK : Component := ⟨antaresLinkModel, "K"⟩

def tradeNet : Network where
  id := "study"
  nodes := [("A", tradeA), ("B", tradeB)]
  components := [("L", tradeL), ("K", tradeK)]
  connections :=
    [⟨⟨tradeA, "balance_port"⟩, ⟨tradeL, "balance_port"⟩, [("flow", ⟨tradeL, "balance_port"⟩)]⟩,
     ⟨⟨tradeK, "out_port"⟩, ⟨tradeA, "balance_port"⟩, [("flow", ⟨tradeK, "out_port"⟩)]⟩,
     ⟨⟨tradeK, "in_port"⟩, ⟨tradeB, "balance_port"⟩, [("flow", ⟨tradeK, "in_port"⟩)]⟩]

def tradeData (q : ℚ) (k : ℚ) : DataBase :=
  [(("L", "load"), .const 5), (("K", "capacity_direct"), .const (.fin q)), (("K", "capacity_indirect"), .const 0),
   (("A", "spillage_cost"), .const (.fin k)), (("A", "ens_cost"), .const (.fin (1000 * k))),
   (("B", "spillage_cost"), .const (.fin k)), (("B", "ens_cost"), .const (.fin (10 * k)))]

/-- the system of the example with no parameters -/
def tradeBare : InputSystem where
  nodes := [⟨"A", "antares-historic.area", none, []⟩, ⟨"B", "antares-historic.area", none, []⟩]
  components := [⟨"L", "antares-historic.load", none, []⟩, ⟨"K", "antares-historic.link", none, []⟩]
  connections := (trade 0 0).connections

theorem appendAll_map {α β : Type} (f : α → R β) (g : α → α) (h : ∀ x, f (g x) = f x) : ∀ l : List α,
    appendAll f (l.map g) = appendAll f l
  | [] => rfl
  | x :: l => by
    simp only [List.map_cons, appendAll, h, appendAll_map f g h l]

theorem trade_resolved (q : ℚ) (k : ℚ) (libs : Dict String Library) :
    resolveSystem (trade q k) libs = resolveSystem tradeBare libs := by
  have h1 := appendAll_map (resolveComponent libs) (fun c => { c with parameters := [] }) (fun _ => rfl) (trade q k).components
  have h2 := appendAll_map (resolveComponent libs) (fun c => { c with parameters := [] }) (fun _ => rfl) (trade q k).nodes
  unfold resolveSystem
  rw [← h1, ← h2]
  rfl

theorem trade_linked : (tradeStudy q k).Linked tradeNet := by
  have : ∃ sys, resolveSystem tradeBare shippedDemoLibs = .ok sys ∧ buildNetwork sys = .ok tradeNet := ⟨_, rfl, rfl⟩
  obtain ⟨sys, h1, h2⟩ := this
  exact StudyInput.linked trade_sound shippedDemoLibs_shipped ((trade_resolved q k _).trans h1) h2

theorem trade_limits (q k : ℚ) : ∀ c ∈ tradeNet.allComponents, ∀ z ∈ c.model.allConstraints, ∀ t s : Nat,
    t < (tradeStudy q k).steps.length → s < (tradeStudy q k).scenarios →
    ((tradeStudy q k).context tradeNet (tradeData q k)).NoTiny c z.expression t s := by
  intro c hc
  simp only [tradeNet, Network.allComponents, Dict.values, List.map_cons, List.map_nil, List.cons_append, List.nil_append,
    List.mem_cons, List.not_mem_nil, or_false] at hc
  rcases hc with rfl | rfl | rfl | rfl
  · intro z hz t s _ _
    simp only [tradeA, Model.allConstraints, antaresAreaModel, Dict.values, List.map_cons, List.map_nil, List.append_nil,
      List.mem_cons, List.not_mem_nil, or_false] at hz
    subst hz
    refine noTiny_of_int (-5) [(⟨"K", "flow", some t, some s⟩, 1), (⟨"A", "spillage", some t, some s⟩, -1),
      (⟨"A", "unsupplied_energy", some t, some s⟩, 1)] fun var => ?_
    show (-5 + (var "K" "flow" (some (t : Int)) (some (s : Int)) + 0)) +
      (-var "A" "spillage" (some (t : Int)) (some (s : Int)) + (- -var "A" "unsupplied_energy" (some (t : Int)) (some (s : Int)) + 0)) = _
    simp only [List.map_cons, List.map_nil, List.sum_cons, List.sum_nil]
    push_cast
    ring
  · intro z hz t s _ _
    simp only [tradeB, Model.allConstraints, antaresAreaModel, Dict.values, List.map_cons, List.map_nil, List.append_nil,
      List.mem_cons, List.not_mem_nil, or_false] at hz
    subst hz
    refine noTiny_of_int 0 [(⟨"K", "flow", some t, some s⟩, -1), (⟨"B", "spillage", some t, some s⟩, -1),
      (⟨"B", "unsupplied_energy", some t, some s⟩, 1)] fun var => ?_
    show (-var "K" "flow" (some (t : Int)) (some (s : Int)) + 0) +
      (-var "B" "spillage" (some (t : Int)) (some (s : Int)) + (- -var "B" "unsupplied_energy" (some (t : Int)) (some (s : Int)) + 0)) = _
    simp only [List.map_cons, List.map_nil, List.sum_cons, List.sum_nil]
    push_cast
    ring
  · intro z hz; simp [tradeL, Model.allConstraints, antaresLoadModel, Dict.values] at hz
  · intro z hz t s _ _
    simp only [tradeK, Model.allConstraints, antaresLinkModel, Dict.values, List.map_cons, List.map_nil, List.nil_append,
      List.mem_cons, List.not_mem_nil, or_false] at hz
    subst hz
    refine noTiny_of_int 0 [(⟨"K", "flow", some t, some s⟩, 1), (⟨"K", "flow_direct", some t, some s⟩, -1),
      (⟨"K", "flow_indirect", some t, some s⟩, 1)] fun var => ?_
    show var "K" "flow" (some (t : Int)) (some (s : Int)) + (-var "K" "flow_direct" (some (t : Int)) (some (s : Int)) +
      (- -var "K" "flow_indirect" (some (t : Int)) (some (s : Int)) + 0)) = _
    simp only [List.map_cons, List.map_nil, List.sum_cons, List.sum_nil]
    push_cast
    ring

/-- the prices of an area: no other coefficients in its cost -/
theorem trade_prices (q k : ℚ) : ∀ c ∈ tradeNet.allComponents, ∀ e ∈ c.model.objectives, ∃ (id : String) (u : Nat), ∀ var,
    mden (((tradeStudy q k).context tradeNet (tradeData q k)).readAs (((tradeStudy q k).context tradeNet (tradeData q k)).unwrapped var) c) e 0 0 =
      k * var id "spillage" (some 0) (some 0) + u * k * var id "unsupplied_energy" (some 0) (some 0) ∧ u ≤ 1000 := by
  intro c hc
  simp only [tradeNet, Network.allComponents, Dict.values, List.map_cons, List.map_nil, List.cons_append, List.nil_append,
    List.mem_cons, List.not_mem_nil, or_false] at hc
  rcases hc with rfl | rfl | rfl | rfl
  · intro e he
    simp only [tradeA, Model.objectives, antaresAreaModel, Option.toList, List.append_nil, List.mem_cons, List.not_mem_nil, or_false] at he
    subst he
    refine ⟨"A", 1000, fun W => ⟨?_, le_rfl⟩⟩
    show (∑ w ∈ Finset.range 1, ∑ u ∈ Finset.range 1, ((k : ℚ) * W "A" "spillage" (some (u : Int)) (some (w : Int)) +
      ((1000 * k : ℚ) * W "A" "unsupplied_energy" (some (u : Int)) (some (w : Int)) + 0))) / ((1 : Nat) : ℚ) = _
    rw [Finset.sum_range_one, Finset.sum_range_one]
    push_cast
    ring
  · intro e he
    simp only [tradeB, Model.objectives, antaresAreaModel, Option.toList, List.append_nil, List.mem_cons, List.not_mem_nil, or_false] at he
    subst he
    refine ⟨"B", 10, fun W => ⟨?_, by norm_num⟩⟩
    show (∑ w ∈ Finset.range 1, ∑ u ∈ Finset.range 1, ((k : ℚ) * W "B" "spillage" (some (u : Int)) (some (w : Int)) +
      ((10 * k : ℚ) * W "B" "unsupplied_energy" (some (u : Int)) (some (w : Int)) + 0))) / ((1 : Nat) : ℚ) = _
    rw [Finset.sum_range_one, Finset.sum_range_one]
    push_cast
    ring
  · intro e he; simp [tradeL, Model.objectives, antaresLoadModel] at he
  · intro e he; simp [tradeK, Model.objectives, antaresLinkModel] at he

theorem trade_noTiny (q : ℚ) (k : Nat) : ∀ c ∈ tradeNet.allComponents, (∀ z ∈ c.model.allConstraints, ∀ t s : Nat,
    t < (tradeStudy q k).steps.length → s < (tradeStudy q k).scenarios →
    ((tradeStudy q k).context tradeNet (tradeData q k)).NoTiny c z.expression t s) ∧
    ∀ e ∈ c.model.objectives, ((tradeStudy q k).context tradeNet (tradeData q k)).NoTiny c e 0 0 := by
  refine fun c hc => ⟨trade_limits q k c hc, fun e he => ?_⟩
  obtain ⟨id, u, h⟩ := trade_prices q k c hc e he
  refine noTiny_of_int 0 [(⟨id, "spillage", some 0, some 0⟩, k), (⟨id, "unsupplied_energy", some 0, some 0⟩, u * k)] fun W => ?_
  rw [(h W).1]
  simp only [List.map_cons, List.map_nil, List.sum_cons, List.sum_nil]
  push_cast
  ring

theorem trade_kept {k : Nat} (hq : 0 ≤ q) (os : Nat → SetOrder) (ho : ∀ i, (os i).Valid) : KeptRun textParser os 8 (tradeDisk q k) tradeFlags := by
  have hx : buildDataBase (tradeStudy q k).load (trade q k) = .ok (tradeData q k) := rfl
  exact keptRun_of ho (trade_command hq) (rearranged_refl _) trade_sound (trade_command hq).joins (Nat.le_refl _) trade_linked hx (trade_noTiny q k)

theorem trade_parts (q q' : ℚ) (k k' : ℚ) : (tradeStudy q k).SameParts (tradeStudy q' k') := ⟨rfl, rfl, rfl, rfl⟩

theorem trade_repriced (q : ℚ) (k : ℚ) : (tradeStudy q 1).Repriced k (tradeStudy q k) where
  toSameParts := trade_parts q q 1 k
  prices c hc n hn t s ht hs := by
    simp only [trade_declared, trade, List.cons_append, List.nil_append, List.mem_cons, List.not_mem_nil, or_false] at hc
    simp only [prices, List.mem_cons, List.not_mem_nil, or_false] at hn
    rcases hc with rfl | rfl | rfl | rfl <;>
      rcases hn with rfl | rfl | rfl | rfl | rfl | rfl | rfl | rfl | rfl | rfl <;> first | exact (mul_zero (k : ℚ)).symm | skip
    · show (k : ℚ) = k * 1
      ring
    · show (1000 * k : ℚ) = k * (1000 * 1)
      ring
    · show (k : ℚ) = k * 1
      ring
    · show (10 * k : ℚ) = k * (10 * 1)
      ring
  others c hc n hn t s ht hs := by
    simp only [trade_declared, trade, List.cons_append, List.nil_append, List.mem_cons, List.not_mem_nil, or_false] at hc
    simp only [prices, List.mem_cons, List.not_mem_nil, or_false, not_or] at hn
    obtain ⟨h1, h2, -⟩ := hn
    rcases hc with rfl | rfl | rfl | rfl
    · have : ∀ k, (tradeStudy q k).parameter "A" n t s = 0 := fun k => by
        simp [StudyInput.parameter, StudyInput.component?, trade_declared, trade, Ne.symm h1, Ne.symm h2]
      simp only [this]
    · have : ∀ k, (tradeStudy q k).parameter "B" n t s = 0 := fun k => by
        simp [StudyInput.parameter, StudyInput.component?, trade_declared, trade, Ne.symm h1, Ne.symm h2]
      simp only [this]
    · rfl
    · rfl

theorem trade_looser {q q' : ℚ} (h : q ≤ q') (k : ℚ) : (tradeStudy q k).Looser (tradeStudy q' k) where
  toSameParts := trade_parts q q' k k
  upper c hc f hf t s ht hs := by
    simp only [trade_declared, trade, List.cons_append, List.nil_append, List.mem_cons, List.not_mem_nil, or_false] at hc
    rcases hc with rfl | rfl | rfl | rfl
    · cases hf
    · cases hf
    · cases hf
    · have hf : f ∈ [fun p : String → ℚ => p "capacity_direct", fun p => p "capacity_indirect"] := hf
      simp only [List.mem_cons, List.not_mem_nil, or_false] at hf
      rcases hf with rfl | rfl
      · exact h
      · exact le_refl (0 : ℚ)
  lower c hc f hf t s ht hs := by
    simp only [trade_declared, trade, List.cons_append, List.nil_append, List.mem_cons, List.not_mem_nil, or_false] at hc
    rcases hc with rfl | rfl | rfl | rfl <;> cases hf
  others c hc n hn t s ht hs := by
    simp only [trade_declared, trade, List.cons_append, List.nil_append, List.mem_cons, List.not_mem_nil, or_false] at hc
    rcases hc with rfl | rfl | rfl | rfl
    · rfl
    · rfl
    · rfl
    · have hn : n ∉ ["capacity_direct", "capacity_indirect"] := hn
      simp only [List.mem_cons, List.not_mem_nil, or_false, not_or] at hn
      have : ∀ q, (tradeStudy q k).parameter "K" n t s = 0 := fun k => by
        simp [StudyInput.parameter, StudyInput.component?, trade_declared, trade, Ne.symm hn.1, Ne.symm hn.2]
      simp only [this]

end Verif.Props
