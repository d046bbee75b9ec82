import Verif.Props.Without
import Verif.Props.ServedExamples
import Verif.Props.RepricedExamples

/-!
# C95: the command on the edited file, and examples
-/

namespace Verif.Props
open Verif Verif.Expr Verif.OptCtx Verif.Shipped StudyInput

theorem without_sound {J : StudyInput} {id : String} (h : J.Sound) : (J.without id).Sound where
  ids := by
    rw [without_declared]
    exact List.Nodup.sublist (List.Sublist.map _ List.filter_sublist) h.ids
  parameters c hc := h.parameters c (without_mem.1 hc).1
  tables := h.tables
  finite c hc := h.finite c (without_mem.1 hc).1
  block := h.block
  steps := h.steps
  scenarios := h.scenarios
  varying c hc := h.varying c (without_mem.1 hc).1

theorem without_complete {J : StudyInput} {id : String} {libs : Dict String Library} (h : J.Complete libs) : (J.without id).Complete libs where
  models c hc := h.models c (without_mem.1 hc).1
  parameters c hc := h.parameters c (without_mem.1 hc).1
  readable c hc := h.readable c (without_mem.1 hc).1
  covered c hc := h.covered c (without_mem.1 hc).1
  connections k hk := by
    obtain ⟨hk, e⟩ := List.mem_filter.1 hk
    obtain ⟨e1, e2⟩ : k.component1 ≠ id ∧ k.component2 ≠ id := by simpa using e
    obtain ⟨r1, r2, fs1, fs2, h1, h2, h3⟩ := h.connections k hk
    exact ⟨r1, r2, fs1, fs2, (without_rules e1).trans h1, (without_rules e2).trans h2, h3⟩
  values c hc d hd t s ht hs := by
    obtain ⟨hc, e⟩ := without_mem.1 hc
    rw [without_own e]
    exact h.values c hc d hd t s ht hs

theorem readAs_library {d d' : Disk} (e : d'.library = d.library) {paths : List String} {ls : List InputLibrary} (h : ReadAs d paths ls) :
    ReadAs d' paths ls := by
  induction h with
  | nil => exact .nil
  | cons a _ ih => exact .cons (by rw [e]; exact a) ih

/-- a complete study on shipped models is complete without one of its components -/
theorem without_command {d : Disk} {f : CliFlags} {paths : List String} {comp : String} {tables : Option String} {ls : List InputLibrary}
    {s : InputSystem} (h : ShippedCommand d f paths comp tables ls s) (id : String) :
    ShippedCommand (d.without comp id) f paths comp tables ls (s.without id) where
  names := by
    cases h.names with
    | directory a1 a2 a3 a4 a5 => exact .directory a1 a2 a3 a4 a5
    | files a1 a2 a3 => exact .files a1 a2 a3
  read := readAs_library rfl h.read
  distinct := h.distinct
  shipped := h.shipped
  system := by
    show (if comp = comp then _ else _) = _
    rw [if_pos rfl, h.system]
    rfl
  sound := without_sound h.sound
  complete libs hl := without_complete (h.complete libs hl)

/-- **C95 (partial), the file.** Run a command on shipped libraries and a complete study, and again after a component, which is not an area, a bus or a
limit of emissions, and its connections are removed from the system file.  Both runs end without an error.  When the component can send nothing at no cost
and no coefficient is tiny: if both runs print status 0, the run with the component does not print a higher cost; and if the component can do nothing else,
both print status 0 or none does, and they print the same cost.

Partial: tiny coefficients. -/
theorem c95_file_partial (solve : Solver → Answer) (hsolve : RightSolver solve) (os os' : Nat → SetOrder) (ho : ∀ i, (os i).Valid)
    (ho' : ∀ i, (os' i).Valid) (fuel : Nat) (d : Disk) (f : CliFlags) {paths : List String} {comp : String} {tables : Option String}
    {ls : List InputLibrary} {s : InputSystem} (h : ShippedCommand d f paths comp tables ls s) (hfuel : 3 * ls.length + 2 ≤ fuel) (id : String)
    (hsend : (d.study s tables f).Sender id) :
    ∃ o o', mainOutput solve textParser os fuel d f = some (.ok o) ∧ mainOutput solve textParser os' fuel (d.without comp id) f = some (.ok o') ∧
      ((d.study s tables f).CanRest id → KeptRun textParser os fuel d f → KeptRun textParser os' fuel (d.without comp id) f →
        (o.status = 0 → o'.status = 0 → o.cost ≤ o'.cost) ∧
        ((d.study s tables f).MustRest id → (o.status = 0 ↔ o'.status = 0) ∧ (o.status = 0 → o.cost = o'.cost))) := by
  obtain ⟨-, -, o, -, -, r, -⟩ := shipped_prints hsolve ho h hfuel
  obtain ⟨-, -, o', -, -, r', -⟩ := shipped_prints hsolve ho' (without_command h id) hfuel
  refine ⟨o, o', r, r', fun hrest hk hk' => ?_⟩
  obtain ⟨p, p', e, e', a, -, b⟩ := c95_command_partial solve hsolve os os' ho ho' fuel fuel d (d.without comp id) f f h hfuel (without_command h id) hfuel
    hk hk' id rfl hsend hrest
  rw [r] at e
  rw [r'] at e'
  cases e
  cases e'
  exact ⟨a, b⟩

/-! ## The link of the example -/

variable {q k : ℚ}

theorem trade_sender : (tradeStudy q k).Sender "K" := by
  refine ⟨Rules.link, rfl, fun p hp f hf => ?_⟩
  simp only [Rules.link, List.mem_cons, List.not_mem_nil, or_false] at hp
  rcases hp with rfl | rfl <;> simp only [List.mem_cons, List.not_mem_nil, or_false] at hf <;> subst hf <;> rfl

theorem trade_link_own (σ : TermKey → ℚ) : Rules.link.accepts ((tradeStudy q k).own σ "K") (0 : Nat) (0 : Nat) ↔
    (0 ≤ σ ⟨"K", "flow_direct", some 0, some 0⟩ ∧ σ ⟨"K", "flow_direct", some 0, some 0⟩ ≤ q) ∧
    (0 ≤ σ ⟨"K", "flow_indirect", some 0, some 0⟩ ∧ σ ⟨"K", "flow_indirect", some 0, some 0⟩ ≤ 0) ∧
    σ ⟨"K", "flow", some 0, some 0⟩ = σ ⟨"K", "flow_direct", some 0, some 0⟩ - σ ⟨"K", "flow_indirect", some 0, some 0⟩ := Iff.rfl

/-- the link is at rest when no energy flows -/
theorem trade_link_rest {σ : TermKey → ℚ} (h : σ ⟨"K", "flow", some 0, some 0⟩ = 0) : (tradeStudy q k).AtRest σ "K" := by
  intro r hr
  obtain rfl : r = Rules.link := by cases hr; rfl
  refine ⟨rfl, fun port field f hf t s ht hs => ?_⟩
  obtain rfl : s = 0 := Nat.lt_one_iff.1 hs
  obtain rfl : t = 0 := Nat.lt_one_iff.1 ht
  simp only [Rules.sends, Rules.link, List.find?_cons, List.find?_nil] at hf
  by_cases h1 : port = "out_port"
  · subst h1
    by_cases h2 : field = "flow"
    · subst h2
      simp at hf
      subst hf
      exact h
    · simp [Ne.symm h2] at hf
  · by_cases h2 : port = "in_port"
    · subst h2
      by_cases h2 : field = "flow"
      · subst h2
        simp at hf
        subst hf
        show -σ ⟨"K", "flow", some 0, some 0⟩ = 0
        rw [h, neg_zero]
      · simp [Ne.symm h2] at hf
    · simp [Ne.symm h1, Ne.symm h2] at hf

theorem trade_canRest (hq : 0 ≤ q) : (tradeStudy q k).CanRest "K" := by
  refine ⟨fun _ => 0, fun r hr t s ht hs => ?_, trade_link_rest rfl⟩
  obtain rfl : r = Rules.link := by cases hr; rfl
  obtain rfl : s = 0 := Nat.lt_one_iff.1 hs
  obtain rfl : t = 0 := Nat.lt_one_iff.1 ht
  exact (trade_link_own _).2 ⟨⟨le_refl _, hq⟩, ⟨le_refl _, le_refl _⟩, (sub_self _).symm⟩

theorem trade_mustRest : (tradeStudy 0 k).MustRest "K" := by
  intro σ h
  obtain ⟨⟨a1, a2⟩, ⟨b1, b2⟩, c⟩ := (trade_link_own σ).1 (h Rules.link rfl 0 0 Nat.one_pos Nat.one_pos)
  exact trade_link_rest (by rw [c]; linarith)

/-- the study without the link, with or without a capacity -/
example (hq : 0 ≤ q) (hk : 0 ≤ k) : ∃ c c', LeastCost (tradeStudy q k).Accepts (tradeStudy q k).cost c ∧
    LeastCost (tradeStudy 0 k).Accepts (tradeStudy 0 k).cost c' ∧ LeastCost ((tradeStudy q k).without "K").Accepts ((tradeStudy q k).without "K").cost c' ∧
    c ≤ c' := by
  obtain ⟨c, hc⟩ := (c94_study _ trade_sound trade_linked (db := tradeData q k) rfl (trade_paid hk)).2 (c94_rest _ trade_sound (trade_restful hq))
  obtain ⟨c', hc'⟩ := (c94_study _ trade_sound trade_linked (db := tradeData 0 k) rfl (trade_paid hk)).2 (c94_rest _ trade_sound (trade_restful le_rfl))
  have same : (tradeStudy 0 k).without "K" = (tradeStudy q k).without "K" := rfl
  have h := ((c95_absent _ "K" trade_sound (trade_command le_rfl).joins trade_sender trade_mustRest).2.2 (trade_canRest le_rfl) c').1 hc'
  rw [same] at h
  exact ⟨c, c', hc, hc', h, (c95_study _ "K" trade_sound (trade_command hq).joins trade_sender (trade_canRest hq)).2 _ _ h hc⟩

/-! No coefficient is tiny without the link. -/

def isleNet : Network where
  id := "study"
  nodes := [("A", tradeA), ("B", tradeB)]
  components := [("L", tradeL)]
  connections := [⟨⟨tradeA, "balance_port"⟩, ⟨tradeL, "balance_port"⟩, [("flow", ⟨tradeL, "balance_port"⟩)]⟩]

def isleStudy (q k : ℚ) : StudyInput := (tradeStudy q k).without "K"

def isleData (k : ℚ) : DataBase :=
  [(("L", "load"), .const 5), (("A", "spillage_cost"), .const (.fin k)), (("A", "ens_cost"), .const (.fin (1000 * k))),
   (("B", "spillage_cost"), .const (.fin k)), (("B", "ens_cost"), .const (.fin (10 * k)))]

theorem isle_resolved (q k : ℚ) (libs : Dict String Library) :
    resolveSystem ((trade q k).without "K") libs = resolveSystem (tradeBare.without "K") libs := by
  have h1 := appendAll_map (resolveComponent libs) (fun c => { c with parameters := [] }) (fun _ => rfl) ((trade q k).without "K").components
  have h2 := appendAll_map (resolveComponent libs) (fun c => { c with parameters := [] }) (fun _ => rfl) ((trade q k).without "K").nodes
  unfold resolveSystem
  rw [← h1, ← h2]
  rfl

theorem isle_linked : (isleStudy q k).Linked isleNet := by
  have : ∃ sys, resolveSystem (tradeBare.without "K") shippedDemoLibs = .ok sys ∧ buildNetwork sys = .ok isleNet := ⟨_, rfl, rfl⟩
  obtain ⟨sys, h1, h2⟩ := this
  exact StudyInput.linked (without_sound trade_sound) shippedDemoLibs_shipped ((isle_resolved q k _).trans h1) h2

theorem isle_noTiny (q : ℚ) (k : Nat) : ∀ c ∈ isleNet.allComponents, (∀ z ∈ c.model.allConstraints, ∀ t s : Nat,
    t < (isleStudy q k).steps.length → s < (isleStudy q k).scenarios →
    ((isleStudy q k).context isleNet (isleData k)).NoTiny c z.expression t s) ∧
    ∀ e ∈ c.model.objectives, ((isleStudy q k).context isleNet (isleData k)).NoTiny c e 0 0 := by
  intro c hc
  simp only [isleNet, Network.allComponents, Dict.values, List.map_cons, List.map_nil, List.cons_append, List.nil_append,
    List.mem_cons, List.not_mem_nil, or_false] at hc
  rcases hc with rfl | rfl | rfl
  · constructor
    · intro z hz t s _ _
      simp only [tradeA, Model.allConstraints, antaresAreaModel, Dict.values, List.map_cons, List.map_nil, List.append_nil,
        List.mem_cons, List.not_mem_nil, or_false] at hz
      subst hz
      refine noTiny_of_int (-5) [(⟨"A", "spillage", some t, some s⟩, -1), (⟨"A", "unsupplied_energy", some t, some s⟩, 1)] fun var => ?_
      show (-5 + 0) + (-var "A" "spillage" (some (t : Int)) (some (s : Int)) + (- -var "A" "unsupplied_energy" (some (t : Int)) (some (s : Int)) + 0)) = _
      simp only [List.map_cons, List.map_nil, List.sum_cons, List.sum_nil]
      push_cast
      ring
    · intro e he
      simp only [tradeA, Model.objectives, antaresAreaModel, Option.toList, List.append_nil, List.mem_cons, List.not_mem_nil, or_false] at he
      subst he
      refine noTiny_of_int 0 [(⟨"A", "spillage", some 0, some 0⟩, k), (⟨"A", "unsupplied_energy", some 0, some 0⟩, 1000 * k)] fun W => ?_
      show (∑ w ∈ Finset.range 1, ∑ u ∈ Finset.range 1, ((k : ℚ) * W "A" "spillage" (some (u : Int)) (some (w : Int)) +
        ((1000 * k : ℚ) * W "A" "unsupplied_energy" (some (u : Int)) (some (w : Int)) + 0))) / ((1 : Nat) : ℚ) = _
      rw [Finset.sum_range_one, Finset.sum_range_one]
      simp only [List.map_cons, List.map_nil, List.sum_cons, List.sum_nil]
      push_cast
      ring
  · constructor
    · intro z hz t s _ _
      simp only [tradeB, Model.allConstraints, antaresAreaModel, Dict.values, List.map_cons, List.map_nil, List.append_nil,
        List.mem_cons, List.not_mem_nil, or_false] at hz
      subst hz
      refine noTiny_of_int 0 [(⟨"B", "spillage", some t, some s⟩, -1), (⟨"B", "unsupplied_energy", some t, some s⟩, 1)] fun var => ?_
      show 0 + (-var "B" "spillage" (some (t : Int)) (some (s : Int)) + (- -var "B" "unsupplied_energy" (some (t : Int)) (some (s : Int)) + 0)) = _
      simp only [List.map_cons, List.map_nil, List.sum_cons, List.sum_nil]
      push_cast
      ring
    · intro e he
      simp only [tradeB, Model.objectives, antaresAreaModel, Option.toList, List.append_nil, List.mem_cons, List.not_mem_nil, or_false] at he
      subst he
      refine noTiny_of_int 0 [(⟨"B", "spillage", some 0, some 0⟩, k), (⟨"B", "unsupplied_energy", some 0, some 0⟩, 10 * k)] fun W => ?_
      show (∑ w ∈ Finset.range 1, ∑ u ∈ Finset.range 1, ((k : ℚ) * W "B" "spillage" (some (u : Int)) (some (w : Int)) +
        ((10 * k : ℚ) * W "B" "unsupplied_energy" (some (u : Int)) (some (w : Int)) + 0))) / ((1 : Nat) : ℚ) = _
      rw [Finset.sum_range_one, Finset.sum_range_one]
      simp only [List.map_cons, List.map_nil, List.sum_cons, List.sum_nil]
      push_cast
      ring
  · exact ⟨fun z hz => by simp [tradeL, Model.allConstraints, antaresLoadModel, Dict.values] at hz,
      fun e he => by simp [tradeL, Model.objectives, antaresLoadModel] at he⟩

theorem isle_kept {k : Nat} (hq : 0 ≤ q) (os : Nat → SetOrder) (ho : ∀ i, (os i).Valid) :
    KeptRun textParser os 8 ((tradeDisk q k).without "study/input/components/components.yml" "K") tradeFlags := by
  have hx : buildDataBase (isleStudy q k).load ((trade q k).without "K") = .ok (isleData k) := rfl
  have h := without_command (trade_command (q := q) (k := k) hq) "K"
  exact keptRun_of ho h (rearranged_refl _) h.sound h.joins (Nat.le_refl _) isle_linked hx (isle_noTiny q k)

/-- both commands print status 0, and the one with the link does not print a higher cost; with no capacity they print the same cost -/
example (n : Nat) (hq : 0 ≤ q) : ∃ o o', mainOutput idealSolver textParser (fun _ => firstOrder) 8 (tradeDisk q n) tradeFlags = some (.ok o) ∧
    mainOutput idealSolver textParser (fun _ => firstOrder) 8 ((tradeDisk q n).without "study/input/components/components.yml" "K") tradeFlags =
      some (.ok o') ∧ (o'.status = 0 → o.status = 0 ∧ o.cost ≤ o'.cost) ∧ (q = 0 → o.status = 0 → o.cost = o'.cost) := by
  have h := trade_command (q := q) (k := n) hq
  obtain ⟨o, o', e, e', a, b, c⟩ := c95_command_partial idealSolver idealSolver_right (fun _ => firstOrder) (fun _ => firstOrder)
    (fun _ => firstOrder_valid) (fun _ => firstOrder_valid) 8 8 (tradeDisk q n) _ tradeFlags tradeFlags h (Nat.le_refl _) (without_command h "K")
    (Nat.le_refl _) (trade_kept hq _ fun _ => firstOrder_valid) (isle_kept hq _ fun _ => firstOrder_valid) "K" rfl trade_sender (trade_canRest hq)
  refine ⟨o, o', e, e', fun z => ?_, fun hz => ?_⟩
  · have z' := b (trade_paid (Nat.cast_nonneg n)) z
    exact ⟨z', a z' z⟩
  · subst hz
    exact (c trade_mustRest).2

end Verif.Props
