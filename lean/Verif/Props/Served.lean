import Verif.Lemmas.Served
import Verif.Props.SolvedShipped

/-!
# C94: with areas, a study is solved as soon as each component can work
-/

namespace Verif.Props
open Verif Verif.Expr Verif.OptCtx Verif.Shipped

section
variable {I : StudyInput}

/-! ## Costs have a lower bound -/

theorem working_readings {σ : TermKey → ℚ} (ha : I.Accepts σ) {c : InputComponent} (hc : c ∈ I.declared) {r : Rules} (hr : Rules.named c.model = some r) :
    r.Working I.steps.length I.scenarios (I.parameter c.id) (I.readings σ c.id) where
  steps := rfl
  scenarios := rfl
  parameters := rfl
  cyclic n t s := by
    show σ (I.instance_ c.id n t s) = σ (I.instance_ c.id n (t % I.steps.length) s)
    unfold StudyInput.instance_
    rw [Int.emod_emod]
  accepts t s ht hs := ha c hc r hr t s ht hs

/-- **C94, costs.** In a study on the shipped models in which energy that is spilled or not supplied does not earn money, costs have a lower bound,
whatever the signs of all other prices: what these prices are paid for is bounded by capacities. -/
theorem c94_bounded (I : StudyInput) (hs : I.Sound) (hp : I.SlackPaid) : ∃ m, ∀ σ, I.Accepts σ → m ≤ I.cost σ := by
  have hT : 0 < I.steps.length := List.length_pos_iff.2 hs.block
  have key : ∀ l : List InputComponent, (∀ c ∈ l, c ∈ I.declared) → ∃ m, ∀ σ, I.Accepts σ →
      m ≤ (l.map fun c => ((Rules.named c.model).map fun r => r.cost (I.readings σ c.id)).getD 0).sum := by
    intro l
    induction l with
    | nil => exact fun _ => ⟨0, fun _ _ => le_rfl⟩
    | cons c l ih =>
      intro hl
      obtain ⟨m, hm⟩ := ih fun c' hc' => hl c' (List.mem_cons_of_mem _ hc')
      have hc := hl c List.mem_cons_self
      rcases hr : Rules.named c.model with _ | r
      · refine ⟨m, fun σ hσ => ?_⟩
        rw [List.map_cons, List.sum_cons, hr]
        show m ≤ 0 + _
        rw [zero_add]
        exact hm σ hσ
      · obtain ⟨q, hq⟩ := Rules.named_low hr _ _ hT hs.scenarios (I.parameter c.id) (hp c hc)
        refine ⟨q + m, fun σ hσ => ?_⟩
        rw [List.map_cons, List.sum_cons, hr]
        exact add_le_add (hq _ (working_readings hσ hc hr)) (hm σ hσ)
  exact key _ fun _ h => h

/-- **C94, studies on the shipped models.** Where energy that is spilled or not supplied does not earn money, there is a cheapest way to satisfy the study
exactly when it can be satisfied. -/
theorem c94_study (I : StudyInput) (hs : I.Sound) {net : Network} {db : DataBase} (l : I.Linked net) (hdb : buildDataBase I.load I.system = .ok db)
    (hp : I.SlackPaid) : (∃ c, LeastCost I.Accepts I.cost c) ↔ ∃ σ, I.Accepts σ := by
  rw [(c93_study I hs l hdb).1]
  exact and_iff_left (c94_bounded I hs hp)

/-! ## Areas balance everything -/

/-- the values `σ`, with the given values for the variables of areas -/
def overAreas (I : StudyInput) (σ τ : TermKey → ℚ) : TermKey → ℚ := fun k =>
  if (I.component? k.component).map (·.model) = some "antares-historic.area" then τ k else σ k

/-- what areas spill and do not supply when the other components have the values `σ` -/
def balanced (I : StudyInput) (σ : TermKey → ℚ) : TermKey → ℚ := fun k =>
  if k.var = "spillage" then max ((I.readings σ k.component).received "balance_port" "flow" (k.time.getD 0) (k.scenario.getD 0)) 0 else
    max ((I.readings σ k.component).received "balance_port" "flow" (k.time.getD 0) (k.scenario.getD 0)) 0 -
      (I.readings σ k.component).received "balance_port" "flow" (k.time.getD 0) (k.scenario.getD 0)

theorem area_named : Rules.named "antares-historic.area" = some Rules.area := by
  unfold Rules.named
  simp [Rules.shipped, Rules.antares]

theorem sent_over (σ τ : TermKey → ℚ) (id port field : String) : I.sent (overAreas I σ τ) id port field = I.sent σ id port field := by
  unfold StudyInput.sent
  by_cases h : (I.component? id).map (·.model) = some "antares-historic.area"
  · have hr : I.rulesOf id = some Rules.area := by
      unfold StudyInput.rulesOf
      obtain ⟨c, hc, hm⟩ := Option.map_eq_some_iff.1 h
      rw [hc]
      show Rules.named c.model = _
      rw [hm, area_named]
    rw [hr]
    have : Rules.area.sends port field = none := by
      unfold Rules.sends
      by_cases hq : "balance_port" = port
      · by_cases hf : "flow" = field <;> simp [hq, hf, Rules.area]
      · simp [hq, Rules.area]
    simp [this]
  · have : I.own (overAreas I σ τ) id = I.own σ id := by
      unfold StudyInput.own
      congr 1
      funext n t s
      show overAreas I σ τ (I.instance_ id n t s) = _
      exact if_neg h
    rw [this]

theorem received_over (σ τ : TermKey → ℚ) (id : String) : (I.readings (overAreas I σ τ) id).received = (I.readings σ id).received := by
  funext port field t s
  unfold StudyInput.readings StudyInput.carried
  simp only [sent_over]

/-- the rules of the models of these libraries, except areas, do not mention what ports receive -/
theorem rules_alone {ref : String} {r : Rules} (h : ref ∈ Rules.antares.map (fun e => "antares-historic." ++ e.1) ++
    Rules.andromede.map fun e => "andromede-v1-models." ++ e.1) (hr : Rules.named ref = some r) (ha : ref ≠ "antares-historic.area")
    (R R' : Readings) (e1 : R'.T = R.T) (e2 : R'.S = R.S) (e3 : R'.v = R.v) (e4 : R'.p = R.p) (t s : Int) : r.accepts R' t s ↔ r.accepts R t s := by
  obtain ⟨T, S, v, p, rec⟩ := R
  obtain ⟨T', S', v', p', rec'⟩ := R'
  dsimp only at e1 e2 e3 e4
  subst e1 e2 e3 e4
  obtain ⟨m, hm⟩ := shipped_named hr
  have hd : ref ∉ Rules.pypsa.map fun e => "pypsa_models." ++ e.1 := by
    have : ∀ e ∈ Rules.antares.map (fun e => "antares-historic." ++ e.1) ++ Rules.andromede.map fun e => "andromede-v1-models." ++ e.1,
        e ∉ Rules.pypsa.map fun e => "pypsa_models." ++ e.1 := by decide +kernel
    exact this _ h
  simp only [shippedModels, List.mem_cons, List.not_mem_nil, or_false, Prod.mk.injEq] at hm
  rcases hm with ⟨rfl, -, rfl⟩ | ⟨rfl, -, rfl⟩ | ⟨rfl, -, rfl⟩ | ⟨rfl, -, rfl⟩ | ⟨rfl, -, rfl⟩ | ⟨rfl, -, rfl⟩ | ⟨rfl, -, rfl⟩ | ⟨rfl, -, rfl⟩ |
    ⟨rfl, -, rfl⟩ | ⟨rfl, -, rfl⟩ | ⟨rfl, -, rfl⟩ | ⟨rfl, -, rfl⟩ | ⟨rfl, -, rfl⟩ | ⟨rfl, -, rfl⟩ | ⟨rfl, -, rfl⟩ | ⟨rfl, -, rfl⟩ | ⟨rfl, -, rfl⟩
  · exact absurd rfl ha
  all_goals first
    | exact Iff.rfl
    | exact absurd (by decide) hd

/-- **C94, areas.** A study on antares-historic and andromede-v1-models can be satisfied exactly when each of its components other than areas can work:
whatever they send, the areas balance it. -/
theorem c94_areas (I : StudyInput) (hs : I.Sound) (hm : I.AreaStudy) :
    (∃ σ, I.Accepts σ) ↔ ∀ c ∈ I.declared, c.model ≠ "antares-historic.area" → I.CanWork c := by
  constructor
  · rintro ⟨σ, hσ⟩ c hc ha
    exact ⟨σ, fun r hr t s ht hs' => (rules_alone (hm c hc) hr ha (I.own σ c.id) (I.readings σ c.id) rfl rfl rfl rfl t s).1 (hσ c hc r hr t s ht hs')⟩
  · intro h
    have h' : ∀ id : String, ∃ σ : TermKey → ℚ, ∀ c, I.component? id = some c → c.model ≠ "antares-historic.area" → ∀ r, Rules.named c.model = some r →
        ∀ t s : Nat, t < I.steps.length → s < I.scenarios → r.accepts (I.own σ id) t s := by
      intro id
      cases hc : I.component? id with
      | none => exact ⟨fun _ => 0, fun c hc => by cases hc⟩
      | some c =>
        obtain ⟨hd, rfl⟩ := StudyInput.component?_mem hc
        by_cases ha : c.model = "antares-historic.area"
        · exact ⟨fun _ => 0, fun c' hc' ha' => by cases hc'; exact absurd ha ha'⟩
        · obtain ⟨σ, hσ⟩ := h c hd ha
          exact ⟨σ, fun c' hc' _ => by cases hc'; exact hσ⟩
    choose F hF using h'
    have key : ∀ σ : TermKey → ℚ, (∀ k, σ k = F k.component k) → ∃ τ, I.Accepts (overAreas I σ τ) := by
      intro σ hσ
      refine ⟨balanced I σ, fun c hc r hr t s ht hs' => ?_⟩
      have hcomp := StudyInput.component?_of_mem hs hc
      by_cases ha : c.model = "antares-historic.area"
      · rw [ha, area_named] at hr
        cases hr
        have hrules : I.rulesOf c.id = some Rules.area := by
          unfold StudyInput.rulesOf
          rw [hcomp]
          show Rules.named c.model = _
          rw [ha, area_named]
        have hmod : ((t : Int) % I.steps.length) = t := Int.emod_eq_of_lt (by omega) (by omega)
        have hcm : (I.component? c.id).map (·.model) = some "antares-historic.area" := by rw [hcomp]; exact congrArg some ha
        have i1 : I.instance_ c.id "spillage" t s = ⟨c.id, "spillage", some t, some s⟩ := by
          unfold StudyInput.instance_
          rw [hrules, hmod]
          rfl
        have i2 : I.instance_ c.id "unsupplied_energy" t s = ⟨c.id, "unsupplied_energy", some t, some s⟩ := by
          unfold StudyInput.instance_
          rw [hrules, hmod]
          rfl
        show 0 ≤ overAreas I σ (balanced I σ) (I.instance_ c.id "spillage" t s) ∧ 0 ≤ overAreas I σ (balanced I σ) (I.instance_ c.id "unsupplied_energy" t s) ∧
          (I.readings (overAreas I σ (balanced I σ)) c.id).received "balance_port" "flow" t s + overAreas I σ (balanced I σ) (I.instance_ c.id "unsupplied_energy" t s) =
            overAreas I σ (balanced I σ) (I.instance_ c.id "spillage" t s)
        rw [received_over, i1, i2]
        have v1 : overAreas I σ (balanced I σ) ⟨c.id, "spillage", some t, some s⟩ = max ((I.readings σ c.id).received "balance_port" "flow" t s) 0 :=
          (if_pos hcm).trans (if_pos rfl)
        have v2 : overAreas I σ (balanced I σ) ⟨c.id, "unsupplied_energy", some t, some s⟩ =
            max ((I.readings σ c.id).received "balance_port" "flow" t s) 0 - (I.readings σ c.id).received "balance_port" "flow" t s :=
          (if_pos hcm).trans (if_neg (show ¬ "unsupplied_energy" = "spillage" by decide))
        rw [v1, v2]
        exact ⟨le_max_right _ _, sub_nonneg.2 (le_max_left _ _), by ring⟩
      · have hcm : ¬ (I.component? c.id).map (·.model) = some "antares-historic.area" := by
          rw [hcomp]
          exact fun e => ha (Option.some.inj e)
        refine (rules_alone (hm c hc) hr ha (I.own (F c.id) c.id) (I.readings _ c.id) rfl rfl ?_ rfl t s).2 (hF c.id c hcomp ha r hr t s ht hs')
        funext n t s
        show overAreas I σ (balanced I σ) (I.instance_ c.id n t s) = F c.id (I.instance_ c.id n t s)
        exact (if_neg hcm).trans (hσ _)
    obtain ⟨τ, hτ⟩ := key (fun k => F k.component k) fun _ => rfl
    exact ⟨_, hτ⟩

/-- components at rest -/
theorem rest_works (h : I.Restful) : ∀ c ∈ I.declared, c.model ≠ "antares-historic.area" → I.CanWork c := by
  intro c hc ha
  obtain ⟨ns, hns, hp⟩ := h c hc
  refine ⟨fun _ => 0, fun r hr t s ht hs => ?_⟩
  have hr' := hr
  obtain ⟨m, hm⟩ := shipped_named hr
  simp only [StudyInput.restful, List.mem_cons, List.not_mem_nil, or_false, Prod.mk.injEq] at hns
  rcases hns with ⟨e, rfl⟩ | ⟨e, rfl⟩ | ⟨e, rfl⟩ | ⟨e, rfl⟩ | ⟨e, rfl⟩ | ⟨e, rfl⟩
  · exact absurd e ha
  · rw [e] at hr
    obtain rfl : r = Rules.load := by cases hr; rfl
    trivial
  · rw [e] at hr
    obtain rfl : r = Rules.link := by cases hr; rfl
    exact ⟨⟨le_rfl, hp _ (by simp) t s ht hs⟩, ⟨le_rfl, hp _ (by simp) t s ht hs⟩, (sub_zero (0 : ℚ)).symm⟩
  · rw [e] at hr
    obtain rfl : r = Rules.renewable := by cases hr; rfl
    trivial
  · rw [e] at hr
    obtain rfl : r = Rules.dsr := by cases hr; rfl
    exact ⟨le_rfl, hp _ (by simp) t s ht hs⟩
  · rw [e] at hr
    obtain rfl : r = Rules.electrolyser := by cases hr; rfl
    exact ⟨le_rfl, hp _ (by simp) t s ht hs⟩

theorem restful_areas (h : I.Restful) : I.AreaStudy := by
  intro c hc
  obtain ⟨ns, hns, -⟩ := h c hc
  revert hns
  generalize c.model = ref
  intro hns
  have : ∀ e ∈ StudyInput.restful, e.1 ∈ Rules.antares.map (fun e => "antares-historic." ++ e.1) ++ Rules.andromede.map fun e => "andromede-v1-models." ++ e.1 := by
    decide +kernel
  exact this _ hns

/-- **C94, studies at rest.** A study made of areas, loads, links, renewable sources, curtailable loads and electrolysers, without negative capacities, can
always be satisfied. -/
theorem c94_rest (I : StudyInput) (hs : I.Sound) (h : I.Restful) : ∃ σ, I.Accepts σ := (c94_areas I hs (restful_areas h)).2 (rest_works h)

end

/-- **C94 (partial), the command.** Take a command on shipped libraries and a complete study in which energy that is spilled or not supplied does not earn
money, and no coefficient is tiny.  It ends without an error.  It prints status 0 exactly when the study can be satisfied; on antares-historic and
andromede-v1-models, exactly when each component other than areas can work; and always, when the study is made of areas, loads, links, renewable sources,
curtailable loads and electrolysers without negative capacities.

Partial: tiny coefficients (`c94_tiny`). -/
theorem c94_command_partial (solve : Solver → Answer) (hsolve : RightSolver solve) (os : Nat → SetOrder) (ho : ∀ i, (os i).Valid) (fuel : Nat) (d : Disk)
    (f : CliFlags) {paths : List String} {comp : String} {tables : Option String} {ls : List InputLibrary} {s : InputSystem}
    (h : ShippedCommand d f paths comp tables ls s) (hfuel : 3 * ls.length + 2 ≤ fuel) (hp : (d.study s tables f).SlackPaid)
    (hk : KeptRun textParser os fuel d f) :
    ∃ o, mainOutput solve textParser os fuel d f = some (.ok o) ∧
      (o.status = 0 ↔ ∃ σ, (d.study s tables f).Accepts σ) ∧
      ((d.study s tables f).AreaStudy →
        (o.status = 0 ↔ ∀ c ∈ (d.study s tables f).declared, c.model ≠ "antares-historic.area" → (d.study s tables f).CanWork c)) ∧
      ((d.study s tables f).Restful → o.status = 0) := by
  obtain ⟨-, -, o, -, -, r, -, e⟩ := c93_command solve hsolve os ho fuel d f h hfuel
  have e := (e hk).trans (and_iff_left (c94_bounded _ h.sound hp))
  exact ⟨o, r, e, fun ha => e.trans (c94_areas _ h.sound ha), fun hr => e.2 (c94_rest _ h.sound hr)⟩

end Verif.Props
