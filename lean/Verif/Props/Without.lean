import Verif.Lemmas.Without
import Verif.Props.Served

/-!
# C95: a component that can rest never costs more, and one that must rest may be left out
-/

namespace Verif.Props
open Verif Verif.Expr Verif.OptCtx Verif.Shipped StudyInput

section
variable {J : StudyInput} {id : String} {σ τ : TermKey → ℚ}

theorem rulesOf_declared (hs : J.Sound) {c : InputComponent} (hc : c ∈ J.declared) : J.rulesOf c.id = Rules.named c.model := by
  unfold StudyInput.rulesOf
  rw [StudyInput.component?_of_mem hs hc]
  rfl

theorem declared_rulesOf {i : String} {r : Rules} (h : J.rulesOf i = some r) : ∃ c ∈ J.declared, c.id = i ∧ Rules.named c.model = some r := by
  unfold StudyInput.rulesOf at h
  obtain ⟨c, hc, hr⟩ := Option.bind_eq_some_iff.1 h
  obtain ⟨hd, e⟩ := StudyInput.component?_mem hc
  exact ⟨c, hd, e, hr⟩

/-- with a component at rest, the study accepts what the study without it accepts, and costs the same -/
theorem rest_accepts (hs : J.Sound) (hj : ∀ k ∈ J.system.connections, J.Joins k) (hsend : J.Sender id) (hrest : J.AtRest σ id) :
    (J.Accepts σ ↔ (J.without id).Accepts σ ∧ J.Works σ id) ∧ J.cost σ = (J.without id).cost σ := by
  have key : ∀ c ∈ J.declared, c.id ≠ id → ∀ r, Rules.named c.model = some r → r.cost ((J.without id).readings σ c.id) = r.cost (J.readings σ c.id) ∧
      ∀ t s : Nat, t < J.steps.length → s < J.scenarios → (r.accepts ((J.without id).readings σ c.id) t s ↔ r.accepts (J.readings σ c.id) t s) := by
    intro c _ hid r hr
    have own := without_own (J := J) hid σ
    exact Rules.named_received hr (J.readings σ c.id) ((J.without id).readings σ c.id) rfl rfl
      (show ((J.without id).own σ c.id).v = (J.own σ c.id).v by rw [own]) (show ((J.without id).own σ c.id).p = (J.own σ c.id).p by rw [own])
      fun p f t s ht hs => received_rest hj hsend hrest c.id p f ht hs
  have alone : ∀ c ∈ J.declared, c.id = id → ∀ r, Rules.named c.model = some r → r.cost (J.readings σ c.id) = 0 ∧
      ∀ t s : Int, (r.accepts (J.readings σ c.id) t s ↔ r.accepts (J.own σ c.id) t s) := by
    intro c hc hid r hr
    have hr' : J.rulesOf id = some r := by rw [← hid, rulesOf_declared hs hc, hr]
    obtain ⟨r', hr'', hd⟩ := hsend
    rw [hr'] at hr''
    cases hr''
    refine ⟨?_, fun t s => Rules.sender_received hr hd (J.own σ c.id) (J.readings σ c.id) rfl rfl rfl rfl t s⟩
    rw [hid]
    refine Eq.trans ?_ (hrest r hr').1
    exact Rules.cost_received hr _ _ rfl rfl rfl rfl
  refine ⟨⟨fun h => ⟨fun c hc r hr t s ht hs' => ?_, fun r hr t s ht hs' => ?_⟩, fun h c hc r hr t s ht hs' => ?_⟩, ?_⟩
  · obtain ⟨hd, hid⟩ := without_mem.1 hc
    exact ((key c hd hid r hr).2 t s ht hs').2 (h c hd r hr t s ht hs')
  · obtain ⟨c, hd, hid, hr'⟩ := declared_rulesOf hr
    rw [← hid]
    exact ((alone c hd hid r hr').2 t s).1 (h c hd r hr' t s ht hs')
  · by_cases hid : c.id = id
    · exact ((alone c hc hid r hr).2 t s).2 (by
        rw [hid]
        exact h.2 r (by rw [← hid, rulesOf_declared hs hc, hr]) t s ht hs')
    · exact ((key c hc hid r hr).2 t s ht hs').1 (h.1 c (without_mem.2 ⟨hc, hid⟩) r hr t s ht hs')
  · unfold StudyInput.cost
    rw [without_declared]
    have e := sum_filter_zero J.declared (fun c => decide (c.id ≠ id)) (fun c => ((Rules.named c.model).map fun r => r.cost (J.readings σ c.id)).getD 0) (by
      intro c hc hp
      have hid : c.id = id := by simpa using hp
      cases hr : Rules.named c.model with
      | none => rfl
      | some r => exact (alone c hc hid r hr).1)
    rw [← e]
    refine congrArg List.sum (List.map_congr_left fun c hc => ?_)
    obtain ⟨hc, hid⟩ := List.mem_filter.1 hc
    have hid : c.id ≠ id := by simpa using hid
    cases hr : Rules.named c.model with
    | none => rfl
    | some r => exact (key c hc hid r hr).1.symm

/-- the values `σ`, except those of component `id`, which are those of `τ` -/
def withValues (id : String) (σ τ : TermKey → ℚ) : TermKey → ℚ := fun k => if k.component = id then τ k else σ k

theorem own_with : J.own (withValues id σ τ) id = J.own τ id := by
  unfold StudyInput.own
  congr 1
  funext n t s
  exact if_pos rfl

theorem with_other {K : StudyInput} (hid : K.component? id = none) : (K.Accepts (withValues id σ τ) ↔ K.Accepts σ) ∧
    K.cost (withValues id σ τ) = K.cost σ := by
  have own : ∀ {i : String}, i ≠ id → K.own (withValues id σ τ) i = K.own σ i := by
    intro i hi
    unfold StudyInput.own
    congr 1
    funext n t s
    exact if_neg hi
  have sent : ∀ i port field, K.sent (withValues id σ τ) i port field = K.sent σ i port field := by
    intro i port field
    unfold StudyInput.sent
    by_cases hi : i = id
    · unfold StudyInput.rulesOf
      rw [hi, hid]
      rfl
    · rw [own hi]
  have read : ∀ c ∈ K.declared, K.readings (withValues id σ τ) c.id = K.readings σ c.id := by
    intro c hc
    have hne : c.id ≠ id := by
      intro e
      have := List.find?_eq_none.1 hid c hc
      simp [e] at this
    unfold StudyInput.readings
    rw [own hne]
    unfold StudyInput.carried
    simp only [sent]
  constructor
  · exact forall_congr' fun c => forall_congr' fun hc => by rw [read c hc]
  · unfold StudyInput.cost
    exact congrArg List.sum (List.map_congr_left fun c hc => by rw [read c hc])

theorem without_none : (J.without id).component? id = none := by
  unfold StudyInput.component?
  refine List.find?_eq_none.2 fun c hc => ?_
  simpa using (without_mem.1 hc).2

end

/-- **C95, a component that can rest.** Take a study on the shipped models, and a component that is not an area, a bus or a limit of emissions and can send
nothing at no cost.  Whatever the study without this component accepts is accepted with it, for some values of its variables, at the same cost; so the
component does not make the least cost higher. -/
theorem c95_study (J : StudyInput) (id : String) (hs : J.Sound) (hj : ∀ k ∈ J.system.connections, J.Joins k) (hsend : J.Sender id) (h : J.CanRest id) :
    (∀ σ, (J.without id).Accepts σ → ∃ σ', J.Accepts σ' ∧ J.cost σ' = (J.without id).cost σ ∧ ∀ k, k.component ≠ id → σ' k = σ k) ∧
    ∀ c c', LeastCost (J.without id).Accepts (J.without id).cost c → LeastCost J.Accepts J.cost c' → c' ≤ c := by
  have key : ∀ σ, (J.without id).Accepts σ → ∃ σ', J.Accepts σ' ∧ J.cost σ' = (J.without id).cost σ ∧ ∀ k, k.component ≠ id → σ' k = σ k := by
    intro σ hσ
    obtain ⟨τ, hw, hr⟩ := h
    have e1 : J.Works (withValues id σ τ) id := fun r hr t s ht hs => by rw [own_with]; exact hw r hr t s ht hs
    have e2 : J.AtRest (withValues id σ τ) id := fun r hr' => by rw [own_with]; exact hr r hr'
    obtain ⟨a, b⟩ := rest_accepts hs hj hsend e2
    obtain ⟨a', b'⟩ := with_other (K := J.without id) (σ := σ) (τ := τ) without_none
    exact ⟨_, a.2 ⟨a'.2 hσ, e1⟩, b.trans b', fun k hk => if_neg hk⟩
  refine ⟨key, fun c c' hc hc' => ?_⟩
  obtain ⟨⟨σ, hσ, rfl⟩, -⟩ := hc
  obtain ⟨σ', h1, h2, -⟩ := key σ hσ
  rw [← h2]
  exact hc'.2 σ' h1

/-- **C95, a component that must rest.** When it can do nothing else, for example because its capacities are zero, it may be left out: the study accepts
exactly what the study without it accepts and its own rules accept, at the same cost, and the least costs are the same. -/
theorem c95_absent (J : StudyInput) (id : String) (hs : J.Sound) (hj : ∀ k ∈ J.system.connections, J.Joins k) (hsend : J.Sender id) (h : J.MustRest id) :
    (∀ σ, J.Works σ id → (J.Accepts σ ↔ (J.without id).Accepts σ) ∧ J.cost σ = (J.without id).cost σ) ∧ (∀ σ, J.Accepts σ → J.Works σ id) ∧
    (J.CanRest id → ∀ c, LeastCost J.Accepts J.cost c ↔ LeastCost (J.without id).Accepts (J.without id).cost c) := by
  have works : ∀ σ, J.Accepts σ → J.Works σ id := by
    intro σ ha r hr t s ht hs'
    obtain ⟨r', hr', hd⟩ := hsend
    rw [hr] at hr'
    cases hr'
    obtain ⟨c, hc, rfl, hn⟩ := declared_rulesOf hr
    exact (Rules.sender_received hn hd (J.own σ c.id) (J.readings σ c.id) rfl rfl rfl rfl t s).1 (ha c hc r hn t s ht hs')
  have key : ∀ σ, J.Works σ id → (J.Accepts σ ↔ (J.without id).Accepts σ) ∧ J.cost σ = (J.without id).cost σ := fun σ hw => by
    obtain ⟨a, b⟩ := rest_accepts hs hj hsend (h σ hw)
    exact ⟨a.trans (and_iff_left hw), b⟩
  refine ⟨key, works, fun hr c => ?_⟩
  have more := (c95_study J id hs hj hsend hr).1
  constructor
  · rintro ⟨⟨σ, hσ, rfl⟩, low⟩
    have k := key σ (works σ hσ)
    refine ⟨⟨σ, k.1.1 hσ, k.2.symm⟩, fun τ hτ => ?_⟩
    obtain ⟨τ', h1, h2, -⟩ := more τ hτ
    rw [← h2]
    exact low τ' h1
  · rintro ⟨⟨σ, hσ, rfl⟩, low⟩
    obtain ⟨σ', h1, h2, -⟩ := more σ hσ
    refine ⟨⟨σ', h1, h2⟩, fun τ hτ => ?_⟩
    have k := key τ (works τ hτ)
    rw [k.2]
    exact low τ (k.1.1 hτ)

/-- **C95 (partial), the command.** Take two commands on shipped libraries and complete studies, the second one on the study of the first one without one
component, which is not an area, a bus or a limit of emissions and can send nothing at no cost.  Both end without an error.  When no coefficient is tiny:
if both print status 0, the first one does not print a higher cost; if energy that is spilled or not supplied does not earn money, the first one prints
status 0 when the second one does; and if the component can do nothing else, the first one prints status 0 exactly when the second one does, and the
same cost.

Partial: tiny coefficients. -/
theorem c95_command_partial (solve : Solver → Answer) (hsolve : RightSolver solve) (os os' : Nat → SetOrder) (ho : ∀ i, (os i).Valid)
    (ho' : ∀ i, (os' i).Valid) (fuel fuel' : Nat) (d d' : Disk) (f f' : CliFlags) {paths paths' : List String} {comp comp' : String}
    {tables tables' : Option String} {ls ls' : List InputLibrary} {s s' : InputSystem} (h : ShippedCommand d f paths comp tables ls s)
    (hfuel : 3 * ls.length + 2 ≤ fuel) (h' : ShippedCommand d' f' paths' comp' tables' ls' s') (hfuel' : 3 * ls'.length + 2 ≤ fuel')
    (hk : KeptRun textParser os fuel d f) (hk' : KeptRun textParser os' fuel' d' f') (id : String)
    (hr : d'.study s' tables' f' = (d.study s tables f).without id) (hsend : (d.study s tables f).Sender id) (hrest : (d.study s tables f).CanRest id) :
    ∃ o o', mainOutput solve textParser os fuel d f = some (.ok o) ∧ mainOutput solve textParser os' fuel' d' f' = some (.ok o') ∧
      (o.status = 0 → o'.status = 0 → o.cost ≤ o'.cost) ∧
      ((d.study s tables f).SlackPaid → o'.status = 0 → o.status = 0) ∧
      ((d.study s tables f).MustRest id → (o.status = 0 ↔ o'.status = 0) ∧ (o.status = 0 → o.cost = o'.cost)) := by
  obtain ⟨net, db, o, l, b, r, -, k, st⟩ := shipped_prints hsolve ho h hfuel
  obtain ⟨net', db', o', l', b', r', -, k', st'⟩ := shipped_prints hsolve ho' h' hfuel'
  have st := st (k hk)
  have st' := st' (k' hk')
  rw [hr] at st'
  have a := c95_study _ id h.sound h.joins hsend hrest
  refine ⟨o, o', r, r', fun z z' => a.2 _ _ (st'.least z') (st.least z), fun hp z' => ?_, fun hm => ?_⟩
  · refine st.solved.2 ((c94_study _ h.sound l b hp).2 ?_)
    obtain ⟨σ, hσ⟩ := (least_met ⟨_, st'.least z'⟩).1
    obtain ⟨σ', h1, -⟩ := a.1 σ hσ
    exact ⟨σ', h1⟩
  · have e := (c95_absent _ id h.sound h.joins hsend hm).2.2 hrest
    have same : o.status = 0 ↔ o'.status = 0 := by
      rw [st.solved, st'.solved]
      exact exists_congr e
    exact ⟨same, fun z => leastCost_unique (st.least z) ((e _).2 (st'.least (same.1 z)))⟩

end Verif.Props
