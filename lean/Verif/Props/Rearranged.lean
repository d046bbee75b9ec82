import Verif.Lemmas.RearrangedNet
import Verif.Props.SameProblem

/-!
# C78, C79, C80: the order of a system file, the names of components, and studies side by side
-/

namespace Verif.Props
open Verif Verif.Doc Verif.Shipped

/-- the same tables, timesteps and scenarios, with another system file -/
def _root_.Verif.StudyInput.with_ (I : StudyInput) (s : InputSystem) : StudyInput := { I with system := s }

/-! ## The same study, written differently -/

theorem renamed_part {ρ : String → String} {I : StudyInput} {s' : InputSystem} (h : I.system.Renamed ρ s') : StudyInput.Part ρ I (I.with_ s') where
  load := rfl
  steps := rfl
  scenarios := rfl
  distinct := h.distinct
  components _ hc := h.components.mem_left hc
  connections := by
    obtain ⟨m, h1, h2⟩ := h.connections
    exact ⟨m, [], h1, by rw [List.append_nil]; exact h2, fun k hk => by cases hk⟩

theorem renamed_ids {ρ : String → String} {I : StudyInput} {s' : InputSystem} (h : I.system.Renamed ρ s') (hs : I.Sound) :
    ((I.with_ s').declared.map (·.id)).Nodup := by
  obtain ⟨m, h1, h2⟩ := h.components
  have e : m.map (·.id) = (I.declared.map (·.id)).map ρ := by
    change m.map (·.id) = (I.system.declared.map (·.id)).map ρ
    clear h2
    generalize I.system.declared = D at h1
    induction h1 with
    | nil => rfl
    | cons a _ ih => rw [List.map_cons, List.map_cons, List.map_cons, ih, a.id]
  refine (h2.map _).nodup_iff.1 ?_
  rw [e]
  refine List.Nodup.map_on ?_ hs.ids
  intro x hx y hy q
  obtain ⟨c, hc, rfl⟩ := List.mem_map.1 hx
  obtain ⟨c', hc', rfl⟩ := List.mem_map.1 hy
  exact h.distinct c hc c' hc' q

theorem renamed_covered {ρ : String → String} {I : StudyInput} {s' : InputSystem} (h : I.system.Renamed ρ s') (hs : I.Sound)
    {libs : Option (Dict String Library)} (hC : ∀ L, libs = some L → I.Complete L) : (I.with_ s').Covered libs where
  ids := renamed_ids h hs
  some_ := ⟨ρ, I, renamed_part h, hs⟩
  component _ hc := ⟨ρ, I, renamed_part h, hs, hC, h.components.mem_right hc⟩
  connection _ hk := ⟨ρ, I, renamed_part h, hs, hC, h.connections.mem_right hk⟩

theorem renamed_same {ρ : String → String} {I : StudyInput} {s' : InputSystem} (h : I.system.Renamed ρ s') (hs : I.Sound)
    (hj : ∀ k ∈ I.system.connections, I.Joins k) {σ σ' : TermKey → ℚ} (ha : I.Agree ρ σ σ') :
    ((I.with_ s').Accepts σ' ↔ I.Accepts σ) ∧ (I.with_ s').cost σ' = I.cost σ := by
  have hp := renamed_part h
  have hd := renamed_ids h hs
  refine ⟨⟨hp.accepts hs hd hj ha, fun h' c' hc' r hr t s ht hs' => ?_⟩, ?_⟩
  · obtain ⟨c, hc, e⟩ := h.components.mem_right hc'
    rw [e.id, hp.readings hs hd hj ha hc]
    exact h' c hc r (by rw [← e.model]; exact hr) t s ht hs'
  · unfold StudyInput.cost
    obtain ⟨m, h1, h2⟩ := h.components
    refine ((h2.map _).sum_eq.symm).trans ?_
    congr 1
    have hr : ∀ c ∈ I.system.declared, (I.with_ s').readings σ' (ρ c.id) = I.readings σ c.id := fun c hc => hp.readings hs hd hj ha hc
    change _ = I.system.declared.map _
    generalize I.system.declared = D at h1 hr
    clear h2
    induction h1 with
    | nil => rfl
    | cons a _ ih => rw [List.map_cons, List.map_cons, ih fun c hc => hr c (.tail _ hc), a.id, a.model, hr _ (.head _)]

/-- **C78, the study.** Write the system file of a study in another order: components, connections and parameters in any order, `nodes` among
`components` or not, connections from either end, any scenario groups.  Exactly the same values of the variables are accepted, and they have
the same cost. -/
theorem c78_same_study (I : StudyInput) (s' : InputSystem) (h : I.system.Rearranged s') (hs : I.Sound)
    (hj : ∀ k ∈ I.system.connections, I.Joins k) (σ : TermKey → ℚ) :
    ((I.with_ s').Accepts σ ↔ I.Accepts σ) ∧ (I.with_ s').cost σ = I.cost σ :=
  renamed_same h hs hj fun _ _ _ _ _ => rfl

/-- **C79, the study.** Give other names to the components of a study, distinct components having distinct names.  The values of the variables
that are accepted are the same up to the names, and they have the same cost: so there is a best solution of one study exactly when there is one
of the other, for the same cost. -/
theorem c79_same_study (ρ : String → String) (I : StudyInput) (s' : InputSystem) (h : I.system.Renamed ρ s') (hs : I.Sound)
    (hj : ∀ k ∈ I.system.connections, I.Joins k) :
    (∀ σ, ((I.with_ s').Accepts σ ↔ I.Accepts fun k => σ { k with component := ρ k.component }) ∧
      (I.with_ s').cost σ = I.cost fun k => σ { k with component := ρ k.component }) ∧
    ∀ c, LeastCost (I.with_ s').Accepts (I.with_ s').cost c ↔ LeastCost I.Accepts I.cost c := by
  have f1 : ∀ σ, ((I.with_ s').Accepts σ ↔ I.Accepts fun k => σ { k with component := ρ k.component }) ∧
      (I.with_ s').cost σ = I.cost fun k => σ { k with component := ρ k.component } := fun σ => renamed_same h hs hj fun _ _ _ _ _ => rfl
  have f2 : ∀ σ, ∃ σ', ((I.with_ s').Accepts σ' ↔ I.Accepts σ) ∧ (I.with_ s').cost σ' = I.cost σ := by
    intro σ
    classical
    refine ⟨fun k => if hk : ∃ c ∈ I.declared, ρ c.id = k.component then σ { k with component := hk.choose.id } else 0,
      renamed_same h hs hj fun c hc n t s => ?_⟩
    have hex : ∃ c' ∈ I.declared, ρ c'.id = ρ c.id := ⟨c, hc, rfl⟩
    simp only [hex, dif_pos]
    rw [h.distinct _ hex.choose_spec.1 c hc hex.choose_spec.2]
  refine ⟨f1, fun c => ⟨LeastCost.transfer (fun σ hσ => ⟨_, (f1 σ).1.1 hσ, (f1 σ).2.symm⟩) fun σ hσ => ?_,
    LeastCost.transfer (fun σ hσ => ?_) fun σ hσ => ⟨_, (f1 σ).1.1 hσ, (f1 σ).2.symm⟩⟩⟩
  all_goals
    obtain ⟨σ', e1, e2⟩ := f2 σ
    exact ⟨σ', e1.2 hσ, e2⟩

/-! ## The command -/

/-- the networks of a study and of the same study written differently -/
theorem renamed_networks {ρ : String → String} {I I' : StudyInput} (h : I.system.Renamed ρ I'.system) (hp : StudyInput.Part ρ I I') (hs : I.Sound)
    (hs' : I'.Sound) (hj : ∀ k ∈ I.system.connections, I.Joins k) {net net' : Network} {db db' : DataBase} (hl : I.Linked net) (hl' : I'.Linked net')
    (hdb : buildDataBase I.load I.system = .ok db) (hdb' : buildDataBase I'.load I'.system = .ok db') :
    (I.context net db).Renamed ρ (I'.context net' db') where
  frame := hp.sameFrame
  distinct := hp.netDistinct hl
  components := by
    obtain ⟨m, h1, h2⟩ := h.components
    obtain ⟨w, hw, hpm⟩ := List.perm_comp_forall₂ h2 hl'.comps
    rw [components_called h1 hl.comps hw] at hpm
    exact hpm
  connections := by
    obtain ⟨m, h1, h2⟩ := h.connections
    obtain ⟨w, hw, hpm⟩ := List.perm_comp_forall₂ h2 hl'.conns
    refine ⟨w, ?_, hpm⟩
    show List.Forall₂ (SameLink ρ) net.connections w
    have hc := hl.conns
    clear hpm h2
    generalize net.connections = N at hc
    generalize I.system.connections = K at h1 hc hj
    induction h1 generalizing N w with
    | nil => cases hc; cases hw; exact .nil
    | cons e _ ih =>
      cases hc with
      | cons a as =>
        cases hw with
        | cons b bs => exact .cons (hp.sameLink hs hs' hl hl' (hj _ (.head _)) e a b) (ih _ bs _ as fun k hk => hj k (.tail _ hk))
  data := hp.netData hs hs' hl hl' hdb hdb'

theorem readAs_unique {d : Disk} {paths : List String} {ls ls' : List InputLibrary} (h : ReadAs d paths ls) (h' : ReadAs d paths ls') : ls = ls' := by
  unfold ReadAs at h h'
  induction h generalizing ls' with
  | nil => cases h'; rfl
  | cons a _ ih =>
    cases h' with
    | cons b bs =>
      rw [a] at b
      cases b
      rw [ih bs]

theorem names_unique {d : Disk} {f : CliFlags} {paths paths' : List String} {comp comp' : String} {tables tables' : Option String}
    (h : Names d f paths comp tables) (h' : Names d f paths' comp' tables') : paths = paths' ∧ comp = comp' ∧ tables = tables' := by
  have x := (parseCli_iff (a := ⟨paths, comp, tables, f.duration, f.scenario⟩)).2 ⟨h, rfl, rfl⟩
  have y := (parseCli_iff (a := ⟨paths', comp', tables', f.duration, f.scenario⟩)).2 ⟨h', rfl, rfl⟩
  rw [x] at y
  cases y
  exact ⟨rfl, rfl, rfl⟩

/-- the run of a command on a complete study, with its network -/
theorem shipped_run {solve : Solver → Answer} (hsolve : RightSolver solve) {os : Nat → SetOrder} (ho : ∀ i, (os i).Valid) {fuel : Nat}
    {d : Disk} {f : CliFlags} {paths : List String} {comp : String} {tables : Option String} {ls : List InputLibrary} {s : InputSystem}
    (h : ShippedCommand d f paths comp tables ls s) (hfuel : 3 * ls.length + 2 ≤ fuel) :
    ∃ libs sys net db o, (resolveLibrary textParser os fuel ls = some (.ok libs) ∧ resolveSystem s libs = .ok sys ∧ buildNetwork sys = .ok net) ∧
      (d.study s tables f).Linked net ∧ buildDataBase (d.study s tables f).load s = .ok db ∧
      mainOutput solve textParser os fuel d f = some (.ok o) ∧
      o.Says ((d.study s tables f).context net db).KeptFeasible ((d.study s tables f).context net db).keptCost ∧
      (KeptRun textParser os fuel d f → ∀ c ∈ net.allComponents,
        (∀ k ∈ c.model.allConstraints, ∀ t s' : Nat, t < (d.study s tables f).steps.length → s' < f.scenario →
          ((d.study s tables f).context net db).NoTiny c k.expression t s') ∧
          ∀ e ∈ c.model.objectives, ((d.study s tables f).context net db).NoTiny c e 0 0) ∧
      ((∀ c ∈ net.allComponents,
        (∀ k ∈ c.model.allConstraints, ∀ t s' : Nat, t < (d.study s tables f).steps.length → s' < f.scenario →
          ((d.study s tables f).context net db).NoTiny c k.expression t s') ∧
          ∀ e ∈ c.model.objectives, ((d.study s tables f).context net db).NoTiny c e 0 0) →
        o.Says (d.study s tables f).Accepts (d.study s tables f).cost) := by
  obtain ⟨libs, sys, net, db, o, h1, h2, h3, h4, h5, h6⟩ := c76_shipped_partial solve hsolve os ho fuel d f h.names h.read h.distinct h.shipped
    h.system h.sound h.complete hfuel
  obtain ⟨libs', g1, g2, -⟩ := cli_shipped ho h.shipped hfuel
  rw [h1] at g1
  cases g1
  have hlen : (d.study s tables f).steps.length = f.duration := by simp [Disk.study]
  have hl := StudyInput.linked h.sound g2 h2 h3
  refine ⟨libs, sys, net, db, o, ⟨h1, h2, h3⟩, hl, h4, h5, ?_, ?_, ?_⟩
  · obtain ⟨libs', sys', net', db', st, q1, q2, q3, q4, q5, -⟩ := c66_shipped_partial os ho fuel d f h.names h.read h.distinct h.shipped
      h.system h.sound h.complete hfuel
    obtain ⟨paths', comp', tables', ls', libs'', s', sys'', db'', net'', hn, hr, -, w1, w2, w3, w4, w5, w6⟩ :=
      (c66_chain textParser os ho fuel d f st).1 q5
    obtain ⟨rfl, rfl, rfl⟩ := names_unique h.names hn
    obtain rfl := readAs_unique h.read hr
    rw [h1] at w1
    cases w1
    rw [h.system] at w2
    cases w2
    rw [h2] at w3
    cases w3
    rw [h3] at w5
    cases w5
    rw [show buildDataBase _ s = .ok db from h4] at w4
    cases w4
    have hb : ((d.study s tables f).context net db).buildProblem = .ok st := w6
    have ho : o = printAnswer (solve st.solver) := by
      have := (mainOutput_built (solve := solve) q5).1
      rw [h5] at this
      simpa using this
    rw [ho]
    exact (answer_says hsolve hb id (fun σ hσ => ⟨σ, hσ, rfl⟩) fun pt σ hσ => c84_exact_partial _ (hl.expressible h.sound h4) st hb pt σ hσ).1
  · intro hk
    rw [hlen]
    exact hk _ _ _ _ _ _ _ _ _ h.names h.read h1 h.system h2 h3 h4
  · intro hk
    rw [hlen] at hk
    exact h6 hk

/-- the run of a command on a complete study -/
theorem shipped_prints {solve : Solver → Answer} (hsolve : RightSolver solve) {os : Nat → SetOrder} (ho : ∀ i, (os i).Valid) {fuel : Nat}
    {d : Disk} {f : CliFlags} {paths : List String} {comp : String} {tables : Option String} {ls : List InputLibrary} {s : InputSystem}
    (h : ShippedCommand d f paths comp tables ls s) (hfuel : 3 * ls.length + 2 ≤ fuel) :
    ∃ net db o, (d.study s tables f).Linked net ∧ buildDataBase (d.study s tables f).load s = .ok db ∧
      mainOutput solve textParser os fuel d f = some (.ok o) ∧
      o.Says ((d.study s tables f).context net db).KeptFeasible ((d.study s tables f).context net db).keptCost ∧
      (KeptRun textParser os fuel d f → ∀ c ∈ net.allComponents,
        (∀ k ∈ c.model.allConstraints, ∀ t s' : Nat, t < (d.study s tables f).steps.length → s' < f.scenario →
          ((d.study s tables f).context net db).NoTiny c k.expression t s') ∧
          ∀ e ∈ c.model.objectives, ((d.study s tables f).context net db).NoTiny c e 0 0) ∧
      ((∀ c ∈ net.allComponents,
        (∀ k ∈ c.model.allConstraints, ∀ t s' : Nat, t < (d.study s tables f).steps.length → s' < f.scenario →
          ((d.study s tables f).context net db).NoTiny c k.expression t s') ∧
          ∀ e ∈ c.model.objectives, ((d.study s tables f).context net db).NoTiny c e 0 0) →
        o.Says (d.study s tables f).Accepts (d.study s tables f).cost) := by
  obtain ⟨-, -, net, db, o, -, rest⟩ := shipped_run hsolve ho h hfuel
  exact ⟨net, db, o, rest⟩

/-- connections are correct -/
theorem _root_.Verif.ShippedCommand.joins {d : Disk} {f : CliFlags} {paths : List String} {comp : String} {tables : Option String}
    {ls : List InputLibrary} {s : InputSystem} (h : ShippedCommand d f paths comp tables ls s) :
    ∀ k ∈ (d.study s tables f).system.connections, (d.study s tables f).Joins k := by
  obtain ⟨libs, -, -, hl⟩ := cli_shipped (os := fun _ => firstOrder) (fun _ => firstOrder_valid) h.shipped (Nat.le_refl _)
  exact (h.complete libs hl).connections

theorem says_same {α β : Type} {A : α → Prop} {ca : α → ℚ} {B : β → Prop} {cb : β → ℚ} (h : ∀ c, LeastCost A ca c ↔ LeastCost B cb c)
    {o o' : Printed} (h1 : o.Says A ca) (h2 : o'.Says B cb) : (o.status = 0 ↔ o'.status = 0) ∧ (o.status = 0 → o.cost = o'.cost) := by
  have hs : o.status = 0 ↔ o'.status = 0 := by
    rw [h1.solved, h2.solved]
    exact exists_congr h
  refine ⟨hs, fun h0 => ?_⟩
  obtain ⟨⟨x, hx, ex⟩, mx⟩ := (h _).1 (h1.least h0)
  obtain ⟨⟨y, hy, ey⟩, my⟩ := h2.least (hs.1 h0)
  exact le_antisymm (ey ▸ mx y hy) (ex ▸ my x hx)

theorem study_with {d d' : Disk} {f f' : CliFlags} {tables tables' : Option String} {s s' : InputSystem}
    (hload : (d'.study s' tables' f').load = (d.study s tables f).load) (hT : f'.duration = f.duration) (hS : f'.scenario = f.scenario) :
    d'.study s' tables' f' = (d.study s tables f).with_ s' := by
  change StudyInput.mk s' (d'.study s' tables' f').load ((List.range f'.duration).map Int.ofNat) f'.scenario = _
  rw [hload, hT, hS]
  rfl

/-- the other command is also a command on a complete study -/
theorem renamed_command {ρ : String → String} {d d' : Disk} {f f' : CliFlags} {paths paths' : List String} {comp comp' : String}
    {tables tables' : Option String} {ls ls' : List InputLibrary} {s s' : InputSystem} (h : ShippedCommand d f paths comp tables ls s)
    (hr : s.Renamed ρ s') (hn : Names d' f' paths' comp' tables') (hrd : ReadAs d' paths' ls') (hnd : (ls'.map (·.id)).Nodup)
    (hls : ∀ l ∈ ls', l ∈ [antaresInput, andromedeInput, pypsaInput]) (hsub : ∀ l ∈ ls, l ∈ ls') (hs : d'.system comp' = .ok s')
    (hload : (d'.study s' tables' f').load = (d.study s tables f).load) (hT : f'.duration = f.duration) (hS : f'.scenario = f.scenario) :
    ShippedCommand d' f' paths' comp' tables' ls' s' := by
  have e := study_with (s := s) (s' := s') hload hT hS
  refine ⟨hn, hrd, hnd, hls, hs, ?_, ?_⟩
  · rw [e]
    exact (renamed_covered (libs := none) (I := d.study s tables f) hr h.sound fun _ q => by cases q).sound
  · intro libs hlibs
    rw [e]
    refine (renamed_covered (I := d.study s tables f) hr h.sound fun L q => ?_).complete
    cases q
    exact h.complete libs fun l hl => hlibs l (hsub l hl)

/-- **C79, the command.** Take a command on shipped libraries and on a complete study, and another command on the same tables and on the system
file where components have other names (and come in any order).  Both end without an error.  One prints status 0 exactly when the other does,
and then they print the same cost; also when there are tiny coefficients, which are dropped in both. -/
theorem c79_command (solve : Solver → Answer) (hsolve : RightSolver solve) (os os' : Nat → SetOrder) (ho : ∀ i, (os i).Valid)
    (ho' : ∀ i, (os' i).Valid) (fuel fuel' : Nat) (ρ : String → String) (d d' : Disk) (f f' : CliFlags) {paths paths' : List String}
    {comp comp' : String} {tables tables' : Option String} {ls ls' : List InputLibrary} {s s' : InputSystem}
    (h : ShippedCommand d f paths comp tables ls s) (hr : s.Renamed ρ s') (hn : Names d' f' paths' comp' tables') (hrd : ReadAs d' paths' ls')
    (hnd : (ls'.map (·.id)).Nodup) (hls : ∀ l ∈ ls', l ∈ [antaresInput, andromedeInput, pypsaInput]) (hsub : ∀ l ∈ ls, l ∈ ls')
    (hs : d'.system comp' = .ok s') (hload : (d'.study s' tables' f').load = (d.study s tables f).load) (hT : f'.duration = f.duration)
    (hS : f'.scenario = f.scenario) (hfuel : 3 * ls.length + 2 ≤ fuel) (hfuel' : 3 * ls'.length + 2 ≤ fuel') :
    ∃ o o', mainOutput solve textParser os fuel d f = some (.ok o) ∧ mainOutput solve textParser os' fuel' d' f' = some (.ok o') ∧
      (o.status = 0 ↔ o'.status = 0) ∧ (o.status = 0 → o.cost = o'.cost) := by
  have h' := renamed_command h hr hn hrd hnd hls hsub hs hload hT hS
  obtain ⟨net, db, o, l1, b1, h1, s1, -⟩ := shipped_prints hsolve ho h hfuel
  obtain ⟨net', db', o', l2, b2, h2, s2, -⟩ := shipped_prints hsolve ho' h' hfuel'
  have e := study_with (s := s) (s' := s') hload hT hS
  have hp : StudyInput.Part ρ (d.study s tables f) (d'.study s' tables' f') := by
    rw [e]
    exact renamed_part (I := d.study s tables f) hr
  have hren := renamed_networks hr hp h.sound h'.sound h.joins l1 l2 b1 b2
  refine ⟨o, o', h1, h2, says_same (fun c => ?_) s1 s2⟩
  exact (renamed_leastCost hren (fun _ _ ha => renamed_net_kept hren (l1.networkOk db h.sound) (l2.networkOk db' h'.sound) (l1.closed h.sound)
    l1.ownSymbols ha) c).symm

/-- **C78, the command.** The order in which a system file is written does not change what the command prints: take a command on shipped
libraries and on a complete study, and another command on the same tables, the same libraries and perhaps more, in any order, and on the same
system file written in another order.  Both end without an error.  One prints status 0 exactly when the other does, and then they print the
same cost. -/
theorem c78_command (solve : Solver → Answer) (hsolve : RightSolver solve) (os os' : Nat → SetOrder) (ho : ∀ i, (os i).Valid)
    (ho' : ∀ i, (os' i).Valid) (fuel fuel' : Nat) (d d' : Disk) (f f' : CliFlags) {paths paths' : List String}
    {comp comp' : String} {tables tables' : Option String} {ls ls' : List InputLibrary} {s s' : InputSystem}
    (h : ShippedCommand d f paths comp tables ls s) (hr : s.Rearranged s') (hn : Names d' f' paths' comp' tables') (hrd : ReadAs d' paths' ls')
    (hnd : (ls'.map (·.id)).Nodup) (hls : ∀ l ∈ ls', l ∈ [antaresInput, andromedeInput, pypsaInput]) (hsub : ∀ l ∈ ls, l ∈ ls')
    (hs : d'.system comp' = .ok s') (hload : (d'.study s' tables' f').load = (d.study s tables f).load) (hT : f'.duration = f.duration)
    (hS : f'.scenario = f.scenario) (hfuel : 3 * ls.length + 2 ≤ fuel) (hfuel' : 3 * ls'.length + 2 ≤ fuel') :
    ∃ o o', mainOutput solve textParser os fuel d f = some (.ok o) ∧ mainOutput solve textParser os' fuel' d' f' = some (.ok o') ∧
      (o.status = 0 ↔ o'.status = 0) ∧ (o.status = 0 → o.cost = o'.cost) :=
  c79_command solve hsolve os os' ho ho' fuel fuel' _ d d' f f' h hr hn hrd hnd hls hsub hs hload hT hS hfuel hfuel'

/-! ## Two studies side by side -/

theorem side_part1 {I : StudyInput} {s1 s2 : InputSystem} (h : s1.SideBySide s2 I.system)
    (hj : ∀ k ∈ s2.connections, (I.with_ s2).Joins k) : StudyInput.Part (fun n => n) (I.with_ s1) I where
  load := rfl
  steps := rfl
  scenarios := rfl
  distinct _ _ _ _ e := e
  components c hc := ⟨c, h.components.mem_iff.1 (List.mem_append_left _ hc), rfl, rfl, .refl _⟩
  connections := by
    refine ⟨s1.connections, s2.connections, List.forall₂_same.2 fun k _ => .same, h.connections, fun k hk c hc => ?_⟩
    obtain ⟨⟨c1, hc1, e1⟩, ⟨c2, hc2, e2⟩⟩ := (hj k hk).ends
    exact ⟨fun e => h.distinct c hc c1 hc1 (e1.trans e).symm, fun e => h.distinct c hc c2 hc2 (e2.trans e).symm⟩

theorem _root_.Verif.InputSystem.SideBySide.symm {s1 s2 s : InputSystem} (h : s1.SideBySide s2 s) : s2.SideBySide s1 s where
  distinct c hc c' hc' e := h.distinct c' hc' c hc e.symm
  components := List.perm_append_comm.trans h.components
  connections := List.perm_append_comm.trans h.connections

theorem side_ids {I : StudyInput} {s1 s2 : InputSystem} (h : s1.SideBySide s2 I.system) (h1 : (I.with_ s1).Sound) (h2 : (I.with_ s2).Sound) :
    (I.declared.map (·.id)).Nodup := by
  refine (h.components.map _).nodup_iff.1 ?_
  rw [List.map_append]
  refine List.Nodup.append h1.ids h2.ids ?_
  intro x hx hy
  obtain ⟨c, hc, rfl⟩ := List.mem_map.1 hx
  obtain ⟨c', hc', e⟩ := List.mem_map.1 hy
  exact h.distinct c hc c' hc' e.symm

theorem side_covered {I : StudyInput} {s1 s2 : InputSystem} (h : s1.SideBySide s2 I.system) (h1 : (I.with_ s1).Sound) (h2 : (I.with_ s2).Sound)
    (j1 : ∀ k ∈ s1.connections, (I.with_ s1).Joins k) (j2 : ∀ k ∈ s2.connections, (I.with_ s2).Joins k)
    {libs : Option (Dict String Library)} (c1 : ∀ L, libs = some L → (I.with_ s1).Complete L)
    (c2 : ∀ L, libs = some L → (I.with_ s2).Complete L) : I.Covered libs where
  ids := side_ids h h1 h2
  some_ := ⟨_, _, side_part1 h j2, h1⟩
  component c hc := by
    rcases List.mem_append.1 (h.components.mem_iff.2 hc) with hc | hc
    · exact ⟨_, _, side_part1 h j2, h1, c1, c, hc, rfl, rfl, .refl _⟩
    · exact ⟨_, _, side_part1 h.symm j1, h2, c2, c, hc, rfl, rfl, .refl _⟩
  connection k hk := by
    rcases List.mem_append.1 (h.connections.mem_iff.2 hk) with hk | hk
    · exact ⟨_, _, side_part1 h j2, h1, c1, k, hk, .same⟩
    · exact ⟨_, _, side_part1 h.symm j1, h2, c2, k, hk, .same⟩

theorem side_same {I : StudyInput} {s1 s2 : InputSystem} (h : s1.SideBySide s2 I.system) (h1 : (I.with_ s1).Sound) (h2 : (I.with_ s2).Sound)
    (j1 : ∀ k ∈ s1.connections, (I.with_ s1).Joins k) (j2 : ∀ k ∈ s2.connections, (I.with_ s2).Joins k) {σ σ1 σ2 : TermKey → ℚ}
    (a1 : ∀ c ∈ s1.declared, ∀ n t s, σ ⟨c.id, n, t, s⟩ = σ1 ⟨c.id, n, t, s⟩)
    (a2 : ∀ c ∈ s2.declared, ∀ n t s, σ ⟨c.id, n, t, s⟩ = σ2 ⟨c.id, n, t, s⟩) :
    (I.Accepts σ ↔ (I.with_ s1).Accepts σ1 ∧ (I.with_ s2).Accepts σ2) ∧ I.cost σ = (I.with_ s1).cost σ1 + (I.with_ s2).cost σ2 := by
  have p1 := side_part1 h j2
  have p2 := side_part1 h.symm j1
  have hd := side_ids h h1 h2
  have r1 : ∀ c ∈ s1.declared, I.readings σ c.id = (I.with_ s1).readings σ1 c.id := fun c hc => p1.readings h1 hd j1 a1 hc
  have r2 : ∀ c ∈ s2.declared, I.readings σ c.id = (I.with_ s2).readings σ2 c.id := fun c hc => p2.readings h2 hd j2 a2 hc
  refine ⟨⟨fun hA => ⟨p1.accepts h1 hd j1 a1 hA, p2.accepts h2 hd j2 a2 hA⟩, ?_⟩, ?_⟩
  · rintro ⟨A1, A2⟩ c hc r hr t s ht hs
    rcases List.mem_append.1 (h.components.mem_iff.2 hc) with hc | hc
    · rw [r1 c hc]; exact A1 c hc r hr t s ht hs
    · rw [r2 c hc]; exact A2 c hc r hr t s ht hs
  · unfold StudyInput.cost
    refine ((h.components.map _).sum_eq.symm).trans ?_
    rw [List.map_append, List.sum_append]
    congr 2
    · exact List.map_congr_left fun c hc => by rw [r1 c hc]
    · exact List.map_congr_left fun c hc => by rw [r2 c hc]

/-- **C80, the study.** Put two studies side by side.  Values of the variables are accepted exactly when both studies accept them, and their
cost is the sum of the two costs: the whole has a best solution exactly when both studies have one, and the least cost of the whole is the
sum of the least costs. -/
theorem c80_same_study (I : StudyInput) (s1 s2 : InputSystem) (h : s1.SideBySide s2 I.system) (h1 : (I.with_ s1).Sound)
    (h2 : (I.with_ s2).Sound) (j1 : ∀ k ∈ s1.connections, (I.with_ s1).Joins k) (j2 : ∀ k ∈ s2.connections, (I.with_ s2).Joins k) :
    (∀ σ, (I.Accepts σ ↔ (I.with_ s1).Accepts σ ∧ (I.with_ s2).Accepts σ) ∧ I.cost σ = (I.with_ s1).cost σ + (I.with_ s2).cost σ) ∧
    ∀ c, LeastCost I.Accepts I.cost c ↔ ∃ c1 c2, LeastCost (I.with_ s1).Accepts (I.with_ s1).cost c1 ∧
      LeastCost (I.with_ s2).Accepts (I.with_ s2).cost c2 ∧ c = c1 + c2 := by
  have f1 := fun σ => side_same (σ := σ) h h1 h2 j1 j2 (fun _ _ _ _ _ => rfl) fun _ _ _ _ _ => rfl
  have f2 : ∀ σ1 σ2, ∃ σ, (I.Accepts σ ↔ (I.with_ s1).Accepts σ1 ∧ (I.with_ s2).Accepts σ2) ∧
      I.cost σ = (I.with_ s1).cost σ1 + (I.with_ s2).cost σ2 := by
    intro σ1 σ2
    classical
    refine ⟨fun k => if ∃ c ∈ s1.declared, c.id = k.component then σ1 k else σ2 k, side_same h h1 h2 j1 j2 ?_ ?_⟩
    · intro c hc n t s
      exact if_pos ⟨c, hc, rfl⟩
    · intro c hc n t s
      refine if_neg ?_
      rintro ⟨c', hc', e⟩
      exact h.distinct c' hc' c hc e
  refine ⟨f1, fun c => ⟨?_, ?_⟩⟩
  · rintro ⟨⟨σ, hσ, rfl⟩, hm⟩
    obtain ⟨A1, A2⟩ := (f1 σ).1.1 hσ
    refine ⟨_, _, ⟨⟨σ, A1, rfl⟩, fun τ hτ => ?_⟩, ⟨⟨σ, A2, rfl⟩, fun τ hτ => ?_⟩, (f1 σ).2⟩
    · obtain ⟨ω, e1, e2⟩ := f2 τ σ
      have := hm ω (e1.2 ⟨hτ, A2⟩)
      rw [e2, (f1 σ).2] at this
      linarith
    · obtain ⟨ω, e1, e2⟩ := f2 σ τ
      have := hm ω (e1.2 ⟨A1, hτ⟩)
      rw [e2, (f1 σ).2] at this
      linarith
  · rintro ⟨c1, c2, ⟨⟨σ1, A1, rfl⟩, m1⟩, ⟨⟨σ2, A2, rfl⟩, m2⟩, rfl⟩
    obtain ⟨ω, e1, e2⟩ := f2 σ1 σ2
    refine ⟨⟨ω, e1.2 ⟨A1, A2⟩, e2⟩, fun τ hτ => ?_⟩
    obtain ⟨B1, B2⟩ := (f1 τ).1.1 hτ
    rw [(f1 τ).2]
    exact add_le_add (m1 τ B1) (m2 τ B2)

/-- the networks of two studies and of both side by side -/
theorem side_networks {I1 I2 I : StudyInput} (h : I1.system.SideBySide I2.system I.system) (p1 : StudyInput.Part (fun n => n) I1 I)
    (p2 : StudyInput.Part (fun n => n) I2 I) (hs1 : I1.Sound) (hs2 : I2.Sound) (hs : I.Sound) (j1 : ∀ k ∈ I1.system.connections, I1.Joins k)
    (j2 : ∀ k ∈ I2.system.connections, I2.Joins k) {net1 net2 net : Network} {db1 db2 db : DataBase} (l1 : I1.Linked net1) (l2 : I2.Linked net2)
    (l : I.Linked net) (b1 : buildDataBase I1.load I1.system = .ok db1) (b2 : buildDataBase I2.load I2.system = .ok db2)
    (b : buildDataBase I.load I.system = .ok db) : (I1.context net1 db1).SideBySide (I2.context net2 db2) (I.context net db) where
  frame1 := p1.sameFrame
  frame2 := p2.sameFrame
  distinct c hc c' hc' e := by
    obtain ⟨ic, hic, hi, -⟩ := l1.rules hc
    obtain ⟨ic', hic', hi', -⟩ := l2.rules hc'
    rw [hi, hi'] at e
    exact h.distinct ic hic ic' hic' e
  components := by
    obtain ⟨w, hw, hpm⟩ := List.perm_comp_forall₂ h.components l.comps
    have e := components_called (ρ := fun n => n) (List.forall₂_same.2 fun c _ => ⟨rfl, rfl, .refl _⟩)
      (List.rel_append l1.comps l2.comps) hw
    rw [e] at hpm
    have e' : ∀ N : List Component, N.map (Component.called fun n => n) = N := fun N => List.map_id N
    rw [e'] at hpm
    exact hpm
  connections := by
    obtain ⟨w, hw, hpm⟩ := List.perm_comp_forall₂ h.connections l.conns
    have same : ∀ {J : StudyInput} {N : Network} (_ : StudyInput.Part (fun n => n) J I) (_ : J.Sound) (_ : J.Linked N) {k q q'} (_ : J.Joins k)
        (_ : N.getComponent k.component1 = .ok q.port1.component ∧ q.port1.portId = k.port1 ∧
          N.getComponent k.component2 = .ok q.port2.component ∧ q.port2.portId = k.port2 ∧ PortsConnection.make q.port1 q.port2 = .ok q)
        (_ : net.getComponent k.component1 = .ok q'.port1.component ∧ q'.port1.portId = k.port1 ∧
          net.getComponent k.component2 = .ok q'.port2.component ∧ q'.port2.portId = k.port2 ∧ PortsConnection.make q'.port1 q'.port2 = .ok q'),
        q' = q := by
      intro J N hp hJ hl k q q' hj hq hq'
      obtain ⟨a1, a2, a3, a4, a5⟩ := hq
      obtain ⟨c1, c2, c3, c4, c5⟩ := hq'
      obtain ⟨⟨i1, hi1, e1⟩, ⟨i2, hi2, e2⟩⟩ := hj.ends
      have t1 := (hp.twin hJ hs hl l hi1 (by rw [e1]; exact a1) (by rw [e1]; exact c1)).called
      have t2 := (hp.twin hJ hs hl l hi2 (by rw [e2]; exact a3) (by rw [e2]; exact c3)).called
      have port : ∀ {r r' : PortRef}, r'.component = r.component.called (fun n => n) → r'.portId = r.portId → r' = r := by
        rintro ⟨c, p⟩ ⟨c', p'⟩ ht hp
        dsimp only at ht hp
        rw [ht, hp]
        rfl
      rw [port t1 (c2.trans a2.symm), port t2 (c4.trans a4.symm), a5] at c5
      cases c5
      rfl
    have key : ∀ {J : StudyInput} {N : Network} (_ : StudyInput.Part (fun n => n) J I) (_ : J.Sound) (_ : J.Linked N) {K M w}
        (_ : ∀ k ∈ K, J.Joins k) (_ : List.Forall₂ (fun (ic : InputConnection) (c : PortsConnection) =>
          N.getComponent ic.component1 = .ok c.port1.component ∧ c.port1.portId = ic.port1 ∧
          N.getComponent ic.component2 = .ok c.port2.component ∧ c.port2.portId = ic.port2 ∧
          PortsConnection.make c.port1 c.port2 = .ok c) K M)
        (_ : List.Forall₂ (fun (ic : InputConnection) (c : PortsConnection) =>
          net.getComponent ic.component1 = .ok c.port1.component ∧ c.port1.portId = ic.port1 ∧
          net.getComponent ic.component2 = .ok c.port2.component ∧ c.port2.portId = ic.port2 ∧
          PortsConnection.make c.port1 c.port2 = .ok c) K w), w = M := by
      intro J N hp hJ hl K M w hj h1
      induction h1 generalizing w with
      | nil => intro h2; cases h2; rfl
      | cons a _ ih =>
        intro h2
        cases h2 with
        | cons c cs => rw [same hp hJ hl (hj _ (.head _)) a c, ih (fun k hk => hj k (.tail _ hk)) cs]
    obtain ⟨w1, w2, x1, x2, rfl⟩ := forall₂_append_left hw
    rw [key p1 hs1 l1 j1 l1.conns x1, key p2 hs2 l2 j2 l2.conns x2] at hpm
    exact hpm
  data1 := p1.netData hs1 hs l1 l b1 b
  data2 := p2.netData hs2 hs l2 l b2 b

/-- **C80, the command.** Take two commands on shipped libraries and complete studies with the same timesteps, scenarios and tables, without
components in common, and a third command on the system file with all components and connections of both.  It ends without an error.  It
prints status 0 exactly when both commands do, and then the cost that it prints is the sum of the costs that they print; also when there are
tiny coefficients, which are dropped in all three. -/
theorem c80_command (solve : Solver → Answer) (hsolve : RightSolver solve) (os1 os2 os : Nat → SetOrder) (ho1 : ∀ i, (os1 i).Valid)
    (ho2 : ∀ i, (os2 i).Valid) (ho : ∀ i, (os i).Valid) (fuel1 fuel2 fuel : Nat) (d1 d2 d : Disk) (f1 f2 f : CliFlags)
    {paths1 paths2 paths : List String} {comp1 comp2 comp : String} {tables1 tables2 tables : Option String}
    {ls1 ls2 ls : List InputLibrary} {s1 s2 s : InputSystem}
    (h1 : ShippedCommand d1 f1 paths1 comp1 tables1 ls1 s1) (h2 : ShippedCommand d2 f2 paths2 comp2 tables2 ls2 s2)
    (hside : s1.SideBySide s2 s) (hn : Names d f paths comp tables) (hrd : ReadAs d paths ls) (hnd : (ls.map (·.id)).Nodup)
    (hls : ∀ l ∈ ls, l ∈ [antaresInput, andromedeInput, pypsaInput]) (hsub : ∀ l ∈ ls1 ++ ls2, l ∈ ls) (hs : d.system comp = .ok s)
    (hload1 : (d1.study s1 tables1 f1).load = (d.study s tables f).load) (hload2 : (d2.study s2 tables2 f2).load = (d.study s tables f).load)
    (hT1 : f1.duration = f.duration) (hT2 : f2.duration = f.duration) (hS1 : f1.scenario = f.scenario) (hS2 : f2.scenario = f.scenario)
    (hfuel1 : 3 * ls1.length + 2 ≤ fuel1) (hfuel2 : 3 * ls2.length + 2 ≤ fuel2) (hfuel : 3 * ls.length + 2 ≤ fuel) :
    ∃ o1 o2 o, mainOutput solve textParser os1 fuel1 d1 f1 = some (.ok o1) ∧ mainOutput solve textParser os2 fuel2 d2 f2 = some (.ok o2) ∧
      mainOutput solve textParser os fuel d f = some (.ok o) ∧
      (o.status = 0 ↔ o1.status = 0 ∧ o2.status = 0) ∧ (o.status = 0 → o.cost = o1.cost + o2.cost) := by
  have e1 := study_with (s := s) (s' := s1) hload1 hT1 hS1
  have e2 := study_with (s := s) (s' := s2) hload2 hT2 hS2
  have so1 := h1.sound
  have so2 := h2.sound
  have jo1 := h1.joins
  have jo2 := h2.joins
  rw [e1] at so1 jo1
  rw [e2] at so2 jo2
  have hcmd : ShippedCommand d f paths comp tables ls s := by
    refine ⟨hn, hrd, hnd, hls, hs, (side_covered (libs := none) (I := d.study s tables f) hside so1 so2 jo1 jo2
      (fun _ q => by cases q) (fun _ q => by cases q)).sound, fun libs hl => ?_⟩
    refine (side_covered (I := d.study s tables f) hside so1 so2 jo1 jo2 (fun L q => ?_) (fun L q => ?_)).complete
    · cases q
      rw [← e1]
      exact h1.complete libs fun l hm => hl l (hsub l (List.mem_append_left _ hm))
    · cases q
      rw [← e2]
      exact h2.complete libs fun l hm => hl l (hsub l (List.mem_append_right _ hm))
  obtain ⟨net1, db1, o1, l1, b1, g1, sy1, -⟩ := shipped_prints hsolve ho1 h1 hfuel1
  obtain ⟨net2, db2, o2, l2, b2, g2, sy2, -⟩ := shipped_prints hsolve ho2 h2 hfuel2
  obtain ⟨net, db, o, l, b, g, sy, -⟩ := shipped_prints hsolve ho hcmd hfuel
  have p1 : StudyInput.Part (fun n => n) (d1.study s1 tables1 f1) (d.study s tables f) := by
    rw [e1]
    exact side_part1 (I := d.study s tables f) hside jo2
  have p2 : StudyInput.Part (fun n => n) (d2.study s2 tables2 f2) (d.study s tables f) := by
    rw [e2]
    exact side_part1 (I := d.study s tables f) hside.symm jo1
  have hsd := side_networks hside p1 p2 h1.sound h2.sound hcmd.sound h1.joins h2.joins l1 l2 l b1 b2 b
  have hlc := side_leastCost hsd (fun _ _ _ a1 a2 => side_net_kept hsd (l1.networkOk db1 h1.sound) (l2.networkOk db2 h2.sound)
    (l.networkOk db hcmd.sound) (l1.closed h1.sound) (l2.closed h2.sound) l1.ownSymbols l2.ownSymbols a1 a2)
  have hst : o.status = 0 ↔ o1.status = 0 ∧ o2.status = 0 := by
    rw [sy.solved, sy1.solved, sy2.solved]
    constructor
    · rintro ⟨c, hc⟩
      obtain ⟨c1, c2, q1, q2, -⟩ := (hlc c).1 hc
      exact ⟨⟨c1, q1⟩, ⟨c2, q2⟩⟩
    · rintro ⟨⟨c1, q1⟩, ⟨c2, q2⟩⟩
      exact ⟨_, (hlc _).2 ⟨c1, c2, q1, q2, rfl⟩⟩
  refine ⟨o1, o2, o, g1, g2, g, hst, fun h0 => ?_⟩
  obtain ⟨q1, q2⟩ := hst.1 h0
  exact leastCost_unique (sy.least h0) ((hlc _).2 ⟨_, _, sy1.least q1, sy2.least q2, rfl⟩)

end Verif.Props
