import Verif.Lemmas.ShippedStudy

/-! # Studies made of shipped models: the reading of the built network and data is the meaning of the file -/

namespace Verif
open Verif.Expr Verif.OptCtx Verif.Shipped Verif.Props

/-! ## Readings that agree on scenarios that are not negative -/

theorem mden_congr_nonneg {M M' : MCtx} (hc : M.comp = M'.comp) (hv : M.D.env.var = M'.D.env.var) (hvi : M.D.vidx = M'.D.vidx)
    (hT : M.D.T = M'.D.T) (hS : M.D.S = M'.D.S)
    (hp : ∀ n t s, 0 ≤ s → mden M (.par n) t s = mden M' (.par n) t s)
    (hports : ∀ p f t s, 0 ≤ s → (M.ports p f).map (fun v => v t s) = (M'.ports p f).map fun v => v t s)
    (e : Expr) : (∀ y ∈ e.subs, y.hasComponent = false) → ∀ t s, 0 ≤ s → mden M e t s = mden M' e t s := by
  induction e using Expr.ind with
  | lit v => intro _ t s _; cases v <;> simp [mden]
  | var n => intro _ t s _; simp [mden, hc, hv, hvi]
  | par n => intro _ t s hs; exact hp n t s hs
  | portField p f =>
    intro _ t s hs
    have := hports p f t s hs
    simp only [mden]
    generalize M.ports p f = l at this
    generalize M'.ports p f = l' at this
    rcases l with _ | ⟨a, _ | ⟨b, l⟩⟩ <;> rcases l' with _ | ⟨a', _ | ⟨b', l'⟩⟩ <;> simp_all
  | agg e a _ =>
    intro _ t s hs
    cases e with
    | portField p f => simp only [mden, hports p f t s hs]
    | _ => simp [mden]
  | cmp l r c _ _ => intro _ t s _; simp [mden]
  | cvar c n => intro h; exact absurd (h _ (mem_subs_self _)) (by simp [hasComponent])
  | cpar c n => intro h; exact absurd (h _ (mem_subs_self _)) (by simp [hasComponent])
  | pvar c n ti si => intro h; exact absurd (h _ (mem_subs_self _)) (by simp [hasComponent])
  | ppar c n ti si => intro h; exact absurd (h _ (mem_subs_self _)) (by simp [hasComponent])
  | add es ih =>
    intro h t s hs
    rw [mden_add, mden_add]
    congr 1
    exact List.map_congr_left fun x hx => ih x hx (fun y hy => h y (mem_subs_add.2 (.inr ⟨x, hx, hy⟩))) t s hs
  | neg e ih => intro h t s hs; simp only [mden, ih (fun y hy => h y (by simp [subs, hy])) _ _ hs]
  | mul l r ihl ihr =>
    intro h t s hs
    simp only [mden, ihl (fun y hy => h y (by simp [subs, hy])) _ _ hs, ihr (fun y hy => h y (by simp [subs, hy])) _ _ hs]
  | div l r ihl ihr =>
    intro h t s hs
    simp only [mden, ihl (fun y hy => h y (by simp [subs, hy])) _ _ hs, ihr (fun y hy => h y (by simp [subs, hy])) _ _ hs]
  | shift e k ih ihk =>
    intro h t s hs
    simp only [mden, ih (fun y hy => h y (by simp [subs, hy])) _ _ hs, ihk (fun y hy => h y (by simp [subs, hy])) _ _ le_rfl]
  | evalT e k ih ihk =>
    intro h t s hs
    simp only [mden, ih (fun y hy => h y (by simp [subs, hy])) _ _ hs, ihk (fun y hy => h y (by simp [subs, hy])) _ _ le_rfl]
  | tsum e a b ih iha ihb =>
    intro h t s hs
    simp only [mden, ih (fun y hy => h y (by simp [subs, hy])) _ _ hs, iha (fun y hy => h y (by simp [subs, hy])) _ _ le_rfl,
      ihb (fun y hy => h y (by simp [subs, hy])) _ _ le_rfl]
  | allsum e ih => intro h t s hs; simp only [mden, hT, ih (fun y hy => h y (by simp [subs, hy])) _ _ hs]
  | scen e o ih =>
    intro h t s hs
    simp only [mden, hS]
    congr 1
    exact Finset.sum_congr rfl fun w _ => ih (fun y hy => h y (by simp [subs, hy])) _ _ (by positivity)

/-! ## The network -/

/-- the network is that of the study -/
structure StudyInput.Linked (I : StudyInput) (net : Network) : Prop where
  comps : List.Forall₂ (fun (ic : InputComponent) (c : Component) => c.id = ic.id ∧ ∃ r, (ic.model, c.model, r) ∈ shippedModels)
    I.declared net.allComponents
  keyed : ∀ k c, (k, c) ∈ net.nodes ∨ (k, c) ∈ net.components → c.id = k
  conns : List.Forall₂ (fun (ic : InputConnection) (c : PortsConnection) =>
    net.getComponent ic.component1 = .ok c.port1.component ∧ c.port1.portId = ic.port1 ∧
    net.getComponent ic.component2 = .ok c.port2.component ∧ c.port2.portId = ic.port2 ∧
    PortsConnection.make c.port1 c.port2 = .ok c) I.system.connections net.connections

theorem StudyInput.linked {I : StudyInput} (hs : I.Sound) {libs : Dict String Library} (hl : ShippedLibraries libs) {sys : System}
    (h1 : resolveSystem I.system libs = .ok sys) {net : Network} (h2 : buildNetwork sys = .ok net) : I.Linked net := by
  have hd : ((I.system.components ++ I.system.nodes).map (·.id)).Nodup := by
    have := hs.ids
    unfold StudyInput.declared at this
    rw [List.map_append] at this ⊢
    exact List.nodup_append_comm.1 this
  obtain ⟨n, hn, hc, hno, kc, kn, hx⟩ := c46_network_partial libs I.system sys hd h1
  rw [hn] at h2
  cases h2
  have imp : ∀ {l : List InputComponent} {m : List Component}, List.Forall₂ (Declared libs) l m →
      List.Forall₂ (fun (ic : InputComponent) (c : Component) => c.id = ic.id ∧ ∃ r, (ic.model, c.model, r) ∈ shippedModels) l m :=
    fun h => h.imp fun a b hab => ⟨hab.1, shipped_designates hl hab.2⟩
  have ids : ∀ {l : List InputComponent} {d : Dict String Component}, List.Forall₂ (Declared libs) l d.values →
      d.keys = l.map (·.id) → ∀ k c, (k, c) ∈ d → c.id = k := by
    intro l d h1 h2
    induction d generalizing l with
    | nil => intro k c h; cases h
    | cons a d ih =>
      cases l with
      | nil => cases h2
      | cons b l =>
        simp only [Dict.values, Dict.keys, List.map_cons, List.cons.injEq] at h1 h2
        cases h1 with
        | cons hab hrest =>
          intro k c h
          rcases List.mem_cons.1 h with h | h
          · subst h
            rw [hab.1, ← h2.1]
          · exact ih hrest h2.2 k c h
  refine ⟨?_, ?_, hx⟩
  · unfold StudyInput.declared Network.allComponents
    exact List.rel_append (imp hno) (imp hc)
  · rintro k c (h | h)
    · exact ids hno kn k c h
    · exact ids hc kc k c h

/-- the context of the optimization -/
def StudyInput.context (I : StudyInput) (net : Network) (db : DataBase) : OptCtx where
  network := net
  database := db
  timesteps := I.steps
  scenarios := I.scenarios

theorem getComponent_mem {net : Network} {id : String} {c : Component} (h : net.getComponent id = .ok c) :
    c ∈ net.allComponents ∧ ((id, c) ∈ net.nodes ∨ (id, c) ∈ net.components) := by
  unfold Network.getComponent at h
  unfold Network.allComponents
  split at h
  · rename_i c' hc
    cases h
    have := Dict.mem_of_get? hc
    exact ⟨List.mem_append.2 (.inr (List.mem_map.2 ⟨_, this, rfl⟩)), .inr this⟩
  · have := Dict.mem_of_get? ((get_ok_iff' _ _ _).1 h)
    exact ⟨List.mem_append.2 (.inl (List.mem_map.2 ⟨_, this, rfl⟩)), .inl this⟩

namespace StudyInput.Linked

variable {I : StudyInput} {net : Network} {db : DataBase}

theorem rules (h : I.Linked net) {c : Component} (hc : c ∈ net.allComponents) :
    ∃ ic ∈ I.declared, c.id = ic.id ∧ ∃ r, (ic.model, c.model, r) ∈ shippedModels := by
  obtain ⟨ic, hi, hr⟩ := forall₂_mem_right h.comps hc
  exact ⟨ic, hi, hr⟩

theorem checked (h : I.Linked net) {c : Component} (hc : c ∈ net.allComponents) : c.model.Checked := by
  obtain ⟨ic, -, -, r, hr⟩ := h.rules hc
  exact (shippedModels_ok _ hr).2.2

end StudyInput.Linked

namespace Model.Checked
variable {m : Model} (h : m.Checked)
include h

theorem portsKeyed : m.PortsKeyed := by
  intro k p hp
  have := List.all_eq_true.1 h.ports _ (Dict.mem_of_get? hp)
  simpa using this

theorem fieldDef_ok {port f : String} {d : PortFieldDefinition} (hd : m.portFieldsDefinitions.get? ⟨port, f⟩ = some d) :
    (∀ y ∈ d.definition.subs, defNodeOk y = true) ∧ ∃ p, m.ports.get? port = some p ∧ f ∈ p.portType.fields := by
  have := List.all_eq_true.1 h.definitions _ (Dict.mem_of_get? hd)
  simp only [Bool.and_eq_true, List.all_eq_true] at this
  refine ⟨this.1, ?_⟩
  have h2 := this.2
  split at h2
  · rename_i p hp
    exact ⟨p, hp, by simpa using h2⟩
  · cases h2

end Model.Checked

theorem StudyInput.Linked.networkOk {I : StudyInput} {net : Network} (db : DataBase) (hs : I.Sound) (h : I.Linked net) :
    (I.context net db).NetworkOk := by
  refine ⟨?_, h.keyed, ?_, ?_, ?_, ?_⟩
  · have : net.allComponents.map (·.id) = I.declared.map (·.id) := by
      have := h.comps
      generalize I.declared = l at this
      generalize net.allComponents = m at this
      induction this with
      | nil => rfl
      | cons h1 _ ih => simp [h1.1, ih]
    show (net.allComponents.map (·.id)).Nodup
    rw [this]
    exact hs.ids
  · intro c hc n v hv
    have := List.all_eq_true.1 (h.checked hc).vars _ hv
    simp only [Bool.and_eq_true, decide_eq_true_eq] at this
    exact this.1.1.1
  · intro c hc
    exact (h.checked hc).varsNodup
  · intro c hc
    obtain ⟨ic, -, h1, -, h2, -, hm⟩ := forall₂_mem_right h.conns hc
    exact ⟨hm, (h.checked (getComponent_mem h1).1).portsKeyed, (h.checked (getComponent_mem h2).1).portsKeyed⟩
  · intro c hc r f d hr hd
    obtain ⟨ic, -, h1, -, h2, -, hm⟩ := forall₂_mem_right h.conns hc
    have hk : r.component.model.Checked := by
      rcases hr with rfl | rfl
      · exact h.checked (getComponent_mem h1).1
      · exact h.checked (getComponent_mem h2).1
    unfold PortRef.fieldDef at hd
    simp only [Option.map_eq_some_iff] at hd
    obtain ⟨d', hd', rfl⟩ := hd
    have hn := (hk.fieldDef_ok hd').1
    have hn' : ∀ y ∈ d'.definition.subs, (y.isPortRef = false ∧ y.isCmp = false ∧ y.hasComponent = false) ∧
        (y.isTimeFixing = false ∧ y.isScen = false) ∧ y ≠ .add [] ∧ ∀ v, y = .lit v → v.isFin = true := by
      intro y hy
      have := hn y hy
      simp only [defNodeOk, Bool.and_eq_true, Bool.not_eq_true'] at this
      obtain ⟨⟨⟨⟨⟨a, b⟩, c⟩, d⟩, e⟩, g⟩ := this
      refine ⟨⟨a, b, c⟩, ⟨d, e⟩, ?_, ?_⟩
      · rintro rfl; cases g
      · rintro v rfl; exact g
    refine ⟨fun y hy => (hn' y hy).1, fun hy => (hn' _ hy).2.2.1 rfl, ?_, fun y hy => (hn' y hy).2.1⟩
    intro v hv
    have := (hn' _ hv).2.2.2 v rfl
    exact (Num.isFin_iff v).1 this

/-! ## Variables, constraints, objectives -/

theorem context_variables (I : StudyInput) (net : Network) (db : DataBase) (m : Model) :
    (I.context net db).strategy.getVariables m = m.variables_.values := by
  show m.variables_.values.filter (fun _ => true) = _
  simp

theorem context_constraints (I : StudyInput) (net : Network) (db : DataBase) (m : Model) :
    (I.context net db).strategy.getConstraints m = m.bindingConstraints.values ++ m.constraints.values := by
  show m.allConstraints.filter (fun _ => true) = _
  simp [Model.allConstraints]

theorem context_contributions (I : StudyInput) (net : Network) (db : DataBase) (c : Component) :
    (I.context net db).contributions c = c.model.objectives := by
  show (([c.model.objectiveOperational, c.model.objectiveInvestment]).filterMap id).map (fun e => e) = _
  unfold Model.objectives
  cases c.model.objectiveOperational <;> cases c.model.objectiveInvestment <;> rfl

theorem boundOk_spec {b : Option Expr} (h : boundOk b = true) {e : Expr} (he : b = some e) :
    ExprOk e ∧ ∀ y ∈ e.subs, y.hasComponent = false := by
  subst he
  simp only [boundOk, List.all_eq_true, Bool.and_eq_true, Bool.not_eq_true'] at h
  exact ⟨exprOk_of (List.all_eq_true.2 fun y hy => (h y hy).1), fun y hy => (h y hy).2⟩

namespace Model.Checked
variable {m : Model} (h : m.Checked)
include h

theorem var_ok {v : Variable} (hv : v ∈ m.variables_.values) : m.variables_.get? v.name = some v ∧ v.dataType ≠ .boolean ∧
    ∀ b, v.lowerBound = some b ∨ v.upperBound = some b → ExprOk b ∧ ∀ y ∈ b.subs, y.hasComponent = false := by
  obtain ⟨⟨n, v'⟩, hm, rfl⟩ := List.mem_map.1 hv
  have := List.all_eq_true.1 h.vars _ hm
  simp only [Bool.and_eq_true, decide_eq_true_eq, bne_iff_ne] at this
  obtain ⟨⟨⟨h1, h2⟩, h3⟩, h4⟩ := this
  refine ⟨?_, h2, ?_⟩
  · rw [Dict.get?_eq_some_iff h.varsNodup]
    simpa [h1] using hm
  · rintro b (hb | hb)
    · exact boundOk_spec h3 hb
    · exact boundOk_spec h4 hb

theorem constraint_ok {k : Constraint} (hk : k ∈ m.bindingConstraints.values ++ m.constraints.values) :
    ExprOk k.expression ∧ (∀ y ∈ k.expression.subs, y.hasComponent = false) ∧ isBoundLit k.lowerBound = true ∧
      isBoundLit k.upperBound = true := by
  have hk' : k ∈ m.constraints.values ++ m.bindingConstraints.values := by
    rw [List.mem_append] at hk ⊢; exact hk.symm
  have := List.all_eq_true.1 h.constraints k hk'
  simp only [Bool.and_eq_true, List.all_eq_true, Bool.not_eq_true'] at this
  exact ⟨exprOk_of (List.all_eq_true.2 fun y hy => (this.1.1 y hy).1), fun y hy => (this.1.1 y hy).2, this.1.2, this.2⟩

theorem objective_ok {e : Expr} (he : e ∈ m.objectives) : ExprOk e ∧ (∀ y ∈ e.subs, y.isPortRef = false) ∧
    (∀ y ∈ e.subs, y.hasComponent = false) ∧ computeIndexation m.structures e = .ok ⟨false, false⟩ := by
  have := List.all_eq_true.1 h.objectives e he
  simp only [Bool.and_eq_true, List.all_eq_true, Bool.not_eq_true'] at this
  obtain ⟨h1, h2⟩ := this
  refine ⟨exprOk_of (List.all_eq_true.2 fun y hy => (h1 y hy).1.1), fun y hy => (h1 y hy).1.2, fun y hy => (h1 y hy).2, ?_⟩
  split at h2
  · rename_i i hi
    rw [hi]
    obtain ⟨a, b⟩ := i
    simp only [Bool.not_eq_true', Bool.and_eq_true] at h2
    rw [h2.1, h2.2]
  · cases h2

end Model.Checked

theorem isBoundLit_ok {b : Expr} (h : isBoundLit b = true) : BoundOk b ∧ ∃ v, b = .lit v := by
  cases b with
  | lit v =>
    refine ⟨?_, v, rfl⟩
    cases v with
    | fin q => exact .inr (exprOk_of (by simp [subs, nodeOk, Num.isFin]))
    | pinf => exact .inl (.inl rfl)
    | ninf => exact .inl (.inr rfl)
    | nan => cases h
  | _ => cases h

namespace StudyInput.Linked
variable {I : StudyInput} {net : Network}

theorem varsOk (db : DataBase) (h : I.Linked net) : (I.context net db).VarsOk := by
  refine ⟨?_, ?_⟩
  · intro c hc v hv b hb
    rw [context_variables] at hv
    exact .inr (((h.checked hc).var_ok hv).2.2 b hb).1
  · intro c hc v hv hb
    rw [context_variables] at hv
    exact absurd hb ((h.checked hc).var_ok hv).2.1

theorem constraintsOk (db : DataBase) (hs : I.Sound) (h : I.Linked net)
    (ht : ∀ c ∈ net.allComponents, ∀ k ∈ c.model.allConstraints, ∀ t s : Nat, t < I.steps.length → s < I.scenarios →
      (I.context net db).NoTiny c k.expression t s) : (I.context net db).ConstraintsOk := by
  refine ⟨hs.scenarios, ?_, ?_, ?_⟩
  · intro c hc k hk
    rw [context_constraints] at hk
    have := (h.checked hc).constraint_ok hk
    exact ⟨this.1, (isBoundLit_ok this.2.2.1).1, (isBoundLit_ok this.2.2.2).1⟩
  · intro c hc k hk t s h1 h2
    rw [context_constraints] at hk
    exact ht c hc k hk t s h1 h2
  · intro ports _ c hc k hk
    rw [context_constraints] at hk
    have := (h.checked hc).constraint_ok hk
    have hl : ∀ b, b = k.lowerBound ∨ b = k.upperBound → ∃ v, b = .lit v := by
      rintro b (rfl | rfl)
      · exact (isBoundLit_ok this.2.2.1).2
      · exact (isBoundLit_ok this.2.2.2).2
    constructor
    · intro e i _ _ _ b hb σ t t' s
      obtain ⟨v, rfl⟩ := hl b hb
      cases v <;> simp [mden]
    · intro e i _ _ _ b hb σ t s s'
      obtain ⟨v, rfl⟩ := hl b hb
      cases v <;> simp [mden]

theorem objectivesOk (db : DataBase) (h : I.Linked net)
    (ht : ∀ c ∈ net.allComponents, ∀ e ∈ c.model.objectives, (I.context net db).NoTiny c e 0 0) : (I.context net db).ObjectivesOk := by
  refine ⟨?_, ?_⟩
  · intro c hc e he
    rw [context_contributions] at he
    exact ⟨((h.checked hc).objective_ok he).1, ht c hc e he⟩
  · intro c hc e he
    rw [context_contributions] at he
    have := (h.checked hc).objective_ok he
    exact this.2.2.2

end StudyInput.Linked

/-! ## Data -/

/-- everything in the data base comes from a declaration -/
theorem buildDataBase_from {load : String → R Frame} {inp : InputSystem} {db : DataBase} (h : buildDataBase load inp = .ok db)
    {c n : String} {d : Data} (hd : Dict.get? db (c, n) = some d) :
    ∃ ic ∈ inp.components ++ inp.nodes, ∃ p ∈ ic.parameters, ic.id = c ∧ p.id = n ∧ buildData load p none = .ok d := by
  have hp : ∀ (cs : List InputComponent) (ic : InputComponent) (ps : List InputParam) (db db' : DataBase), ic ∈ cs →
      (∀ p ∈ ps, p ∈ ic.parameters) → addParams load ic.id ps db = .ok db' →
      (∀ c n d, Dict.get? db (c, n) = some d → ∃ ic ∈ cs, ∃ p ∈ ic.parameters, ic.id = c ∧ p.id = n ∧ buildData load p none = .ok d) →
      ∀ c n d, Dict.get? db' (c, n) = some d → ∃ ic ∈ cs, ∃ p ∈ ic.parameters, ic.id = c ∧ p.id = n ∧ buildData load p none = .ok d := by
    intro cs ic ps
    induction ps with
    | nil => intro db db' _ _ h hdb; cases h; exact hdb
    | cons p ps ih =>
      intro db db' hic hps h hdb
      simp only [addParams, bind_ok_iff] at h
      obtain ⟨d, hd, h⟩ := h
      refine ih _ _ hic (fun q hq => hps q (by simp [hq])) h ?_
      intro c n d' hd'
      rw [DataBase.addData, Dict.get?_set] at hd'
      split_ifs at hd' with hk
      · cases hd'
        simp only [Prod.mk.injEq] at hk
        first
          | exact ⟨ic, hic, p, hps p (by simp), hk.1, hk.2, hd⟩
          | exact ⟨ic, hic, p, hps p (by simp), hk.1.symm, hk.2.symm, hd⟩
      · exact hdb c n d' hd'
  have hc : ∀ (all cs : List InputComponent) (db db' : DataBase), (∀ c ∈ cs, c ∈ all) → addComponents load cs db = .ok db' →
      (∀ c n d, Dict.get? db (c, n) = some d → ∃ ic ∈ all, ∃ p ∈ ic.parameters, ic.id = c ∧ p.id = n ∧ buildData load p none = .ok d) →
      ∀ c n d, Dict.get? db' (c, n) = some d → ∃ ic ∈ all, ∃ p ∈ ic.parameters, ic.id = c ∧ p.id = n ∧ buildData load p none = .ok d := by
    intro all cs
    induction cs with
    | nil => intro db db' _ h hdb; cases h; exact hdb
    | cons c cs ih =>
      intro db db' hcs h hdb
      simp only [addComponents, bind_ok_iff] at h
      obtain ⟨db1, h1, h⟩ := h
      exact ih _ _ (fun q hq => hcs q (by simp [hq])) h (hp all c c.parameters db db1 (hcs c (by simp)) (fun _ h => h) h1 hdb)
  exact hc _ _ _ _ (fun _ h => h) h (by simp) c n d hd

theorem pyIndex_mem {α} {l : List α} {i : Int} {x : α} (h : pyIndex l i = .ok x) : ∃ j, atPos l j = some x := by
  unfold pyIndex at h
  dsimp only at h
  generalize (if i < 0 then i + (l.length : Int) else i) = j at h
  split_ifs at h with h1
  split at h
  · rename_i y hy
    cases h
    refine ⟨j, ?_⟩
    simp [atPos, hy, not_lt.1 h1]
  · cases h

/-- a value read in built data is one of its entries -/
theorem buildData_value {load : String → R Frame} {p : InputParam} {d : Data} (h : buildData load p none = .ok d) {t s : Option Int}
    {node : String} {v : Num} (hv : d.getValue t s node = .ok v) : ∃ t' s', d.entry t' s' "" = some v := by
  have hz : d.isTree = false ∧ (∀ f z, d = .scenarioSeries f z → z = none) ∧ ∀ f z, d = .timeScenarioSeries f z → z = none := by
    unfold buildData at h
    split at h
    · simp only [bind_ok_iff] at h
      obtain ⟨f, -, h⟩ := h
      split_ifs at h
      · cases h; exact ⟨rfl, by simp, by simp⟩
      · simp only [bind_ok_iff, Except.ok.injEq] at h
        obtain ⟨_, -, rfl⟩ := h
        exact ⟨rfl, by simp, by simp⟩
      · simp only [bind_ok_iff, Except.ok.injEq] at h
        obtain ⟨_, -, rfl⟩ := h
        exact ⟨rfl, by simp, by simp⟩
    · split_ifs at h
      cases h
      exact ⟨rfl, by simp, by simp⟩
  cases d with
  | const w => cases hv; exact ⟨0, 0, rfl⟩
  | timeSeries d =>
    cases t with
    | none => cases hv
    | some t => exact ⟨t, 0, (get_ok_iff' _ _ _).1 hv⟩
  | scenarioSeries d z =>
    obtain rfl := hz.2.1 _ _ rfl
    cases s with
    | none => cases hv
    | some s =>
      simp only [Data.getValue, applyScenarization, ok_bind] at hv
      exact ⟨0, s, by simp [Data.entry, dataScenario, (get_ok_iff' _ _ _).1 hv]⟩
  | timeScenarioSeries f z =>
    obtain rfl := hz.2.2 _ _ rfl
    cases t with
    | none => cases hv
    | some t =>
      cases s with
      | none => cases hv
      | some s =>
        simp only [Data.getValue, applyScenarization, ok_bind, Frame.iloc, bind_ok_iff] at hv
        obtain ⟨row, h1, h2⟩ := hv
        obtain ⟨j, hj⟩ := pyIndex_mem h1
        obtain ⟨k, hk⟩ := pyIndex_mem h2
        exact ⟨j, k, by simp [Data.entry, dataScenario, hj, hk]⟩
  | tree ds => cases hz.1

theorem buildData_nonNeg {load : String → R Frame} {p : InputParam} {d : Data} (h : buildData load p none = .ok d) : d.NonNegScenarios := by
  unfold buildData at h
  split at h
  · simp only [bind_ok_iff] at h
    obtain ⟨f, -, h⟩ := h
    split_ifs at h
    · cases h; trivial
    · simp only [bind_ok_iff, Except.ok.injEq] at h
      obtain ⟨_, -, rfl⟩ := h
      trivial
    · simp only [bind_ok_iff, Except.ok.injEq] at h
      obtain ⟨_, -, rfl⟩ := h
      trivial
  · split_ifs at h
    cases h
    trivial

theorem find?_of_nodup {α} {f : α → String} {l : List α} (nd : (l.map f).Nodup) {x : α} (hx : x ∈ l) :
    l.find? (fun y => f y = f x) = some x := by
  induction l with
  | nil => cases hx
  | cons a l ih =>
    rw [List.map_cons, List.nodup_cons] at nd
    rcases List.mem_cons.1 hx with rfl | hx
    · simp
    · rw [List.find?_cons_of_neg, ih nd.2 hx]
      simp only [decide_eq_true_eq]
      intro h
      exact nd.1 (h ▸ List.mem_map_of_mem hx)

theorem StudyInput.component?_of_mem {I : StudyInput} (hs : I.Sound) {ic : InputComponent} (h : ic ∈ I.declared) :
    I.component? ic.id = some ic := find?_of_nodup (f := InputComponent.id) hs.ids h

theorem StudyInput.mem_declared {I : StudyInput} {ic : InputComponent} : ic ∈ I.declared ↔ ic ∈ I.system.components ++ I.system.nodes := by
  unfold StudyInput.declared
  rw [List.mem_append, List.mem_append, or_comm]

namespace StudyInput.Linked
variable {I : StudyInput} {net : Network} {db : DataBase}

/-- the component of the network with a given id is the declared one -/
theorem of_getComponent (h : I.Linked net) (hs : I.Sound) {id : String} {k : Component} (hk : net.getComponent id = .ok k) :
    k ∈ net.allComponents ∧ k.id = id ∧ ∃ ic ∈ I.declared, ic.id = id ∧ I.component? id = some ic ∧
      ∃ r, (ic.model, k.model, r) ∈ shippedModels := by
  obtain ⟨h1, h2⟩ := getComponent_mem hk
  have hid := h.keyed _ _ h2
  obtain ⟨ic, hic, hi, r, hr⟩ := h.rules h1
  refine ⟨h1, hid, ic, hic, by rw [← hi, hid], ?_, r, hr⟩
  rw [← hid, hi]
  exact component?_of_mem hs hic

theorem par_rule {ref : String} {m : Model} {r : Rules} (hr : (ref, m, r) ∈ shippedModels) {n : String} {p : Parameter}
    (hp : m.parameters.get? n = some p) : (n, p.structure_.time, p.structure_.scenario) ∈ r.parameters := by
  rw [← (shippedModels_ok _ hr).2.1.parameters]
  exact List.mem_map.2 ⟨(n, p), Dict.mem_of_get? hp, rfl⟩

theorem dataOk (h : I.Linked net) (hs : I.Sound) (hdb : buildDataBase I.load I.system = .ok db) : (I.context net db).DataOk := by
  have key : ∀ c n k p d, net.getComponent c = .ok k → k.model.parameters.get? n = some p → Dict.get? db (c, n) = some d →
      (d.needsTime = true → p.structure_.time = true) ∧ (d.needsScenario = true → p.structure_.scenario = true) := by
    intro c n k p d hk hp hd
    obtain ⟨ic, hic, q, hq, rfl, rfl, hb⟩ := buildDataBase_from hdb hd
    obtain ⟨-, -, ic', hic', hid, hc, r, hr⟩ := h.of_getComponent hs hk
    rw [component?_of_mem hs (mem_declared.2 hic)] at hc
    cases hc
    obtain ⟨ht, hsc, -⟩ := buildData_entry I.load hs.tables q d hb
    have := hs.varying ic hic' q hq r (shippedModels_ok _ hr).1 _ (par_rule hr hp) rfl
    rw [ht, hsc]
    exact this
  refine ⟨rfl, hs.block, ?_, ?_, ?_⟩
  · intro c n d hd t s v hv
    obtain ⟨ic, hic, q, hq, rfl, rfl, hb⟩ := buildDataBase_from hdb hd
    obtain ⟨t', s', he⟩ := buildData_value hb hv
    rw [(buildData_entry I.load hs.tables q d hb).2.2.2] at he
    exact hs.finite ic (mem_declared.2 hic) q hq _ _ _ he
  · intro c n k p d hk hp hd ht
    exact (key c n k p d hk hp hd).1 ht
  · intro c n k p d hk hp hd ht
    exact (key c n k p d hk hp hd).2 ht

theorem paramsNodup (hs : I.Sound) :
    ((I.system.components ++ I.system.nodes).flatMap fun c => c.parameters.map fun p => (c.id, p.id)).Nodup := by
  rw [List.nodup_flatMap]
  constructor
  · intro c hc
    have := hs.parameters c (mem_declared.2 hc)
    have e : (c.parameters.map fun p => (c.id, p.id)) = (c.parameters.map (·.id)).map fun i => (c.id, i) := by
      rw [List.map_map]; rfl
    rw [e]
    exact this.map fun a b hab => by simpa using hab
  · have hd : ((I.system.components ++ I.system.nodes).map (·.id)).Nodup := by
      have := hs.ids
      unfold StudyInput.declared at this
      rw [List.map_append] at this ⊢
      exact List.nodup_append_comm.1 this
    have hd := List.pairwise_map.1 hd
    refine hd.imp ?_
    intro a b hab x hx hy
    obtain ⟨p, -, rfl⟩ := List.mem_map.1 hx
    obtain ⟨q, -, hq⟩ := List.mem_map.1 hy
    simp only [Prod.mk.injEq] at hq
    exact hab hq.1.symm

/-- the data of the study are the declared ones -/
theorem dataValue_eq (h : I.Linked net) (hs : I.Sound) (hdb : buildDataBase I.load I.system = .ok db) {c : Component}
    (hc : c ∈ net.allComponents) (n : String) (t s : Int) (hs0 : 0 ≤ s) :
    let x := I.context net db
    x.dataValue c.id n (atT (x.parIdx c.id n) t) (atS (x.parIdx c.id n) s) = I.parameter c.id n t s := by
  intro x
  have hx : x.DataOk := h.dataOk hs hdb
  obtain ⟨ic, hic, hi, r, hr⟩ := h.rules hc
  have hcomp := component?_of_mem hs hic
  unfold OptCtx.dataValue StudyInput.parameter
  rw [hi, hcomp]
  show (match Dict.get? db (ic.id, n) with | none => (0 : ℚ) | some d => _) = _
  cases hd : Dict.get? db (ic.id, n) with
  | none =>
    cases hf : ((some ic).bind fun c => c.parameters.find? fun p => p.id = n) with
    | none => rfl
    | some p =>
      exfalso
      rw [Option.bind_some] at hf
      have hp := List.mem_of_find?_eq_some hf
      have hn : p.id = n := by simpa using List.find?_some hf
      obtain ⟨d, hd', -⟩ := (c46_data_partial I.load hs.tables I.system db hdb (paramsNodup hs)).1 ic (mem_declared.1 hic) p hp
      rw [hn] at hd'
      rw [getData_ok hd'] at hd
      cases hd
  | some d =>
    obtain ⟨ic', hic', q, hq, hid, rfl, hb⟩ := buildDataBase_from hdb hd
    have : ic' = ic := by
      have := component?_of_mem hs (mem_declared.2 hic')
      rw [hid, hcomp] at this
      exact (Option.some.inj this).symm
    subst this
    have hf := find?_of_nodup (f := InputParam.id) (hs.parameters ic' hic) hq
    simp only [Option.bind_some, hf]
    obtain ⟨ht, hsc, htree, hent⟩ := buildData_entry I.load hs.tables q d hb
    have h1 : d.getValue ((atT (x.parIdx ic'.id q.id) t).map x.blockTime) (atS (x.parIdx ic'.id q.id) s) x.treeNode =
        d.getValue (some (I.step t)) (some s) x.treeNode := by
      have a1 : ∀ u, d.getValue ((atT (x.parIdx ic'.id q.id) t).map x.blockTime) u x.treeNode =
          d.getValue (some (I.step t)) u x.treeNode := by
        intro u
        by_cases hi : (x.parIdx ic'.id q.id).time = true
        · simp only [atT, hi, if_true]; rfl
        · apply (c24_ignores d).1
          cases hn : d.needsTime with
          | false => rfl
          | true =>
            exfalso
            apply hi
            unfold OptCtx.parIdx
            cases hk : x.network.getComponent ic'.id with
            | error e => rfl
            | ok k =>
              dsimp only
              cases hp : k.model.parameters.get? q.id with
              | none => rfl
              | some p => exact hx.time _ _ k p d hk hp hd hn
      rw [a1]
      by_cases hi : (x.parIdx ic'.id q.id).scenario = true
      · simp only [atS, hi, if_true]
      · apply (c24_ignores d).2
        cases hn : d.needsScenario with
        | false => rfl
        | true =>
          exfalso
          apply hi
          unfold OptCtx.parIdx
          cases hk : x.network.getComponent ic'.id with
          | error e => rfl
          | ok k =>
            dsimp only
            cases hp : k.model.parameters.get? q.id with
            | none => rfl
            | some p => exact hx.scenario _ _ k p d hk hp hd hn
    have hstep : 0 ≤ I.step t := by
      unfold StudyInput.step
      rw [List.getD_eq_getElem?_getD]
      cases hg : I.steps[(t % I.steps.length).toNat]? with
      | none => simp
      | some u => exact hs.steps u (List.mem_of_getElem? hg)
    have h2 := fun v => getValue_entry d htree (buildData_nonNeg hb) (I.step t) s hstep hs0 x.treeNode "" v
    simp only [hent] at h2
    rw [h1]
    cases hg : d.getValue (some (I.step t)) (some s) x.treeNode with
    | ok v => rw [(h2 v).1 hg]; rfl
    | error e =>
      cases he : declaredEntry I.load q (I.step t) s with
      | none => rfl
      | some v => rw [(h2 v).2 he] at hg; cases hg

/-! ## Readings -/

/-- the reading of the study with the declared values of the parameters -/
def read (I : StudyInput) (net : Network) (db : DataBase) (σ : TermKey → ℚ) : DenCtx :=
  { (I.context net db).reading σ with
    env := ⟨((I.context net db).reading σ).env.var, fun id n t s => I.parameter id n (t.getD 0) (s.getD 0)⟩
    pidx := fun _ _ => ⟨true, true⟩ }

theorem varIdx_eq (h : I.Linked net) (hs : I.Sound) {c : Component} (hc : c ∈ net.allComponents) (n : String) (t s : Int) :
    let x := I.context net db
    (⟨c.id, n, (atT (x.varIdx c.id n) t).map (· % x.T), atS (x.varIdx c.id n) s⟩ : TermKey) = I.instance_ c.id n t s := by
  intro x
  obtain ⟨ic, hic, hi, r, hr⟩ := h.rules hc
  have hcomp := component?_of_mem hs hic
  have hg : x.network.getComponent c.id = .ok c := getComponent_of_mem (h.networkOk db hs) hc
  have hrules : I.rulesOf c.id = some r := by
    unfold StudyInput.rulesOf
    rw [hi, hcomp]
    exact (shippedModels_ok _ hr).1
  have hvars := (shippedModels_ok _ hr).2.1.variables_
  unfold StudyInput.instance_ OptCtx.varIdx
  simp only [hg, hrules, Option.bind_some]
  have hfind : (r.variables_.find? fun v => v.1 = n).map (·.2) =
      (c.model.variables_.get? n).map fun v => (v.structure_.time, v.structure_.scenario) := by
    rw [← hvars]
    generalize c.model.variables_ = d
    induction d with
    | nil => rfl
    | cons a d ih =>
      obtain ⟨k, v⟩ := a
      simp only [List.map_cons, Dict.get?_cons]
      by_cases hk : k = n
      · simp [hk]
      · rw [List.find?_cons_of_neg (by simpa using hk), if_neg hk, ih]
  rw [hfind]
  cases c.model.variables_.get? n with
  | none => simp [atT, atS]
  | some v =>
    simp only [Option.map_some, Option.getD_some, atT, atS]
    congr 1
    split_ifs <;> rfl

theorem own_eq (h : I.Linked net) (hs : I.Sound) (σ : TermKey → ℚ) {c : Component} (hc : c ∈ net.allComponents) :
    (componentCtx (read I net db σ) c.id noPorts).readings = I.own σ c.id := by
  unfold MCtx.readings StudyInput.own
  congr 1
  funext n t s
  simp only [mden, componentCtx]
  exact congrArg σ (h.varIdx_eq (db := db) hs hc n t s)

/-- definitions of port fields are what the rules send -/
theorem sends_eq {ref : String} {m : Model} {r : Rules} (hr : (ref, m, r) ∈ shippedModels) (port f : String) :
    match r.sends port f with
    | some g => ∃ d, m.portFieldsDefinitions.get? ⟨port, f⟩ = some d ∧ ∀ M t s, mden M d.definition t s = g M.readings t s
    | none => m.portFieldsDefinitions.get? ⟨port, f⟩ = none := by
  obtain ⟨-, hst, hch⟩ := shippedModels_ok _ hr
  dsimp only at hst hch
  have hnone : (∀ p, m.ports.get? port = some p → f ∉ p.portType.fields) → m.portFieldsDefinitions.get? ⟨port, f⟩ = none := by
    intro hno
    cases hd : m.portFieldsDefinitions.get? ⟨port, f⟩ with
    | none => rfl
    | some d =>
      obtain ⟨-, p, hp, hf⟩ := hch.fieldDef_ok hd
      exact absurd hf (hno p hp)
  unfold Rules.sends
  cases h1 : r.ports.find? fun e => e.1 = port with
  | none =>
    simp only [Option.bind_none]
    apply hnone
    intro p hp
    exfalso
    have : (port, p.portType.fields) ∈ r.ports.map fun (n, fs) => (n, fs.map (·.1)) := by
      rw [← hst.ports]
      exact List.mem_map.2 ⟨(port, p), Dict.mem_of_get? hp, rfl⟩
    obtain ⟨e, he, hee⟩ := List.mem_map.1 this
    have := List.find?_eq_none.1 h1 e he
    simp only [Prod.mk.injEq] at hee
    simp [hee.1] at this
  | some e =>
    have he := List.mem_of_find?_eq_some h1
    have hep : e.1 = port := by simpa using List.find?_some h1
    simp only [Option.bind_some]
    cases h2 : e.2.find? fun d => d.1 = f with
    | none =>
      simp only [Option.bind_none]
      apply hnone
      intro p hp hf
      have hin : (port, e.2.map (·.1)) ∈ m.ports.map fun (n, p) => (n, p.portType.fields) := by
        rw [hst.ports]
        exact List.mem_map.2 ⟨e, he, by rw [← hep]⟩
      obtain ⟨⟨n', p'⟩, hm, hme⟩ := List.mem_map.1 hin
      simp only [Prod.mk.injEq] at hme
      rw [hme.1] at hm
      have := Dict.get?_of_mem hch.portsNodup hm
      rw [hp] at this
      cases this
      rw [hme.2] at hf
      obtain ⟨d, hd, hdf⟩ := List.mem_map.1 hf
      have := List.find?_eq_none.1 h2 d hd
      simp [hdf] at this
    | some d =>
      have hd := List.mem_of_find?_eq_some h2
      have hdf : d.1 = f := by simpa using List.find?_some h2
      have := hst.sends e.1 e.2 he d.1 d.2 hd
      rw [hep, hdf] at this
      simp only [Option.bind_some]
      cases hd2 : d.2 with
      | none => rw [hd2] at this; exact this
      | some g => rw [hd2] at this; exact this

theorem sent_eq (h : I.Linked net) (hs : I.Sound) (σ : TermKey → ℚ) {c : Component} (hc : c ∈ net.allComponents) (port f : String) :
    I.sent σ c.id port f =
      (PortRef.fieldDef ⟨c, port⟩ f).map fun d => mden (componentCtx (read I net db σ) c.id noPorts) d := by
  obtain ⟨ic, hic, hi, r, hr⟩ := h.rules hc
  have hrules : I.rulesOf c.id = some r := by
    unfold StudyInput.rulesOf
    rw [hi, component?_of_mem hs hic]
    exact (shippedModels_ok _ hr).1
  have := sends_eq hr port f
  unfold StudyInput.sent PortRef.fieldDef
  simp only [hrules, Option.bind_some]
  cases hg : r.sends port f with
  | none =>
    rw [hg] at this
    dsimp only at this
    simp [this]
  | some g =>
    rw [hg] at this
    obtain ⟨d, hd, hm⟩ := this
    simp only [hd, Option.map_some, Option.some.injEq]
    funext t s
    rw [hm, h.own_eq hs σ hc]

theorem carried_eq (h : I.Linked net) (hs : I.Sound) (σ : TermKey → ℚ) {ic : InputConnection} {c : PortsConnection}
    (hcc : net.getComponent ic.component1 = .ok c.port1.component ∧ c.port1.portId = ic.port1 ∧
      net.getComponent ic.component2 = .ok c.port2.component ∧ c.port2.portId = ic.port2 ∧
      PortsConnection.make c.port1 c.port2 = .ok c) (f : String) (t s : Int) :
    I.carried σ ic f t s = c.value (read I net db σ) f t s := by
  obtain ⟨h1, p1, h2, p2, -⟩ := hcc
  obtain ⟨m1, i1, -⟩ := h.of_getComponent hs h1
  obtain ⟨m2, i2, -⟩ := h.of_getComponent hs h2
  have s1 := h.sent_eq (db := db) hs σ m1 ic.port1 f
  have s2 := h.sent_eq (db := db) hs σ m2 ic.port2 f
  rw [i1] at s1
  rw [i2] at s2
  have e1 : (⟨c.port1.component, ic.port1⟩ : PortRef) = c.port1 := by rw [← p1]
  have e2 : (⟨c.port2.component, ic.port2⟩ : PortRef) = c.port2 := by rw [← p2]
  rw [e1] at s1
  rw [e2] at s2
  unfold StudyInput.carried PortsConnection.value
  rw [s1, s2]
  cases c.port1.fieldDef f with
  | some d => simp only [Option.map_some]; rw [i1]
  | none =>
    simp only [Option.map_none]
    cases c.port2.fieldDef f with
    | some d => simp only [Option.map_some]; rw [i2]
    | none => rfl

theorem value_noField (h : I.Linked net) (D : DenCtx) {c : PortsConnection} (hc : c ∈ net.connections) {f : String}
    (hf : ¬ c.hasField f) (t s : Int) : c.value D f t s = 0 := by
  obtain ⟨ic, -, h1, -, h2, -, hm⟩ := forall₂_mem_right h.conns hc
  obtain ⟨p1, p2, g1, g2, hty, -, -, -, -, -⟩ := make_ok hm
  have hno : f ∉ p1.portType.fields := by
    intro hin
    exact hf ⟨p1.portType, by simp [PortRef.type?, g1], hin⟩
  have n1 : c.port1.fieldDef f = none := by
    unfold PortRef.fieldDef
    cases hd : c.port1.component.model.portFieldsDefinitions.get? ⟨c.port1.portId, f⟩ with
    | none => rfl
    | some d =>
      obtain ⟨-, p, hp, hpf⟩ := (h.checked (getComponent_mem h1).1).fieldDef_ok hd
      rw [g1] at hp
      cases hp
      exact absurd hpf hno
  have n2 : c.port2.fieldDef f = none := by
    unfold PortRef.fieldDef
    cases hd : c.port2.component.model.portFieldsDefinitions.get? ⟨c.port2.portId, f⟩ with
    | none => rfl
    | some d =>
      obtain ⟨-, p, hp, hpf⟩ := (h.checked (getComponent_mem h2).1).fieldDef_ok hd
      rw [g2] at hp
      cases hp
      rw [← hty] at hpf
      exact absurd hpf hno
  simp [PortsConnection.value, n1, n2]

theorem received_eq (h : I.Linked net) (hs : I.Sound) (σ : TermKey → ℚ) (id port f : String) (t s : Int) :
    ((attached (read I net db σ) net.connections id port f).map fun v => v t s).sum = (I.readings σ id).received port f t s := by
  unfold attached StudyInput.readings
  dsimp only
  suffices key : ∀ (ics : List InputConnection) (cs : List PortsConnection), (∀ c ∈ cs, c ∈ net.connections) →
      List.Forall₂ (fun (ic : InputConnection) (c : PortsConnection) =>
        net.getComponent ic.component1 = .ok c.port1.component ∧ c.port1.portId = ic.port1 ∧
        net.getComponent ic.component2 = .ok c.port2.component ∧ c.port2.portId = ic.port2 ∧
        PortsConnection.make c.port1 c.port2 = .ok c) ics cs →
      ((cs.flatMap fun c => c.brings (read I net db σ) id port f).map fun v => v t s).sum =
        (ics.map fun c => (if c.component1 = id ∧ c.port1 = port then I.carried σ c f t s else 0) +
          (if c.component2 = id ∧ c.port2 = port then I.carried σ c f t s else 0)).sum from
    key _ _ (fun _ h => h) h.conns
  intro ics cs hmem hc
  induction hc with
  | nil => rfl
  | @cons ic c ics cs hcc _ ih =>
    rw [List.flatMap_cons, List.map_append, List.sum_append, List.map_cons, List.sum_cons, ih (fun c hc => hmem c (by simp [hc]))]
    congr 1
    rw [h.carried_eq (db := db) hs σ hcc]
    obtain ⟨h1, p1, h2, p2, -⟩ := hcc
    have i1 := (h.of_getComponent hs h1).2.1
    have i2 := (h.of_getComponent hs h2).2.1
    unfold PortsConnection.brings
    rw [i1, i2, p1, p2]
    by_cases hf : c.hasField f
    · rw [if_pos hf]
      split_ifs <;> simp
    · rw [if_neg hf, h.value_noField _ (hmem c (by simp)) hf]
      simp

/-- the mathematical reading of a component with declared values -/
def readC (I : StudyInput) (net : Network) (db : DataBase) (σ : TermKey → ℚ) (c : Component) : MCtx :=
  componentCtx (read I net db σ) c.id (attached (read I net db σ) net.connections c.id)

theorem readings_eq (h : I.Linked net) (hs : I.Sound) (σ : TermKey → ℚ) {c : Component} (hc : c ∈ net.allComponents) :
    (readC I net db σ c).readings = I.readings σ c.id := by
  have h1 := h.own_eq (db := db) hs σ hc
  have h2 : (readC I net db σ c).readings.received = (I.readings σ c.id).received := by
    funext p f t s
    exact h.received_eq hs σ c.id p f t s
  have e1 : (readC I net db σ c).readings =
      { (componentCtx (read I net db σ) c.id noPorts).readings with received := (readC I net db σ c).readings.received } := rfl
  rw [e1, h1, h2]
  rfl

theorem mden_read (h : I.Linked net) (hs : I.Sound) (hdb : buildDataBase I.load I.system = .ok db) (σ : TermKey → ℚ) {c : Component}
    (hc : c ∈ net.allComponents) (e : Expr) (he : ∀ y ∈ e.subs, y.hasComponent = false) (t s : Int) (hs0 : 0 ≤ s) :
    mden ((I.context net db).readIn σ c) e t s = mden (readC I net db σ c) e t s := by
  have hpar : ∀ {c : Component}, c ∈ net.allComponents → ∀ (P P') n t s, 0 ≤ s →
      mden (componentCtx ((I.context net db).reading σ) c.id P) (.par n) t s = mden (componentCtx (read I net db σ) c.id P') (.par n) t s := by
    intro c hc P P' n t s hs0
    simp only [mden, componentCtx]
    exact h.dataValue_eq hs hdb hc n t s hs0
  refine mden_congr_nonneg (M := (I.context net db).readIn σ c) (M' := readC I net db σ c) rfl rfl rfl rfl rfl ?_ ?_ e he t s hs0
  · intro n t s hs0
    exact hpar hc _ _ n t s hs0
  · intro p f t s hs0
    show (attached _ net.connections c.id p f).map _ = (attached _ net.connections c.id p f).map _
    unfold attached
    have hval : ∀ k ∈ net.connections, k.value ((I.context net db).reading σ) f t s = k.value (read I net db σ) f t s := by
      intro k hk
      have hclean := (h.networkOk db hs).clean k hk
      obtain ⟨ic, -, h1, -, h2, -, -⟩ := forall₂_mem_right h.conns hk
      have key : ∀ (r : PortRef) d, (r = k.port1 ∨ r = k.port2) → r.component ∈ net.allComponents → r.fieldDef f = some d →
          mden (componentCtx ((I.context net db).reading σ) r.component.id noPorts) d t s =
          mden (componentCtx (read I net db σ) r.component.id noPorts) d t s := by
        intro r d hr hm hd
        refine mden_congr_nonneg (M := componentCtx ((I.context net db).reading σ) r.component.id noPorts)
          (M' := componentCtx (read I net db σ) r.component.id noPorts) rfl rfl rfl rfl rfl ?_ ?_ d (fun y hy => ((hclean r f d hr hd).1 y hy).2.2) t s hs0
        · intro n t s hs0
          exact hpar hm _ _ n t s hs0
        · intro p f t s _; rfl
      unfold PortsConnection.value
      cases hd1 : k.port1.fieldDef f with
      | some d => exact key k.port1 d (.inl rfl) (getComponent_mem h1).1 hd1
      | none =>
        dsimp only
        cases hd2 : k.port2.fieldDef f with
        | some d => exact key k.port2 d (.inr rfl) (getComponent_mem h2).1 hd2
        | none => rfl
    generalize net.connections = cs at hval
    induction cs with
    | nil => rfl
    | cons k cs ih =>
      rw [List.flatMap_cons, List.flatMap_cons, List.map_append, List.map_append, ih (fun k hk => hval k (by simp [hk]))]
      congr 1
      unfold PortsConnection.brings
      have := hval k (by simp)
      split_ifs <;> simp [this]

/-! ## The mathematical study -/

theorem aboveBound_congr {M M' : MCtx} {b : Expr} {q : ℚ} {t s : Int} (h : mden M b t s = mden M' b t s) :
    aboveBound M b q t s ↔ aboveBound M' b q t s := by
  unfold aboveBound
  split <;> simp_all

theorem belowBound_congr {M M' : MCtx} {b : Expr} {q : ℚ} {t s : Int} (h : mden M b t s = mden M' b t s) :
    belowBound M b q t s ↔ belowBound M' b q t s := by
  unfold belowBound
  split <;> simp_all

theorem isBoundLit_subs {b : Expr} (h : isBoundLit b = true) : ∀ y ∈ b.subs, y.hasComponent = false := by
  obtain ⟨-, v, rfl⟩ := isBoundLit_ok h
  simp [subs, hasComponent]

/-- the rules of a component hold at `(t, s)` exactly when its bounds, types and constraints do -/
theorem acceptsAt (h : I.Linked net) (hs : I.Sound) (hdb : buildDataBase I.load I.system = .ok db) (σ : TermKey → ℚ) {c : Component}
    (hc : c ∈ net.allComponents) (t s : Nat) (ht : t < I.steps.length) :
    let x := I.context net db
    c.model.AcceptsAt (readC I net db σ c) t s ↔
      (∀ v ∈ x.strategy.getVariables c.model, aboveOpt (x.readIn σ c) v.lowerBound (σ (instanceAt c v t s)) t s ∧
        belowOpt (x.readIn σ c) v.upperBound (σ (instanceAt c v t s)) t s ∧ ofType v.dataType (σ (instanceAt c v t s))) ∧
      ∀ k ∈ x.strategy.getConstraints c.model, k.Holds (x.readIn σ c) t s := by
  intro x
  have hs0 : (0 : Int) ≤ (s : Int) := by positivity
  have hm := fun e he => h.mden_read hs hdb σ hc e he t s hs0
  have hch := h.checked hc
  rw [context_variables, context_constraints]
  unfold Model.AcceptsAt
  have hvars : (∀ v ∈ c.model.variables_.values, aboveOpt (readC I net db σ c) v.lowerBound (mden (readC I net db σ c) (.var v.name) t s) t s ∧
        belowOpt (readC I net db σ c) v.upperBound (mden (readC I net db σ c) (.var v.name) t s) t s ∧
        ofType v.dataType (mden (readC I net db σ c) (.var v.name) t s)) ↔
      ∀ v ∈ c.model.variables_.values, aboveOpt (x.readIn σ c) v.lowerBound (σ (instanceAt c v t s)) t s ∧
        belowOpt (x.readIn σ c) v.upperBound (σ (instanceAt c v t s)) t s ∧ ofType v.dataType (σ (instanceAt c v t s)) := by
    refine forall₂_congr fun v hv => ?_
    obtain ⟨hget, -, hb⟩ := hch.var_ok hv
    have hval : mden (readC I net db σ c) (.var v.name) t s = σ (instanceAt c v t s) := by
      show σ ⟨c.id, v.name, (atT (x.varIdx c.id v.name) t).map (· % (x.T : Int)), atS (x.varIdx c.id v.name) s⟩ = _
      have hg : x.network.getComponent c.id = .ok c := getComponent_of_mem (h.networkOk db hs) hc
      have hi : x.varIdx c.id v.name = v.structure_ := by simp [OptCtx.varIdx, hg, hget]
      rw [hi]
      unfold instanceAt
      congr 2
      unfold atT
      split_ifs
      · simp only [Option.map_some, Option.some.injEq]
        exact Int.emod_eq_of_lt (by positivity) (by exact_mod_cast ht)
      · rfl
    rw [hval]
    refine and_congr ?_ (and_congr_left fun _ => ?_)
    · cases hl : v.lowerBound with
      | none => exact Iff.rfl
      | some b => exact aboveBound_congr (hm b (hb b (.inl hl)).2).symm
    · cases hl : v.upperBound with
      | none => exact Iff.rfl
      | some b => exact belowBound_congr (hm b (hb b (.inr hl)).2).symm
  rw [hvars]
  refine and_congr_right fun _ => ?_
  have hk : ∀ k ∈ c.model.bindingConstraints.values ++ c.model.constraints.values,
      (k.Holds (readC I net db σ c) t s ↔ k.Holds (x.readIn σ c) t s) := by
    intro k hk
    obtain ⟨-, he, h1, h2⟩ := hch.constraint_ok hk
    unfold Constraint.Holds
    rw [← hm k.expression he]
    exact and_congr (aboveBound_congr (hm _ (isBoundLit_subs h1)).symm) (belowBound_congr (hm _ (isBoundLit_subs h2)).symm)
  constructor
  · rintro ⟨a, b⟩ k hm'
    rw [← hk k hm']
    rcases List.mem_append.1 hm' with hm' | hm'
    · exact b k hm'
    · exact a k hm'
  · intro a
    exact ⟨fun k hm' => (hk k (by simp [hm'])).2 (a k (by simp [hm'])), fun k hm' => (hk k (by simp [hm'])).2 (a k (by simp [hm']))⟩

/-- feasible for the mathematical study exactly when the rules of all components are obeyed -/
theorem feasible_iff (h : I.Linked net) (hs : I.Sound) (hdb : buildDataBase I.load I.system = .ok db) (σ : TermKey → ℚ) :
    (I.context net db).MathFeasible σ ↔ I.Accepts σ := by
  have hrule : ∀ {ic : InputComponent} {c : Component} {r : Rules}, c ∈ net.allComponents → c.id = ic.id →
      (ic.model, c.model, r) ∈ shippedModels → ∀ t s : Nat, t < I.steps.length →
      (r.accepts (I.readings σ ic.id) t s ↔ c.model.AcceptsAt (readC I net db σ c) t s) := by
    intro ic c r hc hid hr t s ht
    rw [(shippedModels_ok _ hr).2.1.accepts, h.readings_eq hs σ hc, hid]
  constructor
  · intro hf ic hic r hr t s ht hs'
    obtain ⟨c, hc, hid, r', hr'⟩ := forall₂_mem_left h.comps hic
    have := (shippedModels_ok _ hr').1
    dsimp only at this
    rw [hr] at this
    cases this
    rw [hrule hc hid hr' t s ht]
    refine (h.acceptsAt hs hdb σ hc t s ht).2 ?_
    exact ⟨fun v hv => hf.vars c hc v hv t s ht hs', fun k hk => hf.constraints c hc k hk t s ht hs'⟩
  · intro ha
    have key : ∀ c ∈ net.allComponents, ∀ t s : Nat, t < I.steps.length → s < I.scenarios →
        c.model.AcceptsAt (readC I net db σ c) t s := by
      intro c hc t s ht hs'
      obtain ⟨ic, hic, hid, r, hr⟩ := h.rules hc
      exact (hrule hc hid hr t s ht).1 (ha ic hic r (shippedModels_ok _ hr).1 t s ht hs')
    refine ⟨fun c hc v hv t s ht hs' => ?_, fun c hc k hk t s ht hs' => ?_⟩
    · exact ((h.acceptsAt hs hdb σ hc t s ht).1 (key c hc t s ht hs')).1 v hv
    · exact ((h.acceptsAt hs hdb σ hc t s ht).1 (key c hc t s ht hs')).2 k hk

/-- the cost of the mathematical study is the sum of the costs of the rules -/
theorem cost_eq (h : I.Linked net) (hs : I.Sound) (hdb : buildDataBase I.load I.system = .ok db) (σ : TermKey → ℚ) :
    (I.context net db).mathCost σ = I.cost σ := by
  unfold OptCtx.mathCost StudyInput.cost
  congr 1
  have key : ∀ (ic : InputComponent) (c : Component), c ∈ net.allComponents → (c.id = ic.id ∧ ∃ r, (ic.model, c.model, r) ∈ shippedModels) →
      (((I.context net db).contributions c).map fun e => mden ((I.context net db).readIn σ c) e 0 0).sum =
      ((Rules.named ic.model).map fun r => r.cost (I.readings σ ic.id)).getD 0 := by
    rintro ic c hc ⟨hid, r, hr⟩
    have hn := (shippedModels_ok _ hr).1
    dsimp only at hn
    rw [hn, context_contributions]
    simp only [Option.map_some, Option.getD_some]
    rw [← hid, ← h.readings_eq (db := db) hs σ hc, ← (shippedModels_ok _ hr).2.1.cost]
    congr 1
    exact List.map_congr_left fun e he => h.mden_read hs hdb σ hc e ((h.checked hc).objective_ok he).2.2.1 0 0 le_rfl
  suffices hh : ∀ (ics : List InputComponent) (cs : List Component), (∀ c ∈ cs, c ∈ net.allComponents) →
      List.Forall₂ (fun (ic : InputComponent) (c : Component) => c.id = ic.id ∧ ∃ r, (ic.model, c.model, r) ∈ shippedModels) ics cs →
      (cs.map fun c => (((I.context net db).contributions c).map fun e => mden ((I.context net db).readIn σ c) e 0 0).sum) =
        ics.map fun ic => ((Rules.named ic.model).map fun r => r.cost (I.readings σ ic.id)).getD 0 from
    hh _ _ (fun _ h => h) h.comps
  intro ics cs hmem hcs
  induction hcs with
  | nil => rfl
  | @cons ic c ics cs h1 _ ih =>
    rw [List.map_cons, List.map_cons, key ic c (hmem c (by simp)) h1, ih (fun c hc => hmem c (by simp [hc]))]

end StudyInput.Linked

end Verif
