import Verif.Lemmas.Kept

/-!
# Studies written differently, and studies side by side: their networks
-/

namespace Verif
open Verif.Expr Verif.OptCtx Verif.Shipped Verif.Props

namespace StudyInput.Linked
variable {I : StudyInput} {net : Network} {db : DataBase}

/-- the expressions of the shipped models are covered -/
theorem expressible (h : I.Linked net) (hs : I.Sound) (hdb : buildDataBase I.load I.system = .ok db) : (I.context net db).Expressible where
  network := h.networkOk db hs
  data := h.dataOk hs hdb
  scenarios := hs.scenarios
  bounds := (h.varsOk db).bounds
  constraints c hc k hk := by
    rw [context_constraints] at hk
    have := (h.checked hc).constraint_ok hk
    exact ⟨this.1, (isBoundLit_ok this.2.2.1).1, (isBoundLit_ok this.2.2.2).1⟩
  objectives c hc e he := by
    rw [context_contributions] at he
    have := (h.checked hc).objective_ok he
    exact ⟨this.1, this.2.2.2⟩

theorem ownSymbols (h : I.Linked net) : (I.context net db).OwnSymbols where
  bounds c hc v hv b hb := by
    rw [context_variables] at hv
    exact (((h.checked hc).var_ok hv).2.2 b hb).2
  constraints c hc k hk e he := by
    rw [context_constraints] at hk
    have := (h.checked hc).constraint_ok hk
    rcases he with rfl | rfl | rfl
    · exact this.2.1
    · obtain ⟨v, e⟩ := (isBoundLit_ok this.2.2.1).2
      rw [e]
      simp [subs, hasComponent]
    · obtain ⟨v, e⟩ := (isBoundLit_ok this.2.2.2).2
      rw [e]
      simp [subs, hasComponent]
  objectives c hc e he := by
    rw [context_contributions] at he
    exact ((h.checked hc).objective_ok he).2.2.1

theorem closed (h : I.Linked net) (hs : I.Sound) : (I.context net db).Closed := by
  intro k hk
  obtain ⟨ic, -, a1, -, a3, -⟩ := forall₂_mem_right h.conns hk
  exact ⟨(h.of_getComponent hs a1).1, (h.of_getComponent hs a3).1⟩

end StudyInput.Linked

theorem Twin.called {ρ : String → String} {c c' : Component} (h : Twin ρ c c') : c' = c.called ρ := by
  obtain ⟨m, i⟩ := c
  obtain ⟨m', i'⟩ := c'
  obtain ⟨h1, h2⟩ := h
  dsimp only at h1 h2
  subst h1
  subst h2
  rfl

namespace StudyInput.Part
variable {ρ : String → String} {I I' : StudyInput} {net net' : Network} {db db' : DataBase}

theorem sameFrame (h : Part ρ I I') : (I.context net db).SameFrame (I'.context net' db') where
  timesteps := by show I'.steps = I.steps; rw [h.steps]
  scenarios := by show I'.scenarios = I.scenarios; rw [h.scenarios]
  cycle := rfl
  strategy := rfl
  risk := rfl
  treeNode := rfl

theorem netDistinct (h : Part ρ I I') (hl : I.Linked net) : ∀ c ∈ net.allComponents, ∀ c' ∈ net.allComponents, ρ c.id = ρ c'.id → c.id = c'.id := by
  intro c hc c' hc' e
  obtain ⟨ic, hic, hi, -⟩ := hl.rules hc
  obtain ⟨ic', hic', hi', -⟩ := hl.rules hc'
  rw [hi, hi'] at e ⊢
  exact h.distinct ic hic ic' hic' e

/-- the component is in the network under its other name -/
theorem called_mem (h : Part ρ I I') (hs : I.Sound) (hs' : I'.Sound) (hl : I.Linked net) (hl' : I'.Linked net') {c : Component}
    (hc : c ∈ net.allComponents) : c.called ρ ∈ net'.allComponents := by
  obtain ⟨ic, hic, hi, -⟩ := hl.rules hc
  obtain ⟨ic', hic', e⟩ := h.components ic hic
  obtain ⟨c', hc', hi', -⟩ := forall₂_mem_left hl'.comps hic'
  have htw : Twin ρ c c' := by
    refine h.twin hs hs' hl hl' hic ?_ ?_
    · rw [← hi]
      exact getComponent_of_mem (hl.networkOk ([] : DataBase) hs) hc
    · rw [← e.id, ← hi']
      exact getComponent_of_mem (hl'.networkOk ([] : DataBase) hs') hc'
  rw [← htw.called]
  exact hc'

theorem netData (h : Part ρ I I') (hs : I.Sound) (hs' : I'.Sound) (hl : I.Linked net) (hl' : I'.Linked net')
    (hdb : buildDataBase I.load I.system = .ok db) (hdb' : buildDataBase I'.load I'.system = .ok db') :
    ∀ c ∈ net.allComponents, ∀ n t s, 0 ≤ s → (I'.context net' db').parameterAt (ρ c.id) n t s = (I.context net db).parameterAt c.id n t s := by
  intro c hc n t s hs0
  obtain ⟨ic, hic, hi, -⟩ := hl.rules hc
  have a := hl.dataValue_eq hs hdb hc n t s hs0
  have b := hl'.dataValue_eq hs' hdb' (h.called_mem hs hs' hl hl' hc) n t s hs0
  refine b.trans (Eq.trans ?_ a.symm)
  show I'.parameter (ρ c.id) n t s = I.parameter c.id n t s
  rw [hi]
  exact h.parameter hs hs'.ids hic n t s

/-- a connection of the study and the same connection in the part -/
theorem sameLink (h : Part ρ I I') (hs : I.Sound) (hs' : I'.Sound) (hl : I.Linked net) (hl' : I'.Linked net') {k k' : InputConnection}
    {q q' : PortsConnection} (hj : I.Joins k) (hk : SameConnection ρ k k')
    (hq : net.getComponent k.component1 = .ok q.port1.component ∧ q.port1.portId = k.port1 ∧
      net.getComponent k.component2 = .ok q.port2.component ∧ q.port2.portId = k.port2 ∧ PortsConnection.make q.port1 q.port2 = .ok q)
    (hq' : net'.getComponent k'.component1 = .ok q'.port1.component ∧ q'.port1.portId = k'.port1 ∧
      net'.getComponent k'.component2 = .ok q'.port2.component ∧ q'.port2.portId = k'.port2 ∧ PortsConnection.make q'.port1 q'.port2 = .ok q') :
    SameLink ρ q q' := by
  obtain ⟨⟨i1, hi1, e1⟩, ⟨i2, hi2, e2⟩⟩ := hj.ends
  obtain ⟨a1, a2, a3, a4, -⟩ := hq
  obtain ⟨b1, b2, b3, b4, -⟩ := hq'
  have port : ∀ {r r' : PortRef}, Twin ρ r.component r'.component → r'.portId = r.portId → r' = r.called ρ := by
    rintro ⟨c, p⟩ ⟨c', p'⟩ ht hp
    dsimp only at ht hp
    rw [ht.called, hp]
    rfl
  cases hk with
  | same =>
    have t1 := h.twin hs hs' hl hl' hi1 (by rw [e1]; exact a1) (by rw [e1]; exact b1)
    have t2 := h.twin hs hs' hl hl' hi2 (by rw [e2]; exact a3) (by rw [e2]; exact b3)
    exact .inl ⟨port t1 (b2.trans a2.symm), port t2 (b4.trans a4.symm)⟩
  | flipped =>
    have t1 := h.twin hs hs' hl hl' hi1 (by rw [e1]; exact a1) (by rw [e1]; exact b3)
    have t2 := h.twin hs hs' hl hl' hi2 (by rw [e2]; exact a3) (by rw [e2]; exact b1)
    exact .inr ⟨port t2 (b2.trans a4.symm), port t1 (b4.trans a2.symm)⟩

end StudyInput.Part

/-- the components of the networks of two lists of declarations -/
theorem components_called {ρ : String → String} {l m : List InputComponent} (h1 : List.Forall₂ (SameComponent ρ) l m) :
    ∀ {N w : List Component},
      List.Forall₂ (fun (ic : InputComponent) (c : Component) => c.id = ic.id ∧ ∃ r, (ic.model, c.model, r) ∈ shippedModels) l N →
      List.Forall₂ (fun (ic : InputComponent) (c : Component) => c.id = ic.id ∧ ∃ r, (ic.model, c.model, r) ∈ shippedModels) m w →
      w = N.map (Component.called ρ) := by
  induction h1 with
  | nil => intro N w h2 h3; cases h2; cases h3; rfl
  | cons e _ ih =>
    intro N w h2 h3
    cases h2 with
    | cons a as =>
      cases h3 with
      | cons b bs =>
        obtain ⟨a1, r, a2⟩ := a
        obtain ⟨b1, r', b2⟩ := b
        rw [e.model] at b2
        have : Twin ρ _ _ := ⟨b1.trans (by rw [e.id, a1]), shippedModels_unique b2 a2⟩
        rw [List.map_cons, ih as bs, this.called]

end Verif
