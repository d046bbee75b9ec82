import Verif.Spec.Rearranged
import Verif.Lemmas.StudyMeaning

/-!
# Parts of studies

`I.Part ρ I'`: the study `I'` has the components of `I`, under the names that `ρ` gives them, and they have in `I'` the same connections as
in `I`.  Then they read the same values in both.
-/

namespace Verif

theorem find?_perm_nodup {α : Type} {f : α → String} {l l' : List α} (p : l.Perm l') (nd : (l.map f).Nodup) (n : String) :
    l.find? (fun y => f y = n) = l'.find? fun y => f y = n := by
  cases h : l'.find? fun y => f y = n with
  | none =>
    rw [List.find?_eq_none] at h ⊢
    exact fun x hx => h x (p.mem_iff.1 hx)
  | some x =>
    have hx := List.mem_of_find?_eq_some h
    have e : f x = n := by simpa using List.find?_some h
    rw [← e]
    exact find?_of_nodup nd (p.mem_iff.2 hx)

theorem Listed.mem_left {α : Type} {same : α → α → Prop} {l l' : List α} (h : Listed same l l') {x : α} (hx : x ∈ l) : ∃ y ∈ l', same x y := by
  obtain ⟨m, h1, h2⟩ := h
  obtain ⟨y, hy, e⟩ := forall₂_mem_left h1 hx
  exact ⟨y, h2.mem_iff.1 hy, e⟩

theorem Listed.mem_right {α : Type} {same : α → α → Prop} {l l' : List α} (h : Listed same l l') {y : α} (hy : y ∈ l') : ∃ x ∈ l, same x y := by
  obtain ⟨m, h1, h2⟩ := h
  exact forall₂_mem_right h1 (h2.mem_iff.2 hy)

/-- ports of shipped models have distinct names -/
theorem Rules.named_ports {ref : String} {r : Rules} (h : Rules.named ref = some r) : (r.ports.map (·.1)).Nodup := by
  have hall : ∀ e ∈ Rules.shipped.map fun e => e.2.ports.map (·.1), e.Nodup := by decide +kernel
  unfold Rules.named at h
  cases hf : Rules.shipped.find? fun e => e.1 = ref with
  | none => rw [hf] at h; cases h
  | some e =>
    rw [hf] at h
    cases h
    exact hall _ (List.mem_map_of_mem (List.mem_of_find?_eq_some hf))

namespace StudyInput

/-- `I'` has the components of `I` under other names, with the same connections -/
structure Part (ρ : String → String) (I I' : StudyInput) : Prop where
  load : I'.load = I.load
  steps : I'.steps = I.steps
  scenarios : I'.scenarios = I.scenarios
  distinct : ∀ c ∈ I.declared, ∀ c' ∈ I.declared, ρ c.id = ρ c'.id → c.id = c'.id
  components : ∀ c ∈ I.declared, ∃ c' ∈ I'.declared, SameComponent ρ c c'
  connections : ∃ l rest, List.Forall₂ (SameConnection ρ) I.system.connections l ∧ (l ++ rest).Perm I'.system.connections ∧
    ∀ k ∈ rest, ∀ c ∈ I.declared, k.component1 ≠ ρ c.id ∧ k.component2 ≠ ρ c.id

/-- the values of `I'` are those of `I` -/
def Agree (ρ : String → String) (I : StudyInput) (σ σ' : TermKey → ℚ) : Prop :=
  ∀ c ∈ I.declared, ∀ n t s, σ' ⟨ρ c.id, n, t, s⟩ = σ ⟨c.id, n, t, s⟩

theorem component?_mem {I : StudyInput} {id : String} {c : InputComponent} (h : I.component? id = some c) : c ∈ I.declared ∧ c.id = id :=
  ⟨List.mem_of_find?_eq_some h, by simpa using List.find?_some h⟩

theorem rulesOf_mem {I : StudyInput} {id : String} {r : Rules} (h : I.rulesOf id = some r) : ∃ c ∈ I.declared, c.id = id ∧ Rules.named c.model = some r := by
  unfold rulesOf at h
  cases hc : I.component? id with
  | none => rw [hc] at h; cases h
  | some c =>
    rw [hc] at h
    exact ⟨c, (component?_mem hc).1, (component?_mem hc).2, h⟩

namespace Part

variable {ρ : String → String} {I I' : StudyInput} {σ σ' : TermKey → ℚ}

theorem component? (h : Part ρ I I') (hs : I.Sound) (hd : (I'.declared.map (·.id)).Nodup) {c : InputComponent} (hc : c ∈ I.declared) :
    I.component? c.id = some c ∧ ∃ c', I'.component? (ρ c.id) = some c' ∧ SameComponent ρ c c' := by
  refine ⟨component?_of_mem hs hc, ?_⟩
  obtain ⟨c', hc', e⟩ := h.components c hc
  refine ⟨c', ?_, e⟩
  rw [← e.id]
  exact find?_of_nodup (f := InputComponent.id) hd hc'

theorem rulesOf (h : Part ρ I I') (hs : I.Sound) (hd : (I'.declared.map (·.id)).Nodup) {c : InputComponent} (hc : c ∈ I.declared) :
    I'.rulesOf (ρ c.id) = I.rulesOf c.id := by
  obtain ⟨h1, c', h2, e⟩ := h.component? hs hd hc
  unfold StudyInput.rulesOf
  rw [h1, h2, Option.bind_some, Option.bind_some, e.model]

theorem parameter (h : Part ρ I I') (hs : I.Sound) (hd : (I'.declared.map (·.id)).Nodup) {c : InputComponent} (hc : c ∈ I.declared)
    (n : String) (t s : Int) : I'.parameter (ρ c.id) n t s = I.parameter c.id n t s := by
  obtain ⟨h1, c', h2, e⟩ := h.component? hs hd hc
  have hp := find?_perm_nodup (f := InputParam.id) e.parameters.symm (hs.parameters c hc) n
  unfold StudyInput.parameter StudyInput.step
  rw [h1, h2, Option.bind_some, Option.bind_some, hp, h.load, h.steps]

theorem instance_ (h : Part ρ I I') (hs : I.Sound) (hd : (I'.declared.map (·.id)).Nodup) {c : InputComponent} (hc : c ∈ I.declared)
    (n : String) (t s : Int) : I'.instance_ (ρ c.id) n t s = { I.instance_ c.id n t s with component := ρ c.id } := by
  unfold StudyInput.instance_
  rw [h.rulesOf hs hd hc, h.steps]

theorem own (h : Part ρ I I') (hs : I.Sound) (hd : (I'.declared.map (·.id)).Nodup) (ha : Agree ρ I σ σ') {c : InputComponent}
    (hc : c ∈ I.declared) : I'.own σ' (ρ c.id) = I.own σ c.id := by
  unfold StudyInput.own
  rw [h.steps, h.scenarios]
  congr 1
  · funext n t s
    rw [h.instance_ hs hd hc]
    exact ha c hc _ _ _
  · funext n t s
    exact h.parameter hs hd hc n t s

theorem sent (h : Part ρ I I') (hs : I.Sound) (hd : (I'.declared.map (·.id)).Nodup) (ha : Agree ρ I σ σ') {c : InputComponent}
    (hc : c ∈ I.declared) (port field : String) : I'.sent σ' (ρ c.id) port field = I.sent σ c.id port field := by
  unfold StudyInput.sent
  rw [h.rulesOf hs hd hc, h.own hs hd ha hc]

end Part

/-- one end at most of a correct connection sends a field -/
theorem Joins.one {I : StudyInput} {k : InputConnection} (h : I.Joins k) (σ : TermKey → ℚ) (field : String) :
    I.sent σ k.component1 k.port1 field = none ∨ I.sent σ k.component2 k.port2 field = none := by
  obtain ⟨r1, r2, fs1, fs2, h1, h2, h3, h4, h5, h6⟩ := h
  unfold StudyInput.sent
  rw [h1, h2]
  simp only [Option.bind_some, Option.map_eq_none_iff]
  by_cases hf : field ∈ fs1.map (·.1)
  · have := h6 field hf
    cases e1 : r1.sends k.port1 field <;> cases e2 : r2.sends k.port2 field <;> simp_all
  · left
    obtain ⟨c, -, -, hn⟩ := rulesOf_mem h1
    have hp : r1.ports.find? (fun e => e.1 = k.port1) = some (k.port1, fs1) := find?_of_nodup (f := (·.1)) (Rules.named_ports hn) h3
    unfold Rules.sends
    rw [hp, Option.bind_some]
    have : fs1.find? (fun d => d.1 = field) = none := by
      rw [List.find?_eq_none]
      intro d hd e
      exact hf (List.mem_map.2 ⟨d, hd, by simpa using e⟩)
    rw [this]
    rfl

theorem carried_flip {I : StudyInput} {k : InputConnection} {σ : TermKey → ℚ} {field : String}
    (h : I.sent σ k.component1 k.port1 field = none ∨ I.sent σ k.component2 k.port2 field = none) (t s : Int) :
    I.carried σ ⟨k.component2, k.port2, k.component1, k.port1⟩ field t s = I.carried σ k field t s := by
  unfold StudyInput.carried
  rcases h with h | h <;> rw [h]
  · cases I.sent σ k.component2 k.port2 field <;> rfl
  · cases I.sent σ k.component1 k.port1 field <;> rfl

theorem Joins.ends {I : StudyInput} {k : InputConnection} (h : I.Joins k) : (∃ c ∈ I.declared, c.id = k.component1) ∧
    ∃ c ∈ I.declared, c.id = k.component2 := by
  obtain ⟨r1, r2, fs1, fs2, h1, h2, -⟩ := h
  obtain ⟨c1, a1, b1, -⟩ := rulesOf_mem h1
  obtain ⟨c2, a2, b2, -⟩ := rulesOf_mem h2
  exact ⟨⟨c1, a1, b1⟩, ⟨c2, a2, b2⟩⟩

namespace Part

variable {ρ : String → String} {I I' : StudyInput} {σ σ' : TermKey → ℚ}

theorem carried (h : Part ρ I I') (hs : I.Sound) (hd : (I'.declared.map (·.id)).Nodup) (ha : Agree ρ I σ σ') {k k' : InputConnection}
    (hk : I.Joins k) (e : SameConnection ρ k k') (field : String) (t s : Int) : I'.carried σ' k' field t s = I.carried σ k field t s := by
  obtain ⟨⟨c1, hc1, e1⟩, ⟨c2, hc2, e2⟩⟩ := hk.ends
  have s1 := fun p => h.sent hs hd ha hc1 p field
  have s2 := fun p => h.sent hs hd ha hc2 p field
  rw [e1] at s1
  rw [e2] at s2
  have main : I'.carried σ' ⟨ρ k.component1, k.port1, ρ k.component2, k.port2⟩ field t s = I.carried σ k field t s := by
    unfold StudyInput.carried
    rw [s1, s2]
  cases e with
  | same => exact main
  | flipped =>
    refine (carried_flip (k := ⟨ρ k.component1, k.port1, ρ k.component2, k.port2⟩) ?_ t s).trans main
    have := hk.one σ field
    dsimp only
    rwa [s1, s2]

theorem readings (h : Part ρ I I') (hs : I.Sound) (hd : (I'.declared.map (·.id)).Nodup) (hj : ∀ k ∈ I.system.connections, I.Joins k)
    (ha : Agree ρ I σ σ') {c : InputComponent} (hc : c ∈ I.declared) : I'.readings σ' (ρ c.id) = I.readings σ c.id := by
  unfold StudyInput.readings
  rw [h.own hs hd ha hc]
  dsimp only
  congr 1
  funext port field t s
  obtain ⟨l, rest, h1, h2, h3⟩ := h.connections
  rw [← (h2.map _).sum_eq, List.map_append, List.sum_append]
  have hr : (rest.map fun k => (if k.component1 = ρ c.id ∧ k.port1 = port then I'.carried σ' k field t s else 0) +
      (if k.component2 = ρ c.id ∧ k.port2 = port then I'.carried σ' k field t s else 0)).sum = 0 := by
    apply List.sum_eq_zero
    intro x hx
    obtain ⟨k, hk, rfl⟩ := List.mem_map.1 hx
    obtain ⟨a, b⟩ := h3 k hk c hc
    rw [if_neg fun q => a q.1, if_neg fun q => b q.1, add_zero]
  rw [hr, add_zero]
  clear h2 hr
  congr 1
  generalize I.system.connections = K0 at h1 hj
  induction h1 with
  | nil => rfl
  | @cons k k' K L e _ ih =>
    rw [List.map_cons, List.map_cons, ih fun k hk => hj k (.tail _ hk)]
    congr 1
    have hk := hj k (.head _)
    obtain ⟨⟨c1, hc1, e1⟩, ⟨c2, hc2, e2⟩⟩ := hk.ends
    rw [h.carried hs hd ha hk e]
    have n1 : ρ k.component1 = ρ c.id ↔ k.component1 = c.id := ⟨fun q => e1 ▸ h.distinct c1 hc1 c hc (by rw [e1]; exact q), fun q => by rw [q]⟩
    have n2 : ρ k.component2 = ρ c.id ↔ k.component2 = c.id := ⟨fun q => e2 ▸ h.distinct c2 hc2 c hc (by rw [e2]; exact q), fun q => by rw [q]⟩
    cases e with
    | same => simp only [n1, n2]
    | flipped => simp only [n1, n2]; rw [add_comm]

theorem accepts (h : Part ρ I I') (hs : I.Sound) (hd : (I'.declared.map (·.id)).Nodup) (hj : ∀ k ∈ I.system.connections, I.Joins k)
    (ha : Agree ρ I σ σ') (h' : I'.Accepts σ') : I.Accepts σ := by
  intro c hc r hr t s ht hs'
  obtain ⟨c', hc', e⟩ := h.components c hc
  have := h' c' hc' r (by rw [e.model]; exact hr) t s (by rw [h.steps]; exact ht) (by rw [h.scenarios]; exact hs')
  rwa [e.id, h.readings hs hd hj ha hc] at this

end Part

/-- each component and each connection of the study comes from a part that is sound and complete -/
structure Covered (I' : StudyInput) (libs : Option (Dict String Library)) : Prop where
  ids : (I'.declared.map (·.id)).Nodup
  some_ : ∃ ρ I, Part ρ I I' ∧ I.Sound
  component : ∀ c' ∈ I'.declared, ∃ ρ I, Part ρ I I' ∧ I.Sound ∧ (∀ L, libs = some L → I.Complete L) ∧ ∃ c ∈ I.declared, SameComponent ρ c c'
  connection : ∀ k' ∈ I'.system.connections, ∃ ρ I, Part ρ I I' ∧ I.Sound ∧ (∀ L, libs = some L → I.Complete L) ∧
    ∃ k ∈ I.system.connections, SameConnection ρ k k'

theorem Covered.sound {I' : StudyInput} {libs : Option (Dict String Library)} (h : Covered I' libs) : I'.Sound := by
  obtain ⟨ρ, I, hp, hs⟩ := h.some_
  refine ⟨h.ids, ?_, ?_, ?_, ?_, ?_, ?_, ?_⟩
  · intro c' hc'
    obtain ⟨ρ, I, hp, hs, -, c, hc, e⟩ := h.component c' hc'
    exact (e.parameters.map _).nodup_iff.2 (hs.parameters c hc)
  · rw [hp.load]; exact hs.tables
  · intro c' hc' p hpm
    obtain ⟨ρ, I, hp, hs, -, c, hc, e⟩ := h.component c' hc'
    rw [hp.load]
    exact hs.finite c hc p (e.parameters.mem_iff.1 hpm)
  · rw [hp.steps]; exact hs.block
  · rw [hp.steps]; exact hs.steps
  · rw [hp.scenarios]; exact hs.scenarios
  · intro c' hc' p hpm r hr
    obtain ⟨ρ, I, hp, hs, -, c, hc, e⟩ := h.component c' hc'
    exact hs.varying c hc p (e.parameters.mem_iff.1 hpm) r (by rw [← e.model]; exact hr)

theorem Covered.complete {I' : StudyInput} {libs : Dict String Library} (h : Covered I' (some libs)) : I'.Complete libs := by
  refine ⟨?_, ?_, ?_, ?_, ?_, ?_⟩
  · intro c' hc'
    obtain ⟨ρ, I, hp, hs, hC, c, hc, e⟩ := h.component c' hc'
    rw [e.model]
    exact (hC _ rfl).models c hc
  · intro c' hc' r hr q hq
    obtain ⟨ρ, I, hp, hs, hC, c, hc, e⟩ := h.component c' hc'
    obtain ⟨p, h1, h2⟩ := (hC _ rfl).parameters c hc r (by rw [← e.model]; exact hr) q hq
    exact ⟨p, e.parameters.mem_iff.2 h1, h2⟩
  · intro c' hc' p hpm
    obtain ⟨ρ, I, hp, hs, hC, c, hc, e⟩ := h.component c' hc'
    rw [hp.load]
    exact (hC _ rfl).readable c hc p (e.parameters.mem_iff.1 hpm)
  · intro c' hc' p hpm
    obtain ⟨ρ, I, hp, hs, hC, c, hc, e⟩ := h.component c' hc'
    rw [hp.load, hp.steps, hp.scenarios]
    exact (hC _ rfl).covered c hc p (e.parameters.mem_iff.1 hpm)
  · intro k' hk'
    obtain ⟨ρ, I, hp, hs, hC, k, hk, e⟩ := h.connection k' hk'
    have hj := (hC _ rfl).connections k hk
    obtain ⟨⟨c1, hc1, e1⟩, ⟨c2, hc2, e2⟩⟩ := hj.ends
    have r1 := hp.rulesOf hs h.ids hc1
    have r2 := hp.rulesOf hs h.ids hc2
    rw [e1] at r1
    rw [e2] at r2
    obtain ⟨a1, a2, fs1, fs2, g1, g2, g3, g4, g5, g6⟩ := hj
    rw [← r1] at g1
    rw [← r2] at g2
    cases e with
    | same => exact ⟨a1, a2, fs1, fs2, g1, g2, g3, g4, g5, g6⟩
    | flipped => exact ⟨a2, a1, fs2, fs1, g2, g1, g4, g3, g5.symm, fun f hf => (g6 f (by rw [g5]; exact hf)).symm⟩
  · intro c' hc' d hd t s ht hs'
    obtain ⟨ρ, I, hp, hs, hC, c, hc, e⟩ := h.component c' hc'
    rw [e.id, hp.own (σ := fun _ => 0) hs h.ids (fun _ _ _ _ _ => rfl) hc]
    exact (hC _ rfl).values c hc d (by rw [← e.model]; exact hd) t s (by rw [← hp.steps]; exact ht) (by rw [← hp.scenarios]; exact hs')

end StudyInput

end Verif
