import Verif.Lemmas.StudyMeaning
import Verif.Lemmas.PypsaAccept
import Verif.Spec.ShippedComplete
import Verif.Spec.AntaresProblem

/-!
# Studies given by lists of items

A converted study is described by a list of items: what each declared component is meant to be.  From such a description, everything that
the study says can be read off: this does not depend on where the study comes from.
-/

namespace Verif

/-- a parameter: a number, or the name of a table with values for all hours, and for all scenarios or not -/
inductive ItemParam where
  | num (v : Num)
  | file (name : String) (scen : Bool)

/-- what a declared component is meant to be -/
structure StudyItem where
  id : String
  ref : String
  params : List (String × ItemParam)

/-- `p` is the parameter -/
def IsItemParam (x : String × ItemParam) (p : InputParam) : Prop :=
  p.id = x.1 ∧
  match x.2 with
  | .num v => p.timeDependent = false ∧ p.scenarioDependent = false ∧ p.value = .number v
  | .file n b => p.timeDependent = true ∧ p.scenarioDependent = b ∧ p.value = .name n

/-- `c` is the item -/
def IsItem (it : StudyItem) (c : InputComponent) : Prop :=
  c.id = it.id ∧ c.model = it.ref ∧ List.Forall₂ IsItemParam it.params c.parameters

/-- the values of a parameter are there for `T` hours and `S` scenarios -/
def ItemParam.Good (load : String → R Frame) (T S : Nat) : ItemParam → Prop
  | .num v => v.isFin = true
  | .file n b => ∃ f, load n = .ok f ∧ f.Finite ∧ T ≤ f.rows.length ∧ if b = true then S ≤ f.width else f.width = 1

/-- the value of a parameter -/
def ItemParam.value (load : String → R Frame) (t s : Nat) : ItemParam → ℚ
  | .num v => v.toQ
  | .file n b => match load n with
    | .ok f => cellAt f t (if b = true then s else 0)
    | .error _ => 0

/-- The study is described by the items. -/
structure Items (I : StudyInput) (T S : Nat) (items : List StudyItem) : Prop where
  declared : List.Forall₂ IsItem items I.declared
  ids : (items.map (·.id)).Nodup
  params : ∀ it ∈ items, (it.params.map (·.1)).Nodup
  steps : I.steps = (List.range T).map Int.ofNat
  scenarios : I.scenarios = S
  hours : 0 < T
  some_scenario : 0 < S
  tables : ∀ n f, I.load n = .ok f → f.Rectangular
  good : ∀ it ∈ items, ∀ x ∈ it.params, x.2.Good I.load T S
  /-- the model exists, and a parameter varies only if the model says so -/
  rules : ∀ it ∈ items, ∃ R, Rules.named it.ref = some R ∧ ∀ q ∈ R.parameters, ∀ x ∈ it.params, x.1 = q.1 →
    ∀ n b, x.2 = .file n b → q.2.1 = true ∧ (b = true → q.2.2 = true)

namespace Items
variable {I : StudyInput} {T S : Nat} {items : List StudyItem}

theorem of_item (h : Items I T S items) {it : StudyItem} (hi : it ∈ items) : ∃ c ∈ I.declared, IsItem it c := forall₂_left h.declared hi

theorem of_declared (h : Items I T S items) {c : InputComponent} (hc : c ∈ I.declared) : ∃ it ∈ items, IsItem it c :=
  forall₂_right h.declared hc

theorem params_ids {it : StudyItem} {c : InputComponent} (hc : IsItem it c) : c.parameters.map (·.id) = it.params.map (·.1) := by
  have := hc.2.2
  generalize it.params = l at this
  generalize c.parameters = ps at this
  induction this with
  | nil => rfl
  | cons h _ ih => rw [List.map_cons, List.map_cons, ih, h.1]

theorem declared_ids (h : Items I T S items) : I.declared.map (·.id) = items.map (·.id) := by
  have := h.declared
  clear h
  generalize I.declared = l at this
  induction this with
  | nil => rfl
  | cons h _ ih => rw [List.map_cons, List.map_cons, ih, h.1]

theorem length_steps (h : Items I T S items) : I.steps.length = T := by rw [h.steps]; simp

theorem frame_cell {f : Frame} (hf : f.Finite) {t s : Nat} (ht : t < f.rows.length) (hs : s < f.width) :
    ∃ q : ℚ, f.at t s = some (.fin q) ∧ cellAt f t s = q := by
  have hrow := hf (f.rows[t]) (List.getElem_mem ht)
  have hs' : s < (f.rows[t]).length := by rw [hrow.1]; exact hs
  obtain ⟨q, hq⟩ := hrow.2 _ (List.getElem_mem hs')
  have : f.at t s = some (.fin q) := by
    unfold Frame.at
    rw [List.getElem?_eq_getElem ht, Option.bind_some, List.getElem?_eq_getElem hs', hq]
  exact ⟨q, this, by unfold cellAt; rw [this]; rfl⟩

theorem atPos_nat {α} (l : List α) (i : Nat) : atPos l (i : Int) = l[i]? := by
  simp [atPos]

/-- the value that is declared -/
theorem entry (h : Items I T S items) {it : StudyItem} (hi : it ∈ items) {x : String × ItemParam} (hx : x ∈ it.params) {p : InputParam}
    (hp : IsItemParam x p) {t s : Nat} (ht : t < T) (hs : s < S) :
    ∃ q : ℚ, declaredEntry I.load p t s = some (.fin q) ∧ q = x.2.value I.load t s := by
  have hg := h.good it hi x hx
  obtain ⟨-, hp⟩ := hp
  cases hv : x.2 with
  | num v =>
    rw [hv] at hg hp
    obtain ⟨-, -, hval⟩ := hp
    cases v with
    | fin q =>
      refine ⟨q, ?_, rfl⟩
      unfold declaredEntry
      rw [hval]
    | _ => simp [ItemParam.Good, Num.isFin] at hg
  | file n b =>
    rw [hv] at hg hp
    obtain ⟨htd, hsd, hval⟩ := hp
    obtain ⟨f, hl, hf, h1, h2⟩ := hg
    have hs' : (if b = true then s else 0) < f.width := by
      split_ifs at h2 ⊢ with hb
      · omega
      · omega
    obtain ⟨q, hq, hc⟩ := frame_cell hf (by omega : t < f.rows.length) hs'
    refine ⟨q, ?_, ?_⟩
    · unfold declaredEntry
      rw [hval]
      simp only [hl, htd, hsd, if_true]
      rw [show (if b = true then (s : Int) else 0) = ((if b = true then s else 0 : Nat) : Int) by split_ifs <;> rfl]
      rw [atPos_nat]
      unfold Frame.at at hq
      simp only [atPos_nat]
      exact hq
    · simp only [ItemParam.value, hl]
      exact hc.symm

theorem sound (h : Items I T S items) : I.Sound where
  ids := by rw [h.declared_ids]; exact h.ids
  parameters := by
    intro c hc
    obtain ⟨it, hi, hc⟩ := h.of_declared hc
    rw [params_ids hc]
    exact h.params it hi
  tables := h.tables
  finite := by
    intro c hc p hp t s v hv
    obtain ⟨it, hi, hc⟩ := h.of_declared hc
    obtain ⟨x, hx, hp⟩ := forall₂_right hc.2.2 hp
    have hg := h.good it hi x hx
    obtain ⟨-, hp⟩ := hp
    cases hxv : x.2 with
    | num w =>
      rw [hxv] at hg hp
      unfold declaredEntry at hv
      rw [hp.2.2] at hv
      cases hv
      exact hg
    | file n b =>
      rw [hxv] at hg hp
      obtain ⟨f, hl, hf, -⟩ := hg
      unfold declaredEntry at hv
      rw [hp.2.2] at hv
      simp only [hl] at hv
      obtain ⟨row, h1, h2⟩ := Option.bind_eq_some_iff.1 hv
      have m : ∀ {α} {l : List α} {i : Int} {x : α}, atPos l i = some x → x ∈ l := by
        intro α l i x h
        unfold atPos at h
        split at h
        · exact List.mem_of_getElem? h
        · cases h
      obtain ⟨q, rfl⟩ := (hf row (m h1)).2 v (m h2)
      rfl
  block := by
    have := h.hours
    intro h0
    have := congrArg List.length h0
    rw [h.length_steps] at this
    simp at this
    omega
  steps := by
    intro t ht
    rw [h.steps] at ht
    obtain ⟨i, -, rfl⟩ := List.mem_map.1 ht
    exact Int.natCast_nonneg i
  scenarios := by rw [h.scenarios]; exact h.some_scenario
  varying := by
    intro c hc p hp R hR q hq hqp
    obtain ⟨it, hi, hc⟩ := h.of_declared hc
    obtain ⟨x, hx, hp⟩ := forall₂_right hc.2.2 hp
    obtain ⟨R', hR', hv⟩ := h.rules it hi
    rw [hc.2.1, hR'] at hR
    cases hR
    obtain ⟨hid, hp⟩ := hp
    cases hxv : x.2 with
    | num w =>
      rw [hxv] at hp
      exact ⟨fun h => absurd (hp.1.symm.trans h) (by simp), fun h => absurd (hp.2.1.symm.trans h) (by simp)⟩
    | file n b =>
      rw [hxv] at hp
      have := hv q hq x hx (by rw [hqp, hid]) n b hxv
      exact ⟨fun _ => this.1, fun hb => this.2 (hp.2.1.symm.trans hb)⟩

theorem component? (h : Items I T S items) {it : StudyItem} (hi : it ∈ items) : ∃ c, I.component? it.id = some c ∧ IsItem it c ∧ c ∈ I.declared := by
  obtain ⟨c, hc, h1⟩ := h.of_item hi
  refine ⟨c, ?_, h1, hc⟩
  rw [← h1.1]
  exact StudyInput.component?_of_mem h.sound hc

theorem rulesOf (h : Items I T S items) {it : StudyItem} (hi : it ∈ items) : I.rulesOf it.id = Rules.named it.ref := by
  obtain ⟨c, h1, h2, -⟩ := h.component? hi
  unfold StudyInput.rulesOf
  rw [h1, Option.bind_some, h2.2.1]

theorem step_eq (h : Items I T S items) (t : Int) : I.step t = (t % T).toNat := by
  have h0 : 0 ≤ t % T := Int.emod_nonneg _ (by have := h.hours; omega)
  have h1 : t % T < T := Int.emod_lt_of_pos _ (by have := h.hours; omega)
  unfold StudyInput.step
  rw [h.length_steps, h.steps]
  have : (t % T).toNat < T := by omega
  simp [this]

/-- the value of a parameter at a position of the cyclic block -/
theorem parameter (h : Items I T S items) {it : StudyItem} (hi : it ∈ items) {x : String × ItemParam} (hx : x ∈ it.params) (t : Int) {s : Nat}
    (hs : s < S) : I.parameter it.id x.1 t s = x.2.value I.load (t % T).toNat s := by
  obtain ⟨c, h1, h2, h3⟩ := h.component? hi
  obtain ⟨p, hp, hpa⟩ := forall₂_left h2.2.2 hx
  have hf := find?_of_nodup (f := InputParam.id) (h.sound.parameters c h3) hp
  unfold StudyInput.parameter
  rw [h1, Option.bind_some]
  rw [hpa.1] at hf
  rw [hf]
  have h1 : t % T < T := Int.emod_lt_of_pos _ (by have := h.hours; omega)
  have h2 : 0 ≤ t % T := Int.emod_nonneg _ (by have := h.hours; omega)
  obtain ⟨q, hq, hv⟩ := h.entry hi hx hpa (t := (t % T).toNat) (by omega) hs
  simp only [h.step_eq, hq]
  exact hv

theorem parameter_nat (h : Items I T S items) {it : StudyItem} (hi : it ∈ items) {x : String × ItemParam} (hx : x ∈ it.params) {t s : Nat}
    (ht : t < T) (hs : s < S) : I.parameter it.id x.1 t s = x.2.value I.load t s := by
  rw [h.parameter hi hx t hs, Int.emod_eq_of_lt (Int.natCast_nonneg t) (by exact_mod_cast ht), Int.toNat_natCast]

/-- a variable of an item -/
theorem instance_ (h : Items I T S items) {it : StudyItem} (hi : it ∈ items) {R : Rules} (hR : Rules.named it.ref = some R) {v : String}
    (hv : R.variables_.find? (fun x => x.1 = v) = some (v, true, true)) (t s : Int) :
    I.instance_ it.id v t s = ⟨it.id, v, some (t % T), some s⟩ := by
  unfold StudyInput.instance_
  rw [h.rulesOf hi, hR, h.length_steps, Option.bind_some, hv]
  rfl

/-- what a complete study needs, apart from connections and values -/
theorem complete (h : Items I T S items) {libs : Dict String Library}
    (hlib : ∀ it ∈ items, (Dict.get? libs (Rules.libraryOf it.ref)).isSome = true)
    (hpar : ∀ it ∈ items, ∀ R, Rules.named it.ref = some R → ∀ q ∈ R.parameters, q.1 ∈ it.params.map (·.1))
    (hconn : ∀ k ∈ I.system.connections, I.Joins k)
    (hval : ∀ it ∈ items, ∀ d, (it.ref, d) ∈ Rules.needs → ∀ t s : Nat, t < T → s < S → d (I.own (fun _ => 0) it.id) t s) :
    I.Complete libs where
  models := by
    intro c hc
    obtain ⟨it, hi, hc⟩ := h.of_declared hc
    rw [hc.2.1]
    obtain ⟨R, hR, -⟩ := h.rules it hi
    exact ⟨⟨R, hR⟩, hlib it hi⟩
  parameters := by
    intro c hc R hR q hq
    obtain ⟨it, hi, hc⟩ := h.of_declared hc
    rw [hc.2.1] at hR
    have := hpar it hi R hR q hq
    rw [← params_ids hc] at this
    exact List.mem_map.1 this
  readable := by
    intro c hc p hp
    obtain ⟨it, hi, hc⟩ := h.of_declared hc
    obtain ⟨x, hx, hp⟩ := forall₂_right hc.2.2 hp
    have hg := h.good it hi x hx
    obtain ⟨-, hp⟩ := hp
    unfold InputParam.Readable
    cases hxv : x.2 with
    | num w =>
      rw [hxv] at hp
      rw [hp.2.2]
      exact ⟨hp.1, hp.2.1⟩
    | file n b =>
      rw [hxv] at hg hp
      rw [hp.2.2]
      obtain ⟨f, hl, -, -, hw⟩ := hg
      refine ⟨.inl hp.1, f, hl, fun hb => ?_, fun ht => absurd (hp.1.symm.trans ht) (by simp)⟩
      rw [if_neg] at hw
      · exact hw
      · rw [← hp.2.1, hb]
        simp
  covered := by
    intro c hc p hp t ht s hs
    obtain ⟨it, hi, hc⟩ := h.of_declared hc
    obtain ⟨x, hx, hp⟩ := forall₂_right hc.2.2 hp
    rw [h.steps] at ht
    obtain ⟨i, hit, rfl⟩ := List.mem_map.1 ht
    rw [h.scenarios] at hs
    obtain ⟨q, hq, -⟩ := h.entry hi hx hp (List.mem_range.1 hit) hs
    exact ⟨_, hq⟩
  connections := hconn
  values := by
    intro c hc d hd t s ht hs
    obtain ⟨it, hi, hc⟩ := h.of_declared hc
    rw [hc.1]
    rw [h.length_steps] at ht
    rw [h.scenarios] at hs
    exact hval it hi d (hc.2.1 ▸ hd) t s ht hs

end Items
end Verif
