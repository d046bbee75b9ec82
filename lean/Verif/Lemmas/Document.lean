import Verif.Spec.Document
import Verif.Lemmas.Basic
import Mathlib.Data.List.Nodup
import Mathlib.Data.List.Forall2

/-! Helper lemmas: how files are read. -/

namespace Verif
open Doc

theorem toKebab_idem (s : String) : toKebab (toKebab s) = toKebab s := by
  unfold toKebab
  rw [String.toList_ofList, List.map_map]
  congr 1
  apply List.map_congr_left
  intro c _
  by_cases h : c = '_'
  · simp [h]
  · simp [h]

/-- a text without `-` is determined by its other spelling -/
theorem toKebab_inj {a b : String} (ha : '-' ∉ a.toList) (hb : '-' ∉ b.toList) (h : toKebab a = toKebab b) : a = b := by
  unfold toKebab at h
  replace h := String.ofList_injective h
  apply String.toList_injective
  generalize a.toList = x at *
  generalize b.toList = y at *
  clear a b
  induction x generalizing y with
  | nil => cases y <;> simp_all
  | cons c x ih =>
    cases y with
    | nil => simp at h
    | cons d y =>
      simp only [List.map_cons, List.cons.injEq, List.mem_cons, not_or] at h ha hb
      rw [ih ha.2 y hb.2 h.2]
      congr 1
      have := h.1
      split_ifs at this with h1 h2 h2
      · rw [h1, h2]
      · exact absurd this hb.1
      · exact absurd this.symm ha.1
      · exact this

theorem clear_keys {l : Entries} (h : l.Clear) : (l.map (·.1)).Nodup := by
  have : l.map (fun e => e.1.map toKebab) = (l.map (·.1)).map (Option.map toKebab) := by rw [List.map_map]; rfl
  unfold Entries.Clear at h
  rw [this] at h
  exact h.of_map _

theorem lookup_iff {l : Entries} (h : (l.map (·.1)).Nodup) {k : String} {d : Doc} : lookup l k = some d ↔ (some k, d) ∈ l := by
  unfold lookup
  simp only [Option.map_eq_some_iff]
  constructor
  · rintro ⟨⟨k', d'⟩, h1, rfl⟩
    have h2 := List.find?_some h1
    have h3 := List.mem_of_find?_eq_some h1
    simp only [beq_iff_eq] at h2
    subst h2
    exact List.mem_reverse.1 h3
  · intro hm
    cases hf : l.reverse.find? fun e => e.1 == some k with
    | none =>
      have := List.find?_eq_none.1 hf _ (List.mem_reverse.2 hm)
      simp at this
    | some e =>
      have h2 := List.find?_some hf
      have h3 := List.mem_reverse.1 (List.mem_of_find?_eq_some hf)
      simp only [beq_iff_eq] at h2
      refine ⟨e, rfl, ?_⟩
      have := List.inj_on_of_nodup_map h h3 hm (by simpa using h2)
      rw [this]

theorem field_iff {l : Entries} (h : l.Clear) {n : String} {d : Doc} : field l n = some d ↔ l.Gives n d := by
  have hk := clear_keys h
  unfold field Entries.Gives
  split
  · next x hx =>
    rw [lookup_iff hk] at hx
    constructor
    · rintro h1
      cases h1
      exact .inl hx
    · rintro (h1 | h1)
      · rw [← lookup_iff hk] at h1 hx
        rw [← hx, h1]
      · have := List.inj_on_of_nodup_map h hx h1 (by simp [toKebab_idem])
        simp only [Prod.mk.injEq] at this
        rw [this.2]
  · next hx =>
    rw [lookup_iff hk]
    constructor
    · exact .inr
    · rintro (h1 | h1)
      · rw [← lookup_iff hk, hx] at h1
        cases h1
      · exact h1

theorem field_none {l : Entries} (h : l.Clear) {n : String} : field l n = none ↔ ¬ ∃ d, l.Gives n d := by
  rw [Option.eq_none_iff_forall_ne_some]
  simp only [ne_eq, field_iff h, not_exists]

theorem forbidExtra_iff {l : Entries} (h : l.Clear) {names : List String} {u : Unit} : forbidExtra names l = .ok u ↔ l.About names := by
  unfold forbidExtra Entries.About
  constructor
  · intro h1
    split_ifs at h1 with hc
    intro e he
    have := List.all_eq_true.1 hc e he
    obtain ⟨k, d⟩ := e
    cases k with
    | none => cases this
    | some k =>
      simp only [List.any_eq_true, Bool.or_eq_true, beq_iff_eq, Bool.and_eq_true] at this
      obtain ⟨n, hn, rfl | ⟨rfl, _⟩⟩ := this
      · exact ⟨n, hn, .inl rfl⟩
      · exact ⟨_, hn, .inr rfl⟩
  · intro ha
    rw [if_pos]
    rw [List.all_eq_true]
    intro e he
    obtain ⟨n, hn, hk⟩ := ha e he
    obtain ⟨k, d⟩ := e
    dsimp only at hk
    rcases hk with rfl | rfl
    · simp only [List.any_eq_true, Bool.or_eq_true, beq_iff_eq]
      exact ⟨n, hn, .inl rfl⟩
    · simp only [List.any_eq_true, Bool.or_eq_true, beq_iff_eq, Bool.and_eq_true, Option.isNone_iff_eq_none]
      by_cases hs : n = toKebab n
      · exact ⟨n, hn, .inl hs⟩
      · refine ⟨n, hn, .inr ⟨rfl, ?_⟩⟩
        rw [Option.eq_none_iff_forall_ne_some]
        intro x hx
        rw [lookup_iff (clear_keys h)] at hx
        have := List.inj_on_of_nodup_map h he hx (by simp [toKebab_idem])
        simp only [Prod.mk.injEq, Option.some.injEq] at this
        exact hs this.1

theorem Doc.Clear.entries {l : Entries} (h : (Doc.map l).Clear) : l.Clear := h l .here
theorem Doc.Clear.value {l : Entries} (h : (Doc.map l).Clear) {k} {x : Doc} (hx : (k, x) ∈ l) : x.Clear := fun _ hm => h _ (.value hx hm)
theorem Doc.Clear.gives {l : Entries} (h : (Doc.map l).Clear) {n} {x : Doc} (hx : l.Gives n x) : x.Clear := hx.elim h.value h.value
theorem Doc.Clear.item {l : List Doc} (h : (Doc.seq l).Clear) {x : Doc} (hx : x ∈ l) : x.Clear := fun _ hm => h _ (.item hx hm)

/-- trees without repeated keys are read as what they say, up to `v` -/
def ReadsAs {α β} (f : Doc → R α) (v : α → β) (P : β → Doc → Prop) : Prop := ∀ d, d.Clear → ∀ b, (∃ a, f d = .ok a ∧ v a = b) ↔ P b d

theorem readsAs_id {α} {f : Doc → R α} {P : α → Doc → Prop} (h : ∀ d, d.Clear → ∀ b, f d = .ok b ↔ P b d) : ReadsAs f id P := by
  intro d hd b
  rw [← h d hd]
  simp

theorem needs_iff {α β} {f : Doc → R α} {v : α → β} {P : β → Doc → Prop} (h : ReadsAs f v P) {l : Entries} (hl : (Doc.map l).Clear)
    {n : String} {b : β} : (∃ a, required l n f = .ok a ∧ v a = b) ↔ l.Needs n (P b) := by
  unfold required Entries.Needs
  cases hf : field l n with
  | none =>
    rw [field_none hl.entries] at hf
    simp only [reduceCtorEq, false_and, exists_false, false_iff]
    rintro ⟨d, hd, _⟩
    exact hf ⟨d, hd⟩
  | some x =>
    have hx := (field_iff hl.entries).1 hf
    dsimp only
    rw [h x (hl.gives hx)]
    constructor
    · exact fun hp => ⟨x, hx, hp⟩
    · rintro ⟨d, hd, hp⟩
      rw [← field_iff hl.entries, hf] at hd
      cases hd
      exact hp

theorem may_iff {α β} {f : Doc → R α} {v : α → β} {P : β → Doc → Prop} (h : ReadsAs f v P) {l : Entries} (hl : (Doc.map l).Clear)
    {n : String} {b dflt : β} : (∃ o, optional l n f = .ok o ∧ (o.map v).getD dflt = b) ↔ l.May n (P b) (b = dflt) := by
  unfold Doc.optional Entries.May
  cases hf : field l n with
  | none =>
    rw [field_none hl.entries] at hf
    simp only [Except.ok.injEq, exists_eq_left', Option.map_none, Option.getD_none]
    constructor
    · rintro rfl; exact .inr ⟨hf, rfl⟩
    · rintro (⟨d, hd, _⟩ | ⟨_, rfl⟩)
      · exact absurd ⟨d, hd⟩ hf
      · rfl
  | some x =>
    have hx := (field_iff hl.entries).1 hf
    simp only [bind_ok_iff, Except.ok.injEq]
    constructor
    · rintro ⟨o, ⟨a, ha, rfl⟩, rfl⟩
      exact .inl ⟨x, hx, (h x (hl.gives hx) _).1 ⟨a, ha, rfl⟩⟩
    · rintro (⟨d, hd, hp⟩ | ⟨hn, _⟩)
      · rw [← field_iff hl.entries, hf] at hd
        cases hd
        obtain ⟨a, ha, hv⟩ := (h x (hl.gives hx) _).2 hp
        exact ⟨_, ⟨a, ha, rfl⟩, hv⟩
      · exact absurd ⟨x, hx⟩ hn

theorem readsAs_text : ReadsAs text id SaysText := by
  refine readsAs_id fun d _ b => ?_
  unfold SaysText
  cases d <;> simp [text]

theorem readsAs_textOrNumber (num : Num → String) : ReadsAs (textOrNumber num) id (SaysTextOrNumber num) := by
  refine readsAs_id fun d _ b => ?_
  unfold SaysTextOrNumber
  cases d <;> simp [textOrNumber, eq_comm]

theorem orInvalid_ok {α} {o : Option α} {a : α} : orInvalid o = .ok a ↔ o = some a := by
  cases o <;> simp [orInvalid]

theorem readsAs_bool (L : Lenient) : ReadsAs (boolean L) id (SaysBool L) := by
  refine readsAs_id fun d _ b => ?_
  unfold SaysBool
  cases d <;> simp [boolean, orInvalid_ok]

theorem readsAs_value (L : Lenient) : ReadsAs (numberOrText L) id (SaysValue L) := by
  refine readsAs_id fun d _ b => ?_
  unfold SaysValue
  cases b with
  | number x =>
    cases d with
    | bool b =>
      cases hb : L.number b <;> simp [numberOrText, hb, orInvalid]
    | _ => simp [numberOrText, eq_comm]
  | name s =>
    cases d with
    | bool b =>
      cases hb : L.number b <;> simp [numberOrText, hb, orInvalid]
    | _ => simp [numberOrText]

theorem readsAs_orNull {α β} {f : Doc → R α} {v : α → β} {P : β → Doc → Prop} (h : ReadsAs f v P) :
    ReadsAs (orNull f) (Option.map v) (SaysOption P) := by
  intro d hd b
  unfold SaysOption
  by_cases hn : d = .null
  · subst hn
    simp only [orNull, Except.ok.injEq, exists_eq_left', Option.map_none, true_and, ne_eq, not_true_eq_false, false_and, and_false,
      exists_false, or_false]
    exact eq_comm
  · have : orNull f d = (do let a ← f d; .ok (some a)) := by cases d <;> first | rfl | exact absurd rfl hn
    rw [this]
    simp only [bind_ok_iff, Except.ok.injEq, hn, false_and, false_or, ne_eq, not_false_eq_true, true_and]
    constructor
    · rintro ⟨o, ⟨a, ha, rfl⟩, rfl⟩
      exact ⟨_, rfl, (h d hd _).1 ⟨a, ha, rfl⟩⟩
    · rintro ⟨a, rfl, hp⟩
      obtain ⟨a', ha, rfl⟩ := (h d hd _).2 hp
      exact ⟨_, ⟨a', ha, rfl⟩, rfl⟩

theorem readsAs_list {α β} {f : Doc → R α} {v : α → β} {P : β → Doc → Prop} (h : ReadsAs f v P) : ReadsAs (listOf f) (List.map v) (SaysList P) := by
  intro d hd b
  unfold SaysList
  cases d with
  | seq l =>
    simp only [listOf, appendAll_ok_iff, Doc.seq.injEq, exists_eq_left']
    have hi : ∀ x ∈ l, x.Clear := fun x hx => hd.item hx
    clear hd
    induction l generalizing b with
    | nil =>
      simp only [List.forall₂_nil_left_iff, exists_eq_left, List.map_nil, List.forall₂_nil_right_iff]
      exact eq_comm
    | cons x l ih =>
      constructor
      · rintro ⟨as, ha, rfl⟩
        cases ha with
        | cons h1 h2 =>
          exact .cons ((h x (hi x List.mem_cons_self) _).1 ⟨_, h1, rfl⟩)
            ((ih _ fun y hy => hi y (List.mem_cons_of_mem _ hy)).1 ⟨_, h2, rfl⟩)
      · intro hb
        cases hb with
        | cons h1 h2 =>
          obtain ⟨a, ha, rfl⟩ := (h x (hi x List.mem_cons_self) _).2 h1
          obtain ⟨as, has, rfl⟩ := (ih _ fun y hy => hi y (List.mem_cons_of_mem _ hy)).2 h2
          exact ⟨_, .cons ha has, rfl⟩
  | _ => simp [listOf]

theorem readsAs_map {α β} {v : α → β} {g : Entries → R α} {P : β → Entries → Prop}
    (h : ∀ l : Entries, (Doc.map l).Clear → ∀ b, (∃ a, g l = .ok a ∧ v a = b) ↔ P b l) :
    ReadsAs (fun d => do let l ← entries d; g l) v (fun b d => ∃ l : Entries, d = .map l ∧ P b l) := by
  intro d hd b
  cases d with
  | map l =>
    simp only [entries, ok_bind, Doc.map.injEq, exists_eq_left']
    exact h l hd b
  | _ =>
    simp only [entries, reduceCtorEq, false_and, exists_false, iff_false]
    rintro ⟨a, ha, _⟩
    cases ha

/-- the value of a field that is only checked -/
theorem checked_iff {α β} {f : Doc → R α} {v : α → β} {P : β → Doc → Prop} (h : ReadsAs f v P) {l : Entries} (hl : (Doc.map l).Clear)
    {n : String} : (∃ o, optional l n f = .ok o) ↔ l.May n (fun x => ∃ b, P b x) True := by
  unfold Doc.optional Entries.May
  cases hf : field l n with
  | none =>
    rw [field_none hl.entries] at hf
    simp [hf]
  | some x =>
    have hx := (field_iff hl.entries).1 hf
    simp only [bind_ok_iff, Except.ok.injEq]
    constructor
    · rintro ⟨o, a, ha, rfl⟩
      exact .inl ⟨x, hx, _, (h x (hl.gives hx) _).1 ⟨a, ha, rfl⟩⟩
    · rintro (⟨d, hd, b, hp⟩ | ⟨hn, _⟩)
      · rw [← field_iff hl.entries, hf] at hd
        cases hd
        obtain ⟨a, ha, hv⟩ := (h x (hl.gives hx) _).2 hp
        exact ⟨_, a, ha, rfl⟩
      · exact absurd ⟨x, hx⟩ hn

end Verif
