import Verif.Lemmas.Document

/-! Helper lemmas: the order and the spelling of keys do not matter. -/

namespace Verif
open Doc

/-- entry by entry: the same keys up to the spelling, the same data -/
def SameKey (k k' : Option String) : Prop :=
  k = k' ∨ ∃ a, '-' ∉ a.toList ∧ ((k = some a ∧ k' = some (toKebab a)) ∨ (k = some (toKebab a) ∧ k' = some a))

theorem SameKey.symm {k k'} (h : SameKey k k') : SameKey k' k := by
  rcases h with h | ⟨a, ha, ⟨h1, h2⟩ | ⟨h1, h2⟩⟩
  · exact .inl h.symm
  · exact .inr ⟨a, ha, .inr ⟨h2, h1⟩⟩
  · exact .inr ⟨a, ha, .inl ⟨h2, h1⟩⟩

theorem SameKey.kebab {k k'} (h : SameKey k k') : k.map toKebab = k'.map toKebab := by
  rcases h with h | ⟨a, ha, ⟨h1, h2⟩ | ⟨h1, h2⟩⟩
  · rw [h]
  · rw [h1, h2, Option.map_some, Option.map_some, toKebab_idem]
  · rw [h1, h2, Option.map_some, Option.map_some, toKebab_idem]

theorem SameKey.about {k k'} (h : SameKey k k') {n : String} (hn : '-' ∉ n.toList) (hk : k = some (toKebab n) ∨ k = some n) :
    k' = some (toKebab n) ∨ k' = some n := by
  rcases h with rfl | ⟨a, ha, ⟨rfl, rfl⟩ | ⟨rfl, rfl⟩⟩
  · exact hk
  · left
    rcases hk with hk | hk
    · cases hk
      rw [toKebab_idem]
    · cases hk
      rfl
  · right
    rcases hk with hk | hk
    · rw [toKebab_inj ha hn (Option.some.inj hk)]
    · have : n = toKebab a := (Option.some.inj hk).symm
      have h2 : toKebab a = toKebab n := by rw [this, toKebab_idem]
      rw [toKebab_inj ha hn h2]

theorem sameItems_forall₂ : ∀ {l l'}, SameItems l l' → List.Forall₂ Same l l'
  | _, _, .nil => .nil
  | _, _, .cons h t => .cons h (sameItems_forall₂ t)

theorem sameEntries_forall₂ : ∀ {l l'}, SameEntries l l' → List.Forall₂ (fun e e' => SameKey e.1 e'.1 ∧ Same e.2 e'.2) l l'
  | _, _, .nil => .nil
  | _, _, .cons h t => .cons ⟨.inl rfl, h⟩ (sameEntries_forall₂ t)
  | _, _, .kebab (k := k) hk h t => .cons ⟨.inr ⟨k, hk, .inl ⟨rfl, rfl⟩⟩, h⟩ (sameEntries_forall₂ t)
  | _, _, .snake (k := k) hk h t => .cons ⟨.inr ⟨k, hk, .inr ⟨rfl, rfl⟩⟩, h⟩ (sameEntries_forall₂ t)

/-- two mappings with the same data -/
structure SameMaps (l l' : Entries) : Prop where
  clear : l.Clear
  clear' : l'.Clear
  there : ∀ e ∈ l, ∃ e' ∈ l', SameKey e.1 e'.1 ∧ Same e.2 e'.2
  back : ∀ e' ∈ l', ∃ e ∈ l, SameKey e.1 e'.1 ∧ Same e.2 e'.2

theorem forall₂_mem_left {α β} {r : α → β → Prop} {l : List α} {l' : List β} (h : List.Forall₂ r l l') : ∀ a ∈ l, ∃ b ∈ l', r a b := by
  induction h with
  | nil => simp
  | cons h1 _ ih =>
    intro a ha
    rcases List.mem_cons.1 ha with rfl | ha
    · exact ⟨_, List.mem_cons_self, h1⟩
    · obtain ⟨b, hb, hr⟩ := ih a ha
      exact ⟨b, List.mem_cons_of_mem _ hb, hr⟩

theorem sameMaps {l m l' : Entries} (hl : l.Clear) (hp : l.Perm m) (he : SameEntries m l') : SameMaps l l' := by
  have h := sameEntries_forall₂ he
  refine ⟨hl, ?_, ?_, ?_⟩
  · have hm : m.Clear := (hp.map _).nodup_iff.1 hl
    unfold Entries.Clear at hm ⊢
    have : (m.map fun e => e.1.map toKebab) = l'.map fun e => e.1.map toKebab := by
      clear he hp hm
      induction h with
      | nil => rfl
      | cons h1 _ ih => rw [List.map_cons, List.map_cons, ih, h1.1.kebab]
    rwa [this] at hm
  · intro e hx
    exact forall₂_mem_left h e (hp.mem_iff.1 hx)
  · intro e' hx
    obtain ⟨e, h1, h2⟩ := forall₂_mem_left h.flip e' hx
    exact ⟨e, hp.mem_iff.2 h1, h2⟩

theorem SameMaps.gives {l l' : Entries} (h : SameMaps l l') {n : String} (hn : '-' ∉ n.toList) {d : Doc} (hd : l.Gives n d) :
    ∃ d', l'.Gives n d' ∧ Same d d' := by
  have key : ∀ k, (k = some (toKebab n) ∨ k = some n) → (k, d) ∈ l → ∃ d', l'.Gives n d' ∧ Same d d' := by
    intro k hk hm
    obtain ⟨⟨k', d'⟩, hm', hs, hd'⟩ := h.there _ hm
    refine ⟨d', ?_, hd'⟩
    rcases hs.about hn hk with rfl | rfl
    · exact .inl hm'
    · exact .inr hm'
  exact hd.elim (key _ (.inl rfl)) (key _ (.inr rfl))

theorem SameMaps.gives_back {l l' : Entries} (h : SameMaps l l') {n : String} (hn : '-' ∉ n.toList) {d' : Doc} (hd : l'.Gives n d') :
    ∃ d, l.Gives n d := by
  have key : ∀ k, (k = some (toKebab n) ∨ k = some n) → (k, d') ∈ l' → ∃ d, l.Gives n d := by
    intro k hk hm
    obtain ⟨⟨k', d⟩, hm', hs, hd'⟩ := h.back _ hm
    refine ⟨d, ?_⟩
    rcases hs.symm.about hn hk with rfl | rfl
    · exact .inl hm'
    · exact .inr hm'
  exact hd.elim (key _ (.inl rfl)) (key _ (.inr rfl))

/-- what is read does not change with the order or spelling of keys -/
def Respects {α} (f : Doc → R α) : Prop := ∀ d d', d.Clear → Same d d' → f d = f d'

theorem SameMaps.field {l l' : Entries} (h : SameMaps l l') {n : String} (hn : '-' ∉ n.toList) :
    (field l n = none ∧ field l' n = none) ∨ ∃ d d', field l n = some d ∧ field l' n = some d' ∧ l.Gives n d ∧ Same d d' := by
  cases hf : Doc.field l n with
  | none =>
    left
    refine ⟨rfl, ?_⟩
    rw [field_none h.clear] at hf
    rw [field_none h.clear']
    rintro ⟨d', hd'⟩
    exact hf (h.gives_back hn hd')
  | some d =>
    right
    have hd := (field_iff h.clear).1 hf
    obtain ⟨d', h1, h2⟩ := h.gives hn hd
    exact ⟨d, d', rfl, (field_iff h.clear').2 h1, hd, h2⟩

theorem SameMaps.required {α} {f : Doc → R α} (hf : Respects f) {l l' : Entries} (h : SameMaps l l') (hc : (Doc.map l).Clear) (n : String)
    (hn : '-' ∉ n.toList) : Doc.required l n f = Doc.required l' n f := by
  unfold Doc.required
  rcases h.field hn with ⟨h1, h2⟩ | ⟨d, d', h1, h2, hg, hs⟩
  · rw [h1, h2]
  · rw [h1, h2]
    exact hf d d' (hc.gives hg) hs

theorem SameMaps.optional {α} {f : Doc → R α} (hf : Respects f) {l l' : Entries} (h : SameMaps l l') (hc : (Doc.map l).Clear) (n : String)
    (hn : '-' ∉ n.toList) : Doc.optional l n f = Doc.optional l' n f := by
  unfold Doc.optional
  rcases h.field hn with ⟨h1, h2⟩ | ⟨d, d', h1, h2, hg, hs⟩
  · rw [h1, h2]
  · rw [h1, h2]
    dsimp only
    rw [hf d d' (hc.gives hg) hs]

theorem SameMaps.forbidExtra {l l' : Entries} (h : SameMaps l l') (names : List String) (hn : ∀ n ∈ names, '-' ∉ n.toList) :
    Doc.forbidExtra names l = Doc.forbidExtra names l' := by
  have key : l.About names ↔ l'.About names := by
    constructor
    · intro ha e' he'
      obtain ⟨e, he, hk, _⟩ := h.back e' he'
      obtain ⟨n, hm, hk'⟩ := ha e he
      exact ⟨n, hm, hk.about (hn n hm) hk'⟩
    · intro ha e he
      obtain ⟨e', he', hk, _⟩ := h.there e he
      obtain ⟨n, hm, hk'⟩ := ha e' he'
      exact ⟨n, hm, hk.symm.about (hn n hm) hk'⟩
  rw [← forbidExtra_iff h.clear (u := ()), ← forbidExtra_iff h.clear' (u := ())] at key
  have : ∀ l : Entries, Doc.forbidExtra names l = .ok () ∨ Doc.forbidExtra names l = .error invalid := by
    intro l
    unfold Doc.forbidExtra
    split_ifs
    · exact .inl rfl
    · exact .inr rfl
  rcases this l with h1 | h1 <;> rcases this l' with h2 | h2 <;> rw [h1, h2] at key ⊢ <;> simp at key

theorem respects_scalar {α} {f : Doc → R α} (hs : ∀ l l', f (.seq l) = f (.seq l')) (hm : ∀ l l', f (.map l) = f (.map l')) : Respects f := by
  intro d d' _ h
  cases h with
  | refl => rfl
  | seq _ => exact hs _ _
  | map _ _ => exact hm _ _

theorem respects_text : Respects text := respects_scalar (fun _ _ => rfl) fun _ _ => rfl
theorem respects_textOrNumber (num : Num → String) : Respects (textOrNumber num) := respects_scalar (fun _ _ => rfl) fun _ _ => rfl
theorem respects_boolean (L : Lenient) : Respects (boolean L) := respects_scalar (fun _ _ => rfl) fun _ _ => rfl
theorem respects_value (L : Lenient) : Respects (numberOrText L) := respects_scalar (fun _ _ => rfl) fun _ _ => rfl

theorem respects_orNull {α} {f : Doc → R α} (hf : Respects f) : Respects (orNull f) := by
  intro d d' hc h
  have := hf d d' hc h
  cases h with
  | refl => rfl
  | seq _ => show (do let a ← f _; _) = (do let a ← f _; _); rw [this]
  | map _ _ => show (do let a ← f _; _) = (do let a ← f _; _); rw [this]

theorem respects_list {α} {f : Doc → R α} (hf : Respects f) : Respects (listOf f) := by
  intro d d' hc h
  cases h with
  | refl => rfl
  | map _ _ => rfl
  | seq hi =>
    next l l' =>
    show appendAll f l = appendAll f l'
    have hi' := sameItems_forall₂ hi
    have hc' : ∀ x ∈ l, x.Clear := fun x hx => hc.item hx
    clear hi hc
    induction hi' with
    | nil => rfl
    | cons h1 _ ih =>
      rw [appendAll_cons, appendAll_cons, hf _ _ (hc' _ List.mem_cons_self) h1, ih fun x hx => hc' x (List.mem_cons_of_mem _ hx)]

theorem respects_map {α} {g : Entries → R α} (h : ∀ l l' : Entries, SameMaps l l' → (Doc.map l).Clear → g l = g l') :
    Respects (fun d => do let l ← entries d; g l) := by
  intro d d' hc hs
  cases hs with
  | refl => rfl
  | seq _ => rfl
  | map hp he => exact h _ _ (sameMaps hc.entries hp he) hc

theorem respects_connection : Respects readConnection := by
  refine respects_map fun l l' h hc => ?_
  have T := h.required respects_text hc
  rw [h.forbidExtra _ (by decide), T "component1" (by decide), T "port1" (by decide), T "component2" (by decide), T "port2" (by decide)]

theorem respects_param (L : Lenient) : Respects (readParam L) := by
  refine respects_map fun l l' h hc => ?_
  have B := h.optional (respects_boolean L) hc
  rw [h.forbidExtra _ (by decide), h.required respects_text hc "id" (by decide), B "time_dependent" (by decide),
    B "scenario_dependent" (by decide), h.required (respects_value L) hc "value" (by decide),
    h.optional (respects_orNull respects_text) hc "scenario_group" (by decide)]

theorem respects_component (L : Lenient) : Respects (readComponent L) := by
  refine respects_map fun l l' h hc => ?_
  have T := h.required respects_text hc
  rw [h.forbidExtra _ (by decide), T "id" (by decide), T "model" (by decide),
    h.optional (respects_orNull respects_text) hc "scenario_group" (by decide),
    h.optional (respects_orNull (respects_list (respects_param L))) hc "parameters" (by decide)]

theorem respects_system (L : Lenient) : Respects (readSystem L) := by
  refine respects_map fun l l' h hc => ?_
  have C := h.optional (respects_list (respects_component L)) hc
  rw [h.forbidExtra _ (by decide), h.optional (respects_orNull respects_text) hc "model_libraries" (by decide), C "nodes" (by decide),
    C "components" (by decide), h.optional (respects_list respects_connection) hc "connections" (by decide)]

theorem respects_parameter (L : Lenient) : Respects (readParameter L) := by
  refine respects_map fun l l' h hc => ?_
  have B := h.optional (respects_boolean L) hc
  rw [h.forbidExtra _ (by decide), h.required respects_text hc "id" (by decide), B "time_dependent" (by decide),
    B "scenario_dependent" (by decide)]

theorem respects_variable (L : Lenient) (num : Num → String) : Respects (readVariable L num) := by
  refine respects_map fun l l' h hc => ?_
  have B := h.optional (respects_boolean L) hc
  have O := h.optional (respects_orNull (respects_textOrNumber num)) hc
  rw [h.forbidExtra _ (by decide), h.required (respects_textOrNumber num) hc "id" (by decide), B "time_dependent" (by decide),
    B "scenario_dependent" (by decide), O "lower_bound" (by decide), O "upper_bound" (by decide),
    h.optional (respects_textOrNumber num) hc "variable_type" (by decide)]

theorem respects_constraint : Respects readConstraint := by
  refine respects_map fun l l' h hc => ?_
  have T := h.required respects_text hc
  have O := h.optional (respects_orNull respects_text) hc
  rw [h.forbidExtra _ (by decide), T "id" (by decide), T "expression" (by decide), O "lower_bound" (by decide), O "upper_bound" (by decide)]

theorem respects_field : Respects readField := by
  refine respects_map fun l l' h hc => ?_
  rw [h.forbidExtra _ (by decide), h.required respects_text hc "id" (by decide)]

theorem respects_portType : Respects readPortType := by
  refine respects_map fun l l' h hc => ?_
  rw [h.forbidExtra _ (by decide), h.required respects_text hc "id" (by decide), h.optional (respects_list respects_field) hc "fields" (by decide),
    h.optional (respects_orNull respects_text) hc "description" (by decide)]

theorem respects_modelPort : Respects readModelPort := by
  refine respects_map fun l l' h hc => ?_
  have T := h.required respects_text hc
  rw [h.forbidExtra _ (by decide), T "id" (by decide), T "type" (by decide)]

theorem respects_fieldDefinition : Respects readFieldDefinition := by
  refine respects_map fun l l' h hc => ?_
  have T := h.required respects_text hc
  rw [h.forbidExtra _ (by decide), T "port" (by decide), T "field" (by decide), T "definition" (by decide)]

theorem respects_model (L : Lenient) (num : Num → String) : Respects (readModel L num) := by
  refine respects_map fun l l' h hc => ?_
  have O := h.optional (respects_orNull respects_text) hc
  have C := h.optional (respects_list respects_constraint) hc
  rw [h.forbidExtra _ (by decide), h.required respects_text hc "id" (by decide),
    h.optional (respects_list (respects_parameter L)) hc "parameters" (by decide),
    h.optional (respects_list (respects_variable L num)) hc "variables" (by decide),
    h.optional (respects_list respects_modelPort) hc "ports" (by decide),
    h.optional (respects_list respects_fieldDefinition) hc "port_field_definitions" (by decide),
    C "binding_constraints" (by decide), C "constraints" (by decide), O "objective" (by decide), O "description" (by decide)]

theorem respects_library (L : Lenient) (num : Num → String) : Respects (readLibrary L num) := by
  refine respects_map fun l l' h hc => ?_
  rw [h.forbidExtra _ (by decide), h.required respects_text hc "id" (by decide),
    h.optional (respects_list respects_text) hc "dependencies" (by decide),
    h.optional (respects_list respects_portType) hc "port_types" (by decide),
    h.optional (respects_list (respects_model L num)) hc "models" (by decide),
    h.optional (respects_orNull respects_text) hc "description" (by decide)]

end Verif
