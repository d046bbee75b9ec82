import Verif.Lemmas.DocumentSays

/-! Helper lemmas: every key of an accepted file is known; what is written is read back. -/

namespace Verif
open Doc

theorem unique_gives {l : Entries} (hl : l.Clear) {n : String} {d d' : Doc} (h : l.Gives n d) (h' : l.Gives n d') : d = d' := by
  rw [← field_iff hl] at h h'
  rw [h] at h'
  exact Option.some.inj h'

theorem Entries.Needs.all {l : Entries} (hl : l.Clear) {n : String} {P : Doc → Prop} (h : l.Needs n P) : ∀ d, l.Gives n d → P d := by
  intro d hd
  obtain ⟨d', h1, h2⟩ := h
  rwa [unique_gives hl hd h1]

theorem Entries.May.all {l : Entries} (hl : l.Clear) {n : String} {P : Doc → Prop} {Q : Prop} (h : l.May n P Q) : ∀ d, l.Gives n d → P d := by
  intro d hd
  rcases h with ⟨d', h1, h2⟩ | ⟨h1, _⟩
  · rwa [unique_gives hl hd h1]
  · exact absurd ⟨d, hd⟩ h1

theorem keysIn_scalar {names : List String} {d : Doc} (h1 : ∀ l, d ≠ .map l) (h2 : ∀ l, d ≠ .seq l) : KeysIn names d := by
  intro l h
  cases h with
  | here => exact absurd rfl (h1 l)
  | item _ _ => exact absurd rfl (h2 _)
  | value _ _ => exact absurd rfl (h1 _)

theorem keysIn_map {names all : List String} {l : Entries} (ha : l.About names) (hs : ∀ n ∈ names, n ∈ all)
    (hv : ∀ n ∈ names, ∀ d, l.Gives n d → KeysIn all d) : KeysIn all (.map l) := by
  intro l' h
  cases h with
  | here =>
    intro e he
    obtain ⟨n, hn, hk⟩ := ha e he
    exact ⟨n, hs n hn, hk⟩
  | value hm hi =>
    obtain ⟨n, hn, hk⟩ := ha _ hm
    refine hv n hn _ ?_ _ hi
    dsimp only at hk
    rcases hk with rfl | rfl
    · exact .inl hm
    · exact .inr hm

theorem keysIn_text {names : List String} {s : String} {d : Doc} (h : SaysText s d) : KeysIn names d := by
  rw [h]
  exact keysIn_scalar (by simp) (by simp)

theorem keysIn_textOrNumber {names : List String} {num : Num → String} {s : String} {d : Doc} (h : SaysTextOrNumber num s d) : KeysIn names d := by
  rcases h with rfl | ⟨n, rfl, _⟩ | ⟨v, rfl, _⟩ <;> exact keysIn_scalar (by simp) (by simp)

theorem keysIn_bool {names : List String} {L : Lenient} {b : Bool} {d : Doc} (h : SaysBool L b d) : KeysIn names d := by
  rcases h with rfl | ⟨n, rfl, _⟩ | ⟨v, rfl, _⟩ | ⟨v, rfl, _⟩ <;> exact keysIn_scalar (by simp) (by simp)

theorem keysIn_value {names : List String} {L : Lenient} {v : ParamValue} {d : Doc} (h : SaysValue L v d) : KeysIn names d := by
  unfold SaysValue at h
  cases v with
  | number x => rcases h with rfl | ⟨n, rfl, _⟩ | ⟨v, rfl, _⟩ <;> exact keysIn_scalar (by simp) (by simp)
  | name s =>
    dsimp only at h
    rw [h]
    exact keysIn_scalar (by simp) (by simp)

theorem keysIn_option {α} {names : List String} {P : α → Doc → Prop} (hP : ∀ a d, d.Clear → P a d → KeysIn names d) {o : Option α} {d : Doc}
    (hd : d.Clear) (h : SaysOption P o d) : KeysIn names d := by
  rcases h with ⟨rfl, _⟩ | ⟨a, _, _, h⟩
  · exact keysIn_scalar (by simp) (by simp)
  · exact hP a d hd h

theorem keysIn_list {α} {names : List String} {P : α → Doc → Prop} (hP : ∀ a d, d.Clear → P a d → KeysIn names d) {as : List α} {d : Doc}
    (hd : d.Clear) (h : SaysList P as d) : KeysIn names d := by
  obtain ⟨l, rfl, h⟩ := h
  intro l' hi
  cases hi with
  | item hm hi =>
    have hc := hd.item hm
    clear hd
    induction h with
    | nil => cases hm
    | cons h1 _ ih =>
      rcases List.mem_cons.1 hm with rfl | hm
      · exact hP _ _ hc h1 _ hi
      · exact ih hm

theorem keysIn_optionText {names : List String} {o : Option String} {d : Doc} (hd : d.Clear) (h : SaysOption SaysText o d) : KeysIn names d :=
  keysIn_option (fun _ _ _ => keysIn_text) hd h

theorem keysIn_param {L : Lenient} (p : InputParam) (d : Doc) (hd : d.Clear) (h : SaysParam L p d) : KeysIn systemKeys d := by
  obtain ⟨l, rfl, h0, h1, h2, h3, h4, h5⟩ := h
  refine keysIn_map h0 (by decide) fun n hn d hg => ?_
  have hx := hd.gives hg
  have c := hd.entries
  simp only [List.mem_cons, List.not_mem_nil, or_false] at hn
  rcases hn with rfl | rfl | rfl | rfl | rfl
  · exact keysIn_text (h1.all c d hg)
  · exact keysIn_bool (h2.all c d hg)
  · exact keysIn_bool (h3.all c d hg)
  · exact keysIn_value (h4.all c d hg)
  · exact keysIn_optionText hx (h5.all c d hg)

theorem keysIn_component {L : Lenient} (p : InputComponent) (d : Doc) (hd : d.Clear) (h : SaysComponent L p d) : KeysIn systemKeys d := by
  obtain ⟨l, rfl, h0, h1, h2, h3, h4⟩ := h
  refine keysIn_map h0 (by decide) fun n hn d hg => ?_
  have hx := hd.gives hg
  have c := hd.entries
  simp only [List.mem_cons, List.not_mem_nil, or_false] at hn
  rcases hn with rfl | rfl | rfl | rfl
  · exact keysIn_text (h1.all c d hg)
  · exact keysIn_text (h2.all c d hg)
  · exact keysIn_optionText hx (h3.all c d hg)
  · rcases h4.all c d hg with ⟨rfl, _⟩ | h
    · exact keysIn_scalar (by simp) (by simp)
    · exact keysIn_list keysIn_param hx h

theorem keysIn_connection (p : InputConnection) (d : Doc) (hd : d.Clear) (h : SaysConnection p d) : KeysIn systemKeys d := by
  obtain ⟨l, rfl, h0, h1, h2, h3, h4⟩ := h
  refine keysIn_map h0 (by decide) fun n hn d hg => ?_
  have c := hd.entries
  simp only [List.mem_cons, List.not_mem_nil, or_false] at hn
  rcases hn with rfl | rfl | rfl | rfl
  · exact keysIn_text (h1.all c d hg)
  · exact keysIn_text (h2.all c d hg)
  · exact keysIn_text (h3.all c d hg)
  · exact keysIn_text (h4.all c d hg)

theorem keysIn_system {L : Lenient} (p : InputSystem) (d : Doc) (hd : d.Clear) (h : SaysSystem L p d) : KeysIn systemKeys d := by
  obtain ⟨l, rfl, h0, h1, h2, h3, h4⟩ := h
  refine keysIn_map h0 (by decide) fun n hn d hg => ?_
  have hx := hd.gives hg
  have c := hd.entries
  simp only [List.mem_cons, List.not_mem_nil, or_false] at hn
  rcases hn with rfl | rfl | rfl | rfl
  · obtain ⟨o, ho⟩ := h1.all c d hg
    exact keysIn_optionText hx ho
  · exact keysIn_list keysIn_component hx (h2.all c d hg)
  · exact keysIn_list keysIn_component hx (h3.all c d hg)
  · exact keysIn_list keysIn_connection hx (h4.all c d hg)

theorem keysIn_parameter {L : Lenient} (p : InputParameter) (d : Doc) (hd : d.Clear) (h : SaysParameter L p d) : KeysIn libraryKeys d := by
  obtain ⟨l, rfl, h0, h1, h2, h3⟩ := h
  refine keysIn_map h0 (by decide) fun n hn d hg => ?_
  have c := hd.entries
  simp only [List.mem_cons, List.not_mem_nil, or_false] at hn
  rcases hn with rfl | rfl | rfl
  · exact keysIn_text (h1.all c d hg)
  · exact keysIn_bool (h2.all c d hg)
  · exact keysIn_bool (h3.all c d hg)

theorem keysIn_variable {L : Lenient} {num : Num → String} (p : InputVariable) (d : Doc) (hd : d.Clear) (h : SaysVariable L num p d) :
    KeysIn libraryKeys d := by
  obtain ⟨l, rfl, h0, h1, h2, h3, h4, h5, h6⟩ := h
  refine keysIn_map h0 (by decide) fun n hn d hg => ?_
  have hx := hd.gives hg
  have c := hd.entries
  simp only [List.mem_cons, List.not_mem_nil, or_false] at hn
  rcases hn with rfl | rfl | rfl | rfl | rfl | rfl
  · exact keysIn_textOrNumber (h1.all c d hg)
  · exact keysIn_bool (h2.all c d hg)
  · exact keysIn_bool (h3.all c d hg)
  · exact keysIn_option (fun _ _ _ => keysIn_textOrNumber) hx (h4.all c d hg)
  · exact keysIn_option (fun _ _ _ => keysIn_textOrNumber) hx (h5.all c d hg)
  · exact keysIn_textOrNumber (h6.all c d hg)

theorem keysIn_constraint (p : InputConstraint) (d : Doc) (hd : d.Clear) (h : SaysConstraint p d) : KeysIn libraryKeys d := by
  obtain ⟨l, rfl, h0, h1, h2, h3, h4⟩ := h
  refine keysIn_map h0 (by decide) fun n hn d hg => ?_
  have hx := hd.gives hg
  have c := hd.entries
  simp only [List.mem_cons, List.not_mem_nil, or_false] at hn
  rcases hn with rfl | rfl | rfl | rfl
  · exact keysIn_text (h1.all c d hg)
  · exact keysIn_text (h2.all c d hg)
  · exact keysIn_optionText hx (h3.all c d hg)
  · exact keysIn_optionText hx (h4.all c d hg)

theorem keysIn_field (p : String) (d : Doc) (hd : d.Clear) (h : SaysField p d) : KeysIn libraryKeys d := by
  obtain ⟨l, rfl, h0, h1⟩ := h
  refine keysIn_map h0 (by decide) fun n hn d hg => ?_
  have c := hd.entries
  simp only [List.mem_cons, List.not_mem_nil, or_false] at hn
  subst hn
  exact keysIn_text (h1.all c d hg)

theorem keysIn_portType (p : InputPortType) (d : Doc) (hd : d.Clear) (h : SaysPortType p d) : KeysIn libraryKeys d := by
  obtain ⟨l, rfl, h0, h1, h2, h3⟩ := h
  refine keysIn_map h0 (by decide) fun n hn d hg => ?_
  have hx := hd.gives hg
  have c := hd.entries
  simp only [List.mem_cons, List.not_mem_nil, or_false] at hn
  rcases hn with rfl | rfl | rfl
  · exact keysIn_text (h1.all c d hg)
  · exact keysIn_list keysIn_field hx (h2.all c d hg)
  · obtain ⟨o, ho⟩ := h3.all c d hg
    exact keysIn_optionText hx ho

theorem keysIn_modelPort (p : InputModelPort) (d : Doc) (hd : d.Clear) (h : SaysModelPort p d) : KeysIn libraryKeys d := by
  obtain ⟨l, rfl, h0, h1, h2⟩ := h
  refine keysIn_map h0 (by decide) fun n hn d hg => ?_
  have c := hd.entries
  simp only [List.mem_cons, List.not_mem_nil, or_false] at hn
  rcases hn with rfl | rfl
  · exact keysIn_text (h1.all c d hg)
  · exact keysIn_text (h2.all c d hg)

theorem keysIn_fieldDefinition (p : InputPortFieldDefinition) (d : Doc) (hd : d.Clear) (h : SaysFieldDefinition p d) : KeysIn libraryKeys d := by
  obtain ⟨l, rfl, h0, h1, h2, h3⟩ := h
  refine keysIn_map h0 (by decide) fun n hn d hg => ?_
  have c := hd.entries
  simp only [List.mem_cons, List.not_mem_nil, or_false] at hn
  rcases hn with rfl | rfl | rfl
  · exact keysIn_text (h1.all c d hg)
  · exact keysIn_text (h2.all c d hg)
  · exact keysIn_text (h3.all c d hg)

theorem keysIn_model {L : Lenient} {num : Num → String} (p : InputModel) (d : Doc) (hd : d.Clear) (h : SaysModel L num p d) :
    KeysIn libraryKeys d := by
  obtain ⟨l, rfl, h0, h1, h2, h3, h4, h5, h6, h7, h8, h9⟩ := h
  refine keysIn_map h0 (by decide) fun n hn d hg => ?_
  have hx := hd.gives hg
  have c := hd.entries
  simp only [List.mem_cons, List.not_mem_nil, or_false] at hn
  rcases hn with rfl | rfl | rfl | rfl | rfl | rfl | rfl | rfl | rfl
  · exact keysIn_text (h1.all c d hg)
  · exact keysIn_list keysIn_parameter hx (h2.all c d hg)
  · exact keysIn_list keysIn_variable hx (h3.all c d hg)
  · exact keysIn_list keysIn_modelPort hx (h4.all c d hg)
  · exact keysIn_list keysIn_fieldDefinition hx (h5.all c d hg)
  · exact keysIn_list keysIn_constraint hx (h6.all c d hg)
  · exact keysIn_list keysIn_constraint hx (h7.all c d hg)
  · exact keysIn_optionText hx (h8.all c d hg)
  · obtain ⟨o, ho⟩ := h9.all c d hg
    exact keysIn_optionText hx ho

theorem keysIn_library {L : Lenient} {num : Num → String} (p : InputLibrary) (d : Doc) (hd : d.Clear) (h : SaysLibrary L num p d) :
    KeysIn libraryKeys d := by
  obtain ⟨l, rfl, h0, h1, h2, h3, h4, h5⟩ := h
  refine keysIn_map h0 (by decide) fun n hn d hg => ?_
  have hx := hd.gives hg
  have c := hd.entries
  simp only [List.mem_cons, List.not_mem_nil, or_false] at hn
  rcases hn with rfl | rfl | rfl | rfl | rfl
  · exact keysIn_text (h1.all c d hg)
  · exact keysIn_list (fun _ _ _ => keysIn_text) hx (h2.all c d hg)
  · exact keysIn_list keysIn_portType hx (h3.all c d hg)
  · exact keysIn_list keysIn_model hx (h4.all c d hg)
  · obtain ⟨o, ho⟩ := h5.all c d hg
    exact keysIn_optionText hx ho

/-! ### Writing and reading back -/

theorem read_dumpConnection (k : InputConnection) : readConnection (dumpConnection k) = .ok k := rfl

theorem read_dumpParam (L : Lenient) (p : SetParam) : readParam L (dumpParam p) = .ok p := by
  obtain ⟨id, t, s, v, g⟩ := p
  rcases t with _ | t <;> rcases s with _ | s <;> rcases g with _ | _ | g <;> cases v <;> rfl

theorem appendAll_dump {α} {f : Doc → R α} {g : α → Doc} (h : ∀ a, f (g a) = .ok a) (l : List α) : appendAll f (l.map g) = .ok l := by
  induction l with
  | nil => rfl
  | cons a l ih => rw [List.map_cons, appendAll_cons, h, ih]; rfl

/-- the field of a mapping, from its value -/
def ofField {α} (f : Doc → R α) : Option Doc → R (Option α)
  | some d => (f d).map some
  | none => .ok none

theorem optional_of {α} {l : Entries} {n : String} {f : Doc → R α} {o : Option Doc} (h : field l n = o) : Doc.optional l n f = ofField f o := by
  unfold Doc.optional
  rw [h]
  cases o <;> rfl

theorem read_dumpComponent (L : Lenient) (c : SetComponent) : readComponent L (dumpComponent c) = .ok c := by
  obtain ⟨id, m, g, ps⟩ := c
  have hl : ∀ ps, appendAll (readParam L) (ps.map dumpParam) = .ok ps := appendAll_dump (read_dumpParam L)
  rcases ps with _ | _ | ps
  · rcases g with _ | _ | g <;> rfl
  · rcases g with _ | _ | g <;> rfl
  · have : ∀ g : Option (Option String), readComponent L (dumpComponent ⟨id, m, g, some (some ps)⟩) =
        (appendAll (readParam L) (ps.map dumpParam)).map fun ps => (⟨id, m, g, some (some ps)⟩ : SetComponent) := by
      intro g
      generalize hq : ps.map dumpParam = q
      unfold dumpComponent
      simp only [Option.map_some, hq]
      rcases g with _ | _ | g
      all_goals
        show (do
          let x ← (do let y ← (do let z ← appendAll (readParam L) q; Except.ok (some z)); Except.ok (some y)); _) = _
        cases appendAll (readParam L) q <;> rfl
    rw [this, hl]
    rfl

theorem read_dumpSystem (L : Lenient) (s : SetSystem) : readSystem L (dumpSystem s) = .ok s := by
  obtain ⟨ml, ns, cs, ks⟩ := s
  have hc : ∀ l, appendAll (readComponent L) (l.map dumpComponent) = .ok l := appendAll_dump (read_dumpComponent L)
  have hk : ∀ l, appendAll readConnection (l.map dumpConnection) = .ok l := appendAll_dump read_dumpConnection
  have f1 : field (entry "components" (cs.map fun l => .seq (l.map dumpComponent)) ++ entry "connections" (ks.map fun l => .seq (l.map dumpConnection)) ++
      entry "model-libraries" (ml.map ofText?) ++ entry "nodes" (ns.map fun l => .seq (l.map dumpComponent))) "model_libraries" = ml.map ofText? := by
    cases cs <;> cases ks <;> cases ml <;> cases ns <;> rfl
  have f2 : field (entry "components" (cs.map fun l => .seq (l.map dumpComponent)) ++ entry "connections" (ks.map fun l => .seq (l.map dumpConnection)) ++
      entry "model-libraries" (ml.map ofText?) ++ entry "nodes" (ns.map fun l => .seq (l.map dumpComponent))) "nodes" =
        ns.map fun l => .seq (l.map dumpComponent) := by
    cases cs <;> cases ks <;> cases ml <;> cases ns <;> rfl
  have f3 : field (entry "components" (cs.map fun l => .seq (l.map dumpComponent)) ++ entry "connections" (ks.map fun l => .seq (l.map dumpConnection)) ++
      entry "model-libraries" (ml.map ofText?) ++ entry "nodes" (ns.map fun l => .seq (l.map dumpComponent))) "components" =
        cs.map fun l => .seq (l.map dumpComponent) := by
    cases cs <;> cases ks <;> cases ml <;> cases ns <;> rfl
  have f4 : field (entry "components" (cs.map fun l => .seq (l.map dumpComponent)) ++ entry "connections" (ks.map fun l => .seq (l.map dumpConnection)) ++
      entry "model-libraries" (ml.map ofText?) ++ entry "nodes" (ns.map fun l => .seq (l.map dumpComponent))) "connections" =
        ks.map fun l => .seq (l.map dumpConnection) := by
    cases cs <;> cases ks <;> cases ml <;> cases ns <;> rfl
  have f0 : forbidExtra ["model_libraries", "nodes", "components", "connections"]
      (entry "components" (cs.map fun l => .seq (l.map dumpComponent)) ++ entry "connections" (ks.map fun l => .seq (l.map dumpConnection)) ++
      entry "model-libraries" (ml.map ofText?) ++ entry "nodes" (ns.map fun l => .seq (l.map dumpComponent))) = .ok () := by
    cases cs <;> cases ks <;> cases ml <;> cases ns <;> rfl
  unfold readSystem dumpSystem entries
  simp only [ok_bind, f0, optional_of f1, optional_of f2, optional_of f3, optional_of f4]
  have g1 : ∀ o : Option (Option String), ofField (orNull text) (o.map ofText?) = .ok o := by
    intro o
    rcases o with _ | _ | o <;> rfl
  have g2 : ∀ o : Option (List SetComponent), ofField (listOf (readComponent L)) (o.map fun l => .seq (l.map dumpComponent)) = .ok o := by
    intro o
    cases o with
    | none => rfl
    | some l => show (appendAll (readComponent L) (l.map dumpComponent)).map some = _; rw [hc]; rfl
  have g3 : ∀ o : Option (List InputConnection), ofField (listOf readConnection) (o.map fun l => .seq (l.map dumpConnection)) = .ok o := by
    intro o
    cases o with
    | none => rfl
    | some l => show (appendAll readConnection (l.map dumpConnection)).map some = _; rw [hk]; rfl
  simp only [g1, g2, g3, ok_bind]

end Verif
