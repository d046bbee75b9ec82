import Verif.Spec.Library
import Verif.Lemmas.Dict
import Verif.Lemmas.Basic
import Verif.Lemmas.Eval
import Mathlib.Data.List.Nodup

/-! Resolution of libraries: invariant of the loop, termination measure. -/

namespace Verif

theorem libDict_get? (input : List InputLibrary) (k : String) : (libDict input).get? k = declaredLib input k := by
  rw [libDict, Dict.get?_ofItems, declaredLib, ← List.map_reverse, List.find?_map]
  simp [Function.comp_def, Option.map_map]

theorem declaredLib_id {input : List InputLibrary} {k : String} {l : InputLibrary} (h : declaredLib input k = some l) :
    l.id = k := by
  unfold declaredLib at h
  have := List.find?_some h
  simpa using this

theorem nodup_libDict (input : List InputLibrary) : (libDict input).keys.Nodup := Dict.nodup_ofItems _

theorem mem_libDict_keys (input : List InputLibrary) (k : String) :
    k ∈ (libDict input).keys ↔ ∃ l, declaredLib input k = some l := by
  rw [Dict.mem_keys_iff, libDict_get?]

theorem get_ok_iff'' {α β} [DecidableEq α] (d : Dict α β) (k : α) (v : β) : Dict.get d k = .ok v ↔ Dict.get? d k = some v := by
  unfold Dict.get
  cases Dict.get? d k <;> simp

theorem own_get? (l : InputLibrary) (id : String) :
    Dict.get? (Dict.ofItems (l.portTypes.map fun p => (p.id, convertPortType p))) id = ownPortType l id := by
  rw [Dict.get?_ofItems, ownPortType, ← List.map_reverse, List.find?_map]
  simp [Function.comp_def, Option.map_map, convertPortType]

theorem nodup_preloadedTypes (preloaded : List Library) : (preloadedTypes preloaded).keys.Nodup := by
  unfold preloadedTypes
  have : ∀ (ls : List Library) (d : Dict String PortType), d.keys.Nodup →
      (Dict.keys (ls.foldl (fun d l => d.update l.portTypes) d)).Nodup := by
    intro ls
    induction ls with
    | nil => intro d h; exact h
    | cons l ls ih => intro d h; exact ih _ (Dict.nodup_update _ _ h)
  exact this _ _ (by simp [Dict.keys])

theorem resolveModel_congr (parser : Parser) {t t' : Dict String PortType} (h : ∀ id, t.get? id = t'.get? id)
    (m : InputModel) : resolveModel parser t m = resolveModel parser t' m := by
  have : resolveModelPort t = resolveModelPort t' := by
    funext p
    simp only [resolveModelPort, Dict.get, h]
  simp only [resolveModel, this]

theorem mkModel_id {a : ModelArgs} {m : Model} (h : mkModel a = .ok m) : m.id = a.id := by
  unfold mkModel Model.make at h
  simp only [bind_ok_iff, Except.ok.injEq] at h
  obtain ⟨_, _, _, _, _, _, _, _, rfl⟩ := h
  rfl

theorem resolveModel_id {parser : Parser} {t : Dict String PortType} {im : InputModel} {m : Model}
    (h : resolveModel parser t im = .ok m) : m.id = im.id := by
  unfold resolveModel at h
  simp only [bind_ok_iff] at h
  obtain ⟨_, _, _, _, _, _, _, _, _, _, _, _, h⟩ := h
  exact mkModel_id h

/-! ### Types of the dependencies -/

theorem addDependencyTypes_ok (out : Dict String Library) (ds : List String) (t : Dict String PortType)
    (h : ∀ d ∈ ds, ∃ r, out.get? d = some r) : ∃ t', addDependencyTypes out ds t = .ok t' := by
  induction ds generalizing t with
  | nil => exact ⟨t, rfl⟩
  | cons d ds ih =>
    obtain ⟨r, hr⟩ := h d (by simp)
    obtain ⟨t', ht⟩ := ih (t.update r.portTypes) fun d hd => h d (by simp [hd])
    exact ⟨t', by simp only [addDependencyTypes, (get_ok_iff'' _ _ _).2 hr, ok_bind]; exact ht⟩

theorem addDependencyTypes_get? (out : Dict String Library) (ds : List String) (t t' : Dict String PortType)
    (h : addDependencyTypes out ds t = .ok t')
    (nd : ∀ d ∈ ds, ∀ r, out.get? d = some r → r.portTypes.keys.Nodup) (id : String) :
    (∀ pt, t'.get? id = some pt → t.get? id = some pt ∨
      ∃ d ∈ ds, ∃ r, out.get? d = some r ∧ r.portTypes.get? id = some pt) ∧
    ((∃ pt, t.get? id = some pt) ∨ (∃ d ∈ ds, ∃ r, out.get? d = some r ∧ ∃ pt, r.portTypes.get? id = some pt) →
      ∃ pt, t'.get? id = some pt) := by
  induction ds generalizing t with
  | nil =>
    cases h
    exact ⟨fun pt hp => .inl hp, fun hp => by rcases hp with hp | ⟨d, hd, _⟩; exact hp; cases hd⟩
  | cons d ds ih =>
    simp only [addDependencyTypes, bind_ok_iff, get_ok_iff''] at h
    obtain ⟨r, hr, h⟩ := h
    obtain ⟨h1, h2⟩ := ih _ h fun d hd => nd d (by simp [hd])
    have hu := Dict.get?_update t r.portTypes (nd d (by simp) r hr) id
    constructor
    · intro pt hpt
      rcases h1 pt hpt with hq | ⟨d', hd', r', hr', hq⟩
      · rw [hu] at hq
        cases hx : r.portTypes.get? id with
        | none => rw [hx] at hq; exact .inl hq
        | some y => rw [hx] at hq; cases hq; exact .inr ⟨d, by simp, r, hr, hx⟩
      · exact .inr ⟨d', by simp [hd'], r', hr', hq⟩
    · intro hp
      apply h2
      rcases hp with ⟨pt, hpt⟩ | ⟨d', hd', r', hr', pt, hpt⟩
      · left
        rw [hu]
        cases hx : r.portTypes.get? id with
        | none => exact ⟨pt, by simpa using hpt⟩
        | some y => exact ⟨y, rfl⟩
      · rcases List.mem_cons.1 hd' with rfl | hd'
        · left
          rw [hr] at hr'
          cases hr'
          exact ⟨pt, by rw [hu, hpt]; rfl⟩
        · exact .inr ⟨d', hd', r', hr', pt, hpt⟩

/-! ### One library -/

theorem resolveLib_ok_iff (parser : Parser) (t : Dict String PortType) (l : InputLibrary) (r : Library) :
    resolveLib parser t l = .ok r ↔
      (∀ id pt pt', t.get? id = some pt → ownPortType l id ≠ some pt') ∧ (l.models.map (·.id)).Nodup ∧
      r.id = l.id ∧
      r.portTypes = t.update (Dict.ofItems (l.portTypes.map fun p => (p.id, convertPortType p))) ∧
      ∃ ms, List.Forall₂ (fun im m => resolveModel parser r.portTypes im = .ok m) l.models ms ∧
        r.models = ms.map fun m => (m.id, m) := by
  unfold resolveLib
  dsimp only
  set own := Dict.ofItems (l.portTypes.map fun p => (p.id, convertPortType p)) with hown
  have hc : ((own.keys.any fun k => t.contains k) = true) ↔ ¬ ∀ id pt pt', t.get? id = some pt → ownPortType l id ≠ some pt' := by
    rw [List.any_eq_true]
    constructor
    · rintro ⟨id, hk, hc⟩ hall
      obtain ⟨pt', h'⟩ := Dict.mem_keys_iff.1 hk
      obtain ⟨pt, h⟩ := Dict.mem_keys_iff.1 (Dict.contains_iff.1 hc)
      exact hall id pt pt' h (by rw [← own_get?]; exact h')
    · intro h
      push Not at h
      obtain ⟨id, pt, pt', h1, h2⟩ := h
      exact ⟨id, Dict.mem_keys_iff.2 ⟨pt', by rw [hown, own_get?]; exact h2⟩, Dict.contains_iff.2 (Dict.mem_keys_iff.2 ⟨pt, h1⟩)⟩
  have hn : (((l.models.map (·.id)).any fun i => decide ((l.models.map (·.id)).count i > 1)) = true) ↔
      ¬ (l.models.map (·.id)).Nodup := by
    rw [List.any_eq_true, List.nodup_iff_count_le_one]
    push Not
    constructor
    · rintro ⟨i, _, h⟩; exact ⟨i, by simpa using h⟩
    · rintro ⟨i, h⟩; exact ⟨i, List.count_pos_iff.1 (by omega), by simpa using h⟩
  have hids : ∀ {ms : List Model} {types : Dict String PortType},
      List.Forall₂ (fun im m => resolveModel parser types im = .ok m) l.models ms →
      ms.map (·.id) = l.models.map (·.id) := by
    intro ms types h
    generalize l.models = ims at h
    induction h with
    | nil => rfl
    | cons h1 _ ih => simp [resolveModel_id h1, ih]
  split_ifs with h1 h2
  · simp only [reduceCtorEq, false_iff]
    exact fun h => (hc.1 h1) h.1
  · simp only [reduceCtorEq, false_iff]
    exact fun h => (hn.1 h2) h.2.1
  · have e1 : ∀ id pt pt', t.get? id = some pt → ownPortType l id ≠ some pt' := by
      by_contra hx; exact h1 (hc.2 hx)
    have e2 : (l.models.map (·.id)).Nodup := by
      by_contra hx; exact h2 (hn.2 hx)
    simp only [bind_ok_iff, Except.ok.injEq, appendAll_ok_iff]
    constructor
    · rintro ⟨ms, hms, rfl⟩
      refine ⟨e1, e2, rfl, rfl, ms, hms, ?_⟩
      rw [Dict.ofItems_of_nodup]
      have := hids hms
      simpa [Function.comp_def, this] using e2
    · rintro ⟨-, -, h3, h4, ms, hms, h5⟩
      refine ⟨ms, by rw [← h4]; exact hms, ?_⟩
      rw [Dict.ofItems_of_nodup]
      · cases r; simp_all
      · have := hids hms
        simpa [Function.comp_def, this] using e2

/-! ### Invariant -/

/-- a list of libraries, the last treated first, in which dependencies come before -/
inductive Ordered (input : List InputLibrary) : List String → Prop
  | nil : Ordered input []
  | cons {x l} : (∀ d, DependsOn input x d → d ∈ l) → Ordered input l → Ordered input (x :: l)

theorem Ordered.closed {input : List InputLibrary} {l : List String} (h : Ordered input l) :
    ∀ x ∈ l, ∀ y, Relation.TransGen (DependsOn input) x y → y ∈ l := by
  induction h with
  | nil => intro x hx; cases hx
  | @cons z l hd _ ih =>
    intro x hx y hxy
    rcases List.mem_cons.1 hx with rfl | hx
    · cases Relation.TransGen.head'_iff.1 hxy with
      | intro d h =>
        have := hd d h.1
        rcases Relation.reflTransGen_iff_eq_or_transGen.1 h.2 with rfl | h2
        · simp [this]
        · exact List.mem_cons_of_mem _ (ih d this y h2)
    · exact List.mem_cons_of_mem _ (ih x hx y hxy)

theorem Ordered.acyclic {input : List InputLibrary} {l : List String} (h : Ordered input l) (nd : l.Nodup) :
    ∀ x ∈ l, ¬ Relation.TransGen (DependsOn input) x x := by
  induction h with
  | nil => intro x hx; cases hx
  | @cons z l hd ho ih =>
    intro x hx hxx
    rw [List.nodup_cons] at nd
    rcases List.mem_cons.1 hx with rfl | hx
    · obtain ⟨d, h1, h2⟩ := Relation.TransGen.head'_iff.1 hxx
      have hdl := hd d h1
      rcases Relation.reflTransGen_iff_eq_or_transGen.1 h2 with rfl | h2
      · exact nd.1 hdl
      · exact nd.1 (ho.closed d hdl _ h2)
    · exact ih nd.2 x hx hxx

structure LibInv (parser : Parser) (input : List InputLibrary) (pre : Dict String PortType) (out0 : Dict String Library)
    (st : LibState) : Prop where
  stack_nodup : st.stack.Nodup
  stack_tail : ∀ x ∈ st.stack.tail, x ∈ (libDict input).keys
  stack_top : ∀ x ∈ st.stack, x ∈ (libDict input).keys ∨ ∃ k, DependsOn input k x
  stack_treated : ∀ x ∈ st.stack, x ∉ st.treated
  stack_path : st.stack.IsChain fun a b => DependsOn input b a
  treated_nodup : st.treated.Nodup
  treated_keys : ∀ x ∈ st.treated, x ∈ (libDict input).keys
  ordered : Ordered input st.treated
  resolved : ∀ x ∈ st.treated, ∃ l r, declaredLib input x = some l ∧ st.out.get? x = some r ∧
    r.portTypes.keys.Nodup ∧ IsResolved parser input pre x l r ∧
    (NoConflict input pre → WellFormed parser input pre x l)
  remaining_keys : ∀ x ∈ st.remaining, x ∈ (libDict input).keys
  covered : ∀ x ∈ (libDict input).keys, x ∈ st.treated ∨ x ∈ st.remaining ∨ x ∈ st.stack
  others : ∀ x, x ∉ (libDict input).keys → st.out.get? x = out0.get? x

/-- the content of the inherited types once all dependencies are treated -/
theorem inherited_spec {parser : Parser} {input : List InputLibrary} {pre : Dict String PortType} {out0 : Dict String Library}
    {st : LibState} (inv : LibInv parser input pre out0 st) (npre : pre.keys.Nodup) {o : SetOrder} (ho : o.Valid)
    {k : String} {l : InputLibrary} (hl : declaredLib input k = some l)
    (hall : l.dependencies.filter (fun d => !st.treated.contains d) = []) {t : Dict String PortType}
    (ht : addDependencyTypes st.out (o.order (l.dependencies.filter fun d => st.treated.contains d)) (Dict.update [] pre) = .ok t)
    (id : String) :
    (∀ pt, t.get? id = some pt → Inherited input pre k id pt) ∧
    (∀ pt, Inherited input pre k id pt → ∃ pt', t.get? id = some pt') := by
  have hmem : ∀ d, d ∈ o.order (l.dependencies.filter fun d => st.treated.contains d) ↔ d ∈ l.dependencies := by
    intro d
    rw [ho.order_mem, List.mem_filter]
    constructor
    · exact fun h => h.1
    · intro h
      rw [List.filter_eq_nil_iff] at hall
      have := hall d h
      exact ⟨h, by simpa using this⟩
  have htr : ∀ d ∈ l.dependencies, d ∈ st.treated := by
    intro d hd
    rw [List.filter_eq_nil_iff] at hall
    have := hall d hd
    simpa using this
  have hpre : Dict.get? (Dict.update [] pre) id = pre.get? id := by
    rw [Dict.get?_update _ _ npre]; simp
  obtain ⟨h1, h2⟩ := addDependencyTypes_get? _ _ _ _ ht (fun d hd r hr => by
    obtain ⟨_, r', _, hr', nd, _⟩ := inv.resolved d (htr d ((hmem d).1 hd))
    rw [hr] at hr'; cases hr'; exact nd) id
  constructor
  · intro pt hpt
    rcases h1 pt hpt with h | ⟨d, hd, r, hr, h⟩
    · exact .inl (hpre ▸ h)
    · obtain ⟨_, r', _, hr', _, isr, _⟩ := inv.resolved d (htr d ((hmem d).1 hd))
      rw [hr] at hr'; cases hr'
      exact .inr ⟨d, ⟨l, hl, (hmem d).1 hd⟩, isr.types id pt h⟩
  · intro pt hpt
    apply h2
    rcases hpt with h | ⟨d, ⟨l', hl', hd⟩, h⟩
    · exact .inl ⟨pt, by rw [hpre]; exact h⟩
    · rw [hl] at hl'; cases hl'
      obtain ⟨_, r, _, hr, _, isr, _⟩ := inv.resolved d (htr d hd)
      exact .inr ⟨d, (hmem d).2 hd, r, hr, isr.all_types id pt h⟩

/-- types of a resolved library -/
theorem visible_iff_inherited_or_own {input : List InputLibrary} {pre : Dict String PortType} {k : String}
    {l : InputLibrary} (hl : declaredLib input k = some l) {id : String} {pt : PortType} :
    Visible input pre k id pt ↔ Inherited input pre k id pt ∨ ownPortType l id = some pt := by
  constructor
  · intro h
    cases h with
    | preloaded h => exact .inl (.inl h)
    | own h1 h2 => rw [hl] at h1; cases h1; exact .inr h2
    | dependency h1 h2 => exact .inl (.inr ⟨_, h1, h2⟩)
  · rintro ((h | ⟨d, h1, h2⟩) | h)
    · exact .preloaded h
    · exact .dependency h1 h2
    · exact .own hl h

theorem resolveLib_spec {parser : Parser} {input : List InputLibrary} {pre : Dict String PortType} {k : String}
    {l : InputLibrary} (hl : declaredLib input k = some l) {t : Dict String PortType}
    (h1 : ∀ id pt, t.get? id = some pt → Inherited input pre k id pt)
    (h2 : ∀ id pt, Inherited input pre k id pt → ∃ pt', t.get? id = some pt')
    (nt : t.keys.Nodup) {r : Library} (h : resolveLib parser t l = .ok r) :
    r.portTypes.keys.Nodup ∧ IsResolved parser input pre k l r ∧ (NoConflict input pre → WellFormed parser input pre k l) := by
  obtain ⟨e1, e2, e3, e4, ms, e5, e6⟩ := (resolveLib_ok_iff _ _ _ _).1 h
  have hget : ∀ id, r.portTypes.get? id = (ownPortType l id).or (t.get? id) := by
    intro id
    rw [e4, Dict.get?_update _ _ (Dict.nodup_ofItems _), own_get?]
  have types : ∀ id pt, r.portTypes.get? id = some pt → Visible input pre k id pt := by
    intro id pt hpt
    rw [hget] at hpt
    rw [visible_iff_inherited_or_own hl]
    cases ho : ownPortType l id with
    | some x => rw [ho] at hpt; exact .inr hpt
    | none => rw [ho] at hpt; exact .inl (h1 id pt hpt)
  have all_types : ∀ id pt, Visible input pre k id pt → ∃ pt', r.portTypes.get? id = some pt' := by
    intro id pt hv
    rw [hget]
    cases ho : ownPortType l id with
    | some x => exact ⟨x, rfl⟩
    | none =>
      rcases (visible_iff_inherited_or_own hl).1 hv with hv | hv
      · obtain ⟨pt', h'⟩ := h2 id pt hv
        exact ⟨pt', by simpa using h'⟩
      · rw [ho] at hv; cases hv
  have nd : r.portTypes.keys.Nodup := by rw [e4]; exact Dict.nodup_update _ _ nt
  refine ⟨nd, ⟨by rw [e3]; exact declaredLib_id hl, types, all_types, ?_⟩, ?_⟩
  · rw [e6, List.forall₂_map_right_iff]
    exact e5.imp fun im m hm => ⟨resolveModel_id hm, resolveModel_id hm, hm⟩
  · intro nc
    refine ⟨?_, e2, ?_⟩
    · intro id pt pt' hi
      obtain ⟨pt2, h'⟩ := h2 id pt hi
      exact e1 id pt2 pt' h'
    · intro types' ht' im him
      obtain ⟨m, _, hm⟩ := forall₂_mem_left e5 him
      refine ⟨m, ?_⟩
      rw [← hm]
      apply resolveModel_congr
      intro id
      cases hx : r.portTypes.get? id with
      | some pt => exact (ht' id pt).2 (types id pt hx)
      | none =>
        cases hy : types'.get? id with
        | none => rfl
        | some pt =>
          obtain ⟨pt', hz⟩ := all_types id pt ((ht' id pt).1 hy)
          rw [hx] at hz; cases hz

theorem nodup_addDependencyTypes (out : Dict String Library) (ds : List String) (t t' : Dict String PortType)
    (h : addDependencyTypes out ds t = .ok t') (nd : t.keys.Nodup) : t'.keys.Nodup := by
  induction ds generalizing t with
  | nil => cases h; exact nd
  | cons d ds ih =>
    simp only [addDependencyTypes, bind_ok_iff] at h
    obtain ⟨r, _, h⟩ := h
    exact ih _ h (Dict.nodup_update _ _ nd)

theorem libStep_inv {parser : Parser} {input : List InputLibrary} {pre : Dict String PortType} {out0 : Dict String Library}
    {st st' : LibState} (inv : LibInv parser input pre out0 st) (npre : pre.keys.Nodup) {o : SetOrder} (ho : o.Valid)
    (h : libStep parser (libDict input) pre o st = .ok (some st')) : LibInv parser input pre out0 st' := by
  unfold libStep at h
  split at h
  · rename_i hs
    split at h
    · cases h
    · rename_i k rest hr
      have hk : k ∈ (libDict input).keys := inv.remaining_keys k (by simp [hr])
      split_ifs at h with ht
      · cases h
        exact { inv with
          remaining_keys := fun x hx => inv.remaining_keys x (by simp only at hx; simp [hr, hx])
          covered := fun x hx => by
            rcases inv.covered x hx with h | h | h
            · exact .inl h
            · rw [hr] at h
              rcases List.mem_cons.1 h with rfl | h
              · exact .inl (by simpa using ht)
              · exact .inr (.inl h)
            · exact .inr (.inr h) }
      · cases h
        refine { inv with
          stack_nodup := by simp
          stack_tail := by simp
          stack_top := by intro x hx; simp at hx; subst hx; exact .inl hk
          stack_treated := by intro x hx; simp at hx; subst hx; simpa using ht
          stack_path := .singleton _
          remaining_keys := fun x hx => inv.remaining_keys x (by simp only at hx; simp [hr, hx])
          covered := fun x hx => ?_ }
        rcases inv.covered x hx with h | h | h
        · exact .inl h
        · rw [hr] at h
          rcases List.mem_cons.1 h with rfl | h
          · exact .inr (.inr (by simp))
          · exact .inr (.inl h)
        · rw [hs] at h; cases h
  · rename_i top rest hs
    simp only [bind_ok_iff, get_ok_iff'', libDict_get?] at h
    obtain ⟨cur, hcur, t, ht, h⟩ := h
    have htop : top ∈ (libDict input).keys := (mem_libDict_keys _ _).2 ⟨cur, hcur⟩
    split_ifs at h with hd hc
    · cases h
      have hdm := ho.pick_mem _ hd
      generalize o.pick (cur.dependencies.filter fun d => !st.treated.contains d) = d at hdm hc ⊢
      rw [List.mem_filter] at hdm
      have hdep : DependsOn input top d := ⟨cur, hcur, hdm.1⟩
      have hds : d ∉ st.stack := by simpa using hc
      refine { inv with
        stack_nodup := by simp only [List.nodup_cons]; exact ⟨hds, inv.stack_nodup⟩
        stack_tail := by
          intro x hx
          simp only [List.tail_cons] at hx
          rw [hs] at hx
          rcases List.mem_cons.1 hx with rfl | hx
          · exact htop
          · exact inv.stack_tail x (by rw [hs]; exact hx)
        stack_top := by
          intro x hx
          rcases List.mem_cons.1 hx with rfl | hx
          · exact .inr ⟨top, hdep⟩
          · exact inv.stack_top x hx
        stack_treated := by
          intro x hx
          rcases List.mem_cons.1 hx with rfl | hx
          · simpa using hdm.2
          · exact inv.stack_treated x hx
        stack_path := by
          have := inv.stack_path
          rw [hs] at this ⊢
          exact .cons_cons hdep this
        covered := fun x hx => ?_ }
      rcases inv.covered x hx with h | h | h
      · exact .inl h
      · exact .inr (.inl h)
      · exact .inr (.inr (by simp [h]))
    · simp only [ne_eq, not_not] at hd
      simp only [bind_ok_iff, Except.ok.injEq, Option.some.injEq] at h
      obtain ⟨r, hr, rfl⟩ := h
      have hinh := inherited_spec inv npre ho hcur hd ht
      have nt : t.keys.Nodup := nodup_addDependencyTypes _ _ _ _ ht (Dict.nodup_update _ _ (by simp [Dict.keys]))
      obtain ⟨nd, isr, wf⟩ := resolveLib_spec hcur (fun id => (hinh id).1) (fun id => (hinh id).2) nt hr
      have hid : r.id = top := isr.id
      have hnt : top ∉ st.treated := inv.stack_treated top (by simp [hs])
      have hsn := inv.stack_nodup
      rw [hs, List.nodup_cons] at hsn
      refine { inv with
        stack_nodup := hsn.2
        stack_tail := fun x hx => inv.stack_tail x (by rw [hs]; exact List.mem_of_mem_tail hx)
        stack_top := fun x hx => inv.stack_top x (by rw [hs]; exact List.mem_cons_of_mem _ hx)
        stack_treated := by
          intro x hx hm
          rcases List.mem_cons.1 hm with rfl | hm
          · exact hsn.1 hx
          · exact inv.stack_treated x (by rw [hs]; exact List.mem_cons_of_mem _ hx) hm
        stack_path := by
          have := inv.stack_path
          rw [hs] at this
          exact this.of_cons
        treated_nodup := List.nodup_cons.2 ⟨hnt, inv.treated_nodup⟩
        treated_keys := by
          intro x hx
          rcases List.mem_cons.1 hx with rfl | hx
          · exact htop
          · exact inv.treated_keys x hx
        ordered := by
          refine .cons ?_ inv.ordered
          rintro d ⟨l', hl', hdm⟩
          rw [hcur] at hl'; cases hl'
          rw [List.filter_eq_nil_iff] at hd
          simpa using hd d hdm
        resolved := by
          intro x hx
          simp only
          rcases List.mem_cons.1 hx with rfl | hx
          · exact ⟨cur, r, hcur, by rw [hid]; exact Dict.get?_set_self _ _ _, nd, isr, wf⟩
          · obtain ⟨l, r', h1, h2, h3⟩ := inv.resolved x hx
            refine ⟨l, r', h1, ?_, h3⟩
            rw [Dict.get?_set_ne _ _ (by rw [hid]; rintro rfl; exact hnt hx)]
            exact h2
        covered := ?_
        others := by
          intro x hx
          simp only
          rw [Dict.get?_set_ne _ _ (by rw [hid]; rintro rfl; exact hx htop)]
          exact inv.others x hx }
      intro x hx
      rcases inv.covered x hx with h | h | h
      · exact .inl (by simp [h])
      · exact .inr (.inl h)
      · rw [hs] at h
        rcases List.mem_cons.1 h with rfl | h
        · exact .inl (by simp)
        · exact .inr (.inr h)

/-! ### Termination -/

/-- number of iterations left, at most -/
def libMeasure (input : List InputLibrary) (st : LibState) : Nat :=
  st.remaining.length + 2 * ((libDict input).keys.filter fun k => !st.treated.contains k && !st.stack.contains k).length +
    (st.stack.filter fun k => (libDict input).keys.contains k).length +
    (match st.stack with
      | [] => 1
      | t :: _ => if (libDict input).keys.contains t then 1 else 0)

theorem filter_length_lt {α} {l : List α} {p q : α → Bool} (h : ∀ x, q x = true → p x = true) {a : α} (ha : a ∈ l)
    (hp : p a = true) (hq : q a = false) : (l.filter q).length + 1 ≤ (l.filter p).length := by
  induction l with
  | nil => cases ha
  | cons x l ih =>
    have hle : (l.filter q).length ≤ (l.filter p).length := by
      rw [← List.countP_eq_length_filter, ← List.countP_eq_length_filter]
      exact List.countP_mono_left fun x _ => h x
    rcases List.mem_cons.1 ha with rfl | ha
    · simp only [List.filter_cons, hp, hq, if_true]
      simp; omega
    · have := ih ha
      simp only [List.filter_cons]
      cases hx : q x with
      | true => simp [h x hx]; omega
      | false => cases p x <;> simp <;> omega

theorem libStep_measure {parser : Parser} {input : List InputLibrary} {pre : Dict String PortType} {out0 : Dict String Library}
    {st st' : LibState} (inv : LibInv parser input pre out0 st) {o : SetOrder} (ho : o.Valid)
    (h : libStep parser (libDict input) pre o st = .ok (some st')) : libMeasure input st' < libMeasure input st := by
  unfold libStep at h
  split at h
  · rename_i hs
    split at h
    · cases h
    · rename_i k rest hr
      have hk : k ∈ (libDict input).keys := inv.remaining_keys k (by simp [hr])
      split_ifs at h with ht
      · cases h
        simp only [libMeasure, hs, hr]
        simp
      · cases h
        simp only [libMeasure, hs, hr]
        have := filter_length_lt (l := (libDict input).keys) (p := fun x => !st.treated.contains x && !([] : List String).contains x)
          (q := fun x => !st.treated.contains x && ![k].contains x) (fun x hx => by simp at hx; simp [hx.1]) hk
          (by simpa using ht) (by simp)
        simp only [List.length_cons, List.contains_iff_mem.2 hk, List.filter_cons, List.filter_nil, if_true, List.length_nil]
        omega
  · rename_i top rest hs
    simp only [bind_ok_iff, get_ok_iff'', libDict_get?] at h
    obtain ⟨cur, hcur, t, ht, h⟩ := h
    have htop : top ∈ (libDict input).keys := (mem_libDict_keys _ _).2 ⟨cur, hcur⟩
    split_ifs at h with hd hc
    · cases h
      have hdm := ho.pick_mem _ hd
      generalize o.pick (cur.dependencies.filter fun d => !st.treated.contains d) = d at hdm hc ⊢
      rw [List.mem_filter] at hdm
      simp only [libMeasure, hs, List.contains_iff_mem.2 htop, if_true]
      have hmono : ((libDict input).keys.filter fun k => !st.treated.contains k && !(d :: top :: rest).contains k).length ≤
          ((libDict input).keys.filter fun k => !st.treated.contains k && !(top :: rest).contains k).length := by
        rw [← List.countP_eq_length_filter, ← List.countP_eq_length_filter]
        refine List.countP_mono_left fun x _ hx => ?_
        simp only [Bool.and_eq_true, Bool.not_eq_true', List.contains_eq_mem, decide_eq_false_iff_not, List.mem_cons, not_or] at hx ⊢
        exact ⟨hx.1, hx.2.2⟩
      by_cases hdk : d ∈ (libDict input).keys
      · have := filter_length_lt (l := (libDict input).keys) (p := fun x => !st.treated.contains x && !(top :: rest).contains x)
          (q := fun x => !st.treated.contains x && !(d :: top :: rest).contains x) (fun x hx => by
            simp only [Bool.and_eq_true, Bool.not_eq_true', List.contains_eq_mem, decide_eq_false_iff_not, List.mem_cons, not_or] at hx ⊢
            exact ⟨hx.1, hx.2.2⟩) hdk
          (by
            rw [hs] at hc
            simp only [Bool.and_eq_true]
            exact ⟨hdm.2, by simpa using hc⟩) (by simp)
        rw [List.filter_cons (x := d), if_pos (List.contains_iff_mem.2 hdk)]
        simp only [List.contains_iff_mem.2 hdk, if_true, List.length_cons]
        omega
      · have hdk' : (libDict input).keys.contains d = false := by simpa using hdk
        rw [List.filter_cons (x := d), if_neg (by simp [hdk])]
        simp only [hdk', Bool.false_eq_true, if_false]
        omega
    · simp only [bind_ok_iff, Except.ok.injEq, Option.some.injEq] at h
      obtain ⟨r, hr, rfl⟩ := h
      simp only [libMeasure, hs, List.contains_iff_mem.2 htop, if_true]
      have heq : ((libDict input).keys.filter fun k => !(top :: st.treated).contains k && !rest.contains k) =
          (libDict input).keys.filter fun k => !st.treated.contains k && !(top :: rest).contains k := by
        apply List.filter_congr
        intro x _
        by_cases hx : x = top <;> by_cases hy : x ∈ st.treated <;> by_cases hz : x ∈ rest <;> simp [hx, hy, hz] <;> simp_all
      rw [heq, List.filter_cons (x := top), if_pos (List.contains_iff_mem.2 htop), List.length_cons]
      have : (match rest with
        | [] => 1
        | t :: _ => if (libDict input).keys.contains t then 1 else 0) ≤ 1 := by
        cases rest with
        | nil => simp
        | cons t _ => simp only; split_ifs <;> simp
      omega

theorem libInv_init (parser : Parser) (input : List InputLibrary) (pre : Dict String PortType) (out0 : Dict String Library) :
    LibInv parser input pre out0 { remaining := (libDict input).keys.reverse, out := out0 } where
  stack_nodup := by simp
  stack_tail := by simp
  stack_top := by simp
  stack_treated := by simp
  stack_path := .nil
  treated_nodup := by simp
  treated_keys := by simp
  ordered := .nil
  resolved := by simp
  remaining_keys := by simp
  covered := fun x hx => .inr (.inl (by simpa using hx))
  others := fun _ _ => rfl

theorem libMeasure_init (input : List InputLibrary) (out0 : Dict String Library) :
    libMeasure input { remaining := (libDict input).keys.reverse, out := out0 } ≤ 3 * input.length + 1 := by
  have hlen : (libDict input).keys.length ≤ input.length := by
    have : ∀ (l : List (String × InputLibrary)) (d : Dict String InputLibrary),
        (Dict.keys (l.foldl (fun d kv => Dict.set d kv.1 kv.2) d)).length ≤ d.keys.length + l.length := by
      intro l
      induction l with
      | nil => intro d; simp
      | cons x l ih =>
        intro d
        refine (ih _).trans ?_
        rw [Dict.keys_set]
        split_ifs <;> simp <;> omega
    have := this (input.map fun l => (l.id, l)) []
    simpa [libDict, Dict.ofItems, Dict.keys] using this
  simp only [libMeasure]
  have := List.length_filter_le (fun k => !([] : List String).contains k && !([] : List String).contains k) (libDict input).keys
  simp only [List.length_reverse, List.filter_nil, List.length_nil]
  omega

/-! ### Runs -/

/-- a run ends in an error or in a final state that satisfies the invariant -/
theorem runLib_ok {parser : Parser} {input : List InputLibrary} {pre : Dict String PortType} {out0 : Dict String Library}
    (npre : pre.keys.Nodup) {os : Nat → SetOrder} (ho : ∀ i, (os i).Valid) (fuel i : Nat) (st : LibState)
    (inv : LibInv parser input pre out0 st) (out : Dict String Library)
    (h : runLib parser (libDict input) pre os fuel i st = some (.ok out)) :
    ∃ st', LibInv parser input pre out0 st' ∧ st'.stack = [] ∧ st'.remaining = [] ∧ st'.out = out := by
  induction fuel generalizing i st with
  | zero => cases h
  | succ fuel ih =>
    unfold runLib at h
    split at h
    · cases h
    · rename_i hs
      cases h
      refine ⟨st, inv, ?_⟩
      unfold libStep at hs
      split at hs
      · rename_i hst
        split at hs
        · rename_i hrem
          exact ⟨hst, hrem, rfl⟩
        · split_ifs at hs <;> cases hs
      · simp only [bind_ok_iff] at hs
        obtain ⟨_, _, _, _, hs⟩ := hs
        split_ifs at hs
        · cases hs
        · simp only [bind_ok_iff] at hs
          obtain ⟨_, _, hs⟩ := hs
          cases hs
    · rename_i st' hs
      exact ih _ _ (libStep_inv inv npre (ho i) hs) h

theorem runLib_terminates {parser : Parser} {input : List InputLibrary} {pre : Dict String PortType} {out0 : Dict String Library}
    (npre : pre.keys.Nodup) {os : Nat → SetOrder} (ho : ∀ i, (os i).Valid) (fuel i : Nat) (st : LibState)
    (inv : LibInv parser input pre out0 st) (hm : libMeasure input st < fuel) :
    ∃ r, runLib parser (libDict input) pre os fuel i st = some r := by
  induction fuel generalizing i st with
  | zero => omega
  | succ fuel ih =>
    unfold runLib
    split
    · exact ⟨_, rfl⟩
    · exact ⟨_, rfl⟩
    · rename_i st' hs
      have := libStep_measure inv (ho i) hs
      exact ih _ _ (libStep_inv inv npre (ho i) hs) (by omega)

theorem runLib_mono (parser : Parser) (libs : Dict String InputLibrary) (pre : Dict String PortType) (os : Nat → SetOrder)
    (fuel i : Nat) (st : LibState) (r) (h : runLib parser libs pre os fuel i st = some r) (k : Nat) :
    runLib parser libs pre os (fuel + k) i st = some r := by
  induction fuel generalizing i st with
  | zero => cases h
  | succ fuel ih =>
    rw [Nat.succ_add]
    unfold runLib at h ⊢
    split at h
    · exact h
    · exact h
    · exact ih _ _ h

/-- no error when the libraries are well formed -/
theorem libStep_noError {parser : Parser} {input : List InputLibrary} {pre : Dict String PortType} {out0 : Dict String Library}
    {st : LibState} (inv : LibInv parser input pre out0 st) (npre : pre.keys.Nodup) {o : SetOrder} (ho : o.Valid)
    (nc : NoConflict input pre) (ha : Acyclic input) (hcl : Closed input)
    (hw : ∀ k l, declaredLib input k = some l → WellFormed parser input pre k l) (e : Err) :
    libStep parser (libDict input) pre o st ≠ .error e := by
  intro h
  unfold libStep at h
  split at h
  · split at h
    · cases h
    · split_ifs at h
  · rename_i top rest hs
    have htop : ∃ cur, declaredLib input top = some cur := by
      rcases inv.stack_top top (by simp [hs]) with hk | ⟨k, hk⟩
      · exact (mem_libDict_keys _ _).1 hk
      · exact hcl k top hk
    obtain ⟨cur, hcur⟩ := htop
    have hget : (libDict input).get top = .ok cur := by rw [get_ok_iff'', libDict_get?]; exact hcur
    obtain ⟨t, ht⟩ := addDependencyTypes_ok st.out (o.order (cur.dependencies.filter fun d => st.treated.contains d))
      (Dict.update [] pre) (by
        intro d hd
        rw [ho.order_mem, List.mem_filter] at hd
        obtain ⟨_, r, _, hr, _⟩ := inv.resolved d (by simpa using hd.2)
        exact ⟨r, hr⟩)
    simp only [hget, ok_bind, ht] at h
    split_ifs at h with hd hc
    · have hdm := ho.pick_mem _ hd
      generalize o.pick (cur.dependencies.filter fun d => !st.treated.contains d) = d at hdm hc h
      rw [List.mem_filter] at hdm
      have hdep : DependsOn input top d := ⟨cur, hcur, hdm.1⟩
      have hpath : ∀ (l : List String) (t : String), List.IsChain (fun a b => DependsOn input b a) (t :: l) → ∀ x ∈ t :: l,
          Relation.ReflTransGen (DependsOn input) x t := by
        intro l
        induction l with
        | nil => intro t _ x hx; simp at hx; rw [hx]
        | cons y l ih =>
          intro t hch x hx
          rw [List.isChain_cons_cons] at hch
          rcases List.mem_cons.1 hx with rfl | hx
          · exact .refl
          · exact (ih y hch.2 x hx).tail hch.1
      have hcm : d ∈ top :: rest := by rw [hs] at hc; simpa using hc
      have hp := hpath rest top (by have := inv.stack_path; rw [hs] at this; exact this) d hcm
      exact ha d (Relation.TransGen.tail' hp hdep)
    · simp only [ne_eq, not_not] at hd
      have hinh := inherited_spec inv npre ho hcur hd ht
      have nt : t.keys.Nodup := nodup_addDependencyTypes _ _ _ _ ht (Dict.nodup_update _ _ (by simp [Dict.keys]))
      obtain ⟨w1, w2, w3⟩ := hw top cur hcur
      have hx : ∃ r, resolveLib parser t cur = .ok r := by
        set types := t.update (Dict.ofItems (cur.portTypes.map fun p => (p.id, convertPortType p))) with htypes
        have hgt : ∀ id, types.get? id = (ownPortType cur id).or (t.get? id) := by
          intro id
          rw [htypes, Dict.get?_update _ _ (Dict.nodup_ofItems _), own_get?]
        have hvis : ∀ id pt, types.get? id = some pt ↔ Visible input pre top id pt := by
          intro id pt
          have h1 : ∀ pt, types.get? id = some pt → Visible input pre top id pt := by
            intro pt hpt
            rw [hgt] at hpt
            rw [visible_iff_inherited_or_own hcur]
            cases ho : ownPortType cur id with
            | some x => rw [ho] at hpt; exact .inr hpt
            | none => rw [ho] at hpt; exact .inl ((hinh id).1 pt hpt)
          refine ⟨h1 pt, fun hv => ?_⟩
          have : ∃ pt', types.get? id = some pt' := by
            rw [hgt]
            cases ho : ownPortType cur id with
            | some x => exact ⟨x, rfl⟩
            | none =>
              rcases (visible_iff_inherited_or_own hcur).1 hv with hv | hv
              · obtain ⟨pt', h'⟩ := (hinh id).2 pt hv
                exact ⟨pt', by simpa using h'⟩
              · rw [ho] at hv; cases hv
          obtain ⟨pt', h'⟩ := this
          rw [h', nc top id pt' pt (h1 pt' h') hv]
        have hms : ∃ ms, appendAll (resolveModel parser types) cur.models = .ok ms := by
          have := w3 types hvis
          clear h
          generalize cur.models = ims at this
          induction ims with
          | nil => exact ⟨[], rfl⟩
          | cons im ims ih =>
            obtain ⟨m, hm⟩ := this im (by simp)
            obtain ⟨ms, hms⟩ := ih fun im him => this im (by simp [him])
            exact ⟨m :: ms, by rw [appendAll_cons, hm, ok_bind, hms, ok_bind]⟩
        obtain ⟨ms, hms⟩ := hms
        refine ⟨⟨cur.id, types, ms.map fun m => (m.id, m)⟩, ?_⟩
        rw [resolveLib_ok_iff]
        exact ⟨fun id pt pt' hp => w1 id pt pt' ((hinh id).1 pt hp), w2, rfl, rfl, ms, appendAll_ok_iff.1 hms, rfl⟩
      obtain ⟨r, hr⟩ := hx
      rw [hr] at h
      cases h

theorem runLib_noError {parser : Parser} {input : List InputLibrary} {pre : Dict String PortType} {out0 : Dict String Library}
    (npre : pre.keys.Nodup) {os : Nat → SetOrder} (ho : ∀ i, (os i).Valid)
    (nc : NoConflict input pre) (ha : Acyclic input) (hcl : Closed input)
    (hw : ∀ k l, declaredLib input k = some l → WellFormed parser input pre k l) (fuel i : Nat) (st : LibState)
    (inv : LibInv parser input pre out0 st) (e : Err) :
    runLib parser (libDict input) pre os fuel i st ≠ some (.error e) := by
  induction fuel generalizing i st with
  | zero => intro h; cases h
  | succ fuel ih =>
    intro h
    unfold runLib at h
    split at h
    · rename_i e' hs
      exact libStep_noError inv npre (ho i) nc ha hcl hw _ hs
    · cases h
    · rename_i st' hs
      exact ih _ _ (libStep_inv inv npre (ho i) hs) h

end Verif
