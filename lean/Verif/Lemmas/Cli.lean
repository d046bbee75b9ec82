import Verif.Spec.Cli
import Verif.Props.Libraries
import Verif.Props.Loading

/-! # Lemmas about the command line -/

namespace Verif

/-! ### Reading libraries -/

theorem readLibraries_ok {d : Disk} {paths : List String} {ids : List String} {ls : List InputLibrary} :
    readLibraries d ids paths = .ok ls ↔ ReadAs d paths ls ∧ (ls.map (·.id)).Nodup ∧ ∀ l ∈ ls, l.id ∉ ids := by
  induction paths generalizing ids ls with
  | nil =>
    constructor
    · intro h
      cases h
      exact ⟨.nil, by simp, by simp⟩
    · rintro ⟨h, -⟩
      cases h
      rfl
  | cons p ps ih =>
    unfold readLibraries
    simp only [bind_ok_iff]
    constructor
    · rintro ⟨l, hl, h⟩
      split_ifs at h with hm
      simp only [bind_ok_iff, Except.ok.injEq] at h
      obtain ⟨ls', h', rfl⟩ := h
      obtain ⟨h1, h2, h3⟩ := ih.1 h'
      refine ⟨.cons hl h1, ?_, ?_⟩
      · simp only [List.map_cons, List.nodup_cons, List.mem_map, not_exists, not_and]
        exact ⟨fun x hx he => h3 x hx (by simp [he]), h2⟩
      · intro x hx
        rcases List.mem_cons.1 hx with rfl | hx
        · exact hm
        · exact fun hi => h3 x hx (by simp [hi])
    · rintro ⟨h1, h2, h3⟩
      cases h1 with
      | @cons _ l _ ls' hl h1 =>
        refine ⟨l, hl, ?_⟩
        rw [if_neg (h3 l (by simp))]
        simp only [List.map_cons, List.nodup_cons, List.mem_map, not_exists, not_and] at h2
        simp only [bind_ok_iff, Except.ok.injEq]
        refine ⟨ls', ih.2 ⟨h1, h2.2, fun x hx hi => ?_⟩, rfl⟩
        rcases List.mem_cons.1 hi with he | hi
        · exact h2.1 x hx he
        · exact h3 x (by simp [hx]) hi

theorem readLibraries_duplicate {d : Disk} {paths : List String} {ids : List String} {ls : List InputLibrary} (h : ReadAs d paths ls)
    (hd : ¬ ((ls.map (·.id)).Nodup ∧ ∀ l ∈ ls, l.id ∉ ids)) : ∃ m, readLibraries d ids paths = .error (.valueError m) := by
  induction h generalizing ids with
  | nil => exact absurd ⟨by simp, by simp⟩ hd
  | @cons p l ps ls hl h ih =>
    unfold readLibraries
    rw [hl]
    simp only [ok_bind]
    by_cases hm : l.id ∈ ids
    · rw [if_pos hm]
      exact ⟨_, rfl⟩
    · rw [if_neg hm]
      obtain ⟨m, hm'⟩ := ih (ids := l.id :: ids) (by
        rintro ⟨h1, h2⟩
        refine hd ⟨?_, ?_⟩
        · simp only [List.map_cons, List.nodup_cons, List.mem_map, not_exists, not_and]
          exact ⟨fun x hx he => h2 x hx (by simp [he]), h1⟩
        · intro x hx
          rcases List.mem_cons.1 hx with rfl | hx
          · exact hm
          · exact fun hi => h2 x hx (by simp [hi]))
      exact ⟨m, by rw [hm']; rfl⟩

/-! ### Resolution of systems depends on the models of the libraries only -/

/-- the models that a library id and a model id designate -/
def SameModels (libs libs' : Dict String Library) : Prop := ∀ k, (libs.get? k).map (·.models) = (libs'.get? k).map (·.models)

theorem resolveComponent_congr {libs libs' : Dict String Library} (h : SameModels libs libs') (c : InputComponent) :
    resolveComponent libs c = resolveComponent libs' c := by
  unfold resolveComponent
  split
  · next lib model _ =>
    have := h (String.ofList lib)
    unfold Dict.get
    cases h1 : libs.get? (String.ofList lib) with
    | none =>
      cases h2 : libs'.get? (String.ofList lib) with
      | none => rfl
      | some l' =>
        rw [h1, h2] at this
        simp at this
    | some l =>
      cases h2 : libs'.get? (String.ofList lib) with
      | none =>
        rw [h1, h2] at this
        simp at this
      | some l' =>
        rw [h1, h2] at this
        simp only [Option.map_some, Option.some.injEq] at this
        simp only [ok_bind, this]
  · rfl

theorem resolveSystem_congr {libs libs' : Dict String Library} (h : SameModels libs libs') (s : InputSystem) :
    resolveSystem s libs = resolveSystem s libs' := by
  unfold resolveSystem
  rw [show resolveComponent libs = resolveComponent libs' from funext (resolveComponent_congr h)]

/-! ### The consistency check after the resolution -/

/-- models are stored under their ids -/
def KeyedModels (libs : Dict String Library) : Prop := ∀ k l, libs.get? k = some l → ∀ n m, (n, m) ∈ l.models → n = m.id

theorem mem_allModels_aux (ls : List Library) (d : Dict String Model) (k : String)
    (h : k ∈ d.keys ∨ ∃ l ∈ ls, k ∈ l.models.keys) : k ∈ (ls.foldl (fun d l => d.update l.models) d).keys := by
  induction ls generalizing d with
  | nil =>
    rcases h with h | ⟨l, hl, -⟩
    · exact h
    · cases hl
  | cons l ls ih =>
    refine ih _ ?_
    have upd : ∀ (e d : Dict String Model), k ∈ d.keys ∨ k ∈ e.keys → k ∈ (d.update e).keys := by
      intro e
      induction e with
      | nil => rintro d (h | h); exact h; cases h
      | cons x e ih =>
        intro d h
        refine ih (d.set x.1 x.2) ?_
        rw [Dict.mem_keys_set]
        rcases h with h | h
        · exact .inl (.inr h)
        · rcases List.mem_cons.1 h with h | h
          · exact .inl (.inl h)
          · exact .inr h
    rcases h with h | ⟨l', hl', hk⟩
    · exact .inl (upd _ _ (.inl h))
    · rcases List.mem_cons.1 hl' with rfl | hl'
      · exact .inl (upd _ _ (.inr hk))
      · exact .inr ⟨l', hl', hk⟩

theorem resolveComponent_known {libs : Dict String Library} (hk : KeyedModels libs) {c : InputComponent} {r : Component}
    (h : resolveComponent libs c = .ok r) : ∃ m, Dict.get? (allModels libs) r.model.id = some m := by
  unfold resolveComponent at h
  split at h
  · next lib model _ =>
    simp only [bind_ok_iff, get_ok_iff'', Except.ok.injEq] at h
    obtain ⟨l, hl, m, hm, rfl⟩ := h
    have hmem := Dict.mem_of_get? hm
    have : l.models.keys.contains m.id := by
      rw [← hk _ l hl _ m hmem]
      exact List.contains_iff_mem.2 (List.mem_map.2 ⟨_, hmem, rfl⟩)
    exact Dict.mem_keys_iff.1 (mem_allModels_aux libs.values [] m.id
      (.inr ⟨l, List.mem_map.2 ⟨_, Dict.mem_of_get? hl, rfl⟩, List.contains_iff_mem.1 this⟩))
  · cases h

theorem consistencyCheck_resolved {libs : Dict String Library} (hk : KeyedModels libs) {s : InputSystem} {sys : System}
    (h : resolveSystem s libs = .ok sys) : consistencyCheck sys.components (allModels libs) = .ok true := by
  refine (Props.c51_consistency _ _).1 fun k c hc => ?_
  unfold resolveSystem at h
  simp only [bind_ok_iff, Except.ok.injEq, appendAll_ok_iff] at h
  obtain ⟨comps, hcomps, nodes, -, cnx, -, rfl⟩ := h
  have : ∃ c0 ∈ comps, c0 = c := by
    have := Dict.get?_of_mem (Dict.nodup_ofItems _) hc
    rw [Dict.get?_ofItems] at this
    obtain ⟨x, hx, rfl⟩ := Option.map_eq_some_iff.1 this
    have := List.mem_of_find?_eq_some hx
    obtain ⟨c0, h0, rfl⟩ := List.mem_map.1 (List.mem_reverse.1 this)
    exact ⟨c0, h0, rfl⟩
  obtain ⟨_, h0, rfl⟩ := this
  have : ∀ {xs : List InputComponent} {ys : List Component}, List.Forall₂ (fun x y => resolveComponent libs x = .ok y) xs ys →
      ∀ y ∈ ys, ∃ x, resolveComponent libs x = .ok y := by
    intro xs ys h
    induction h with
    | nil => intro y hy; cases hy
    | @cons x y xs ys hxy _ ih =>
      intro z hz
      rcases List.mem_cons.1 hz with rfl | hz
      · exact ⟨x, hxy⟩
      · exact ih z hz
  obtain ⟨x, hx⟩ := this hcomps _ h0
  exact resolveComponent_known hk hx

/-! ### The chain -/

theorem inputDatabase_ok {d : Disk} {a : ParsedArguments} {s : InputSystem} {db : DataBase} :
    inputDatabase d a s = .ok db ↔ buildDataBase (loadSeries d a.timeseriesPath) s = .ok db := by
  unfold inputDatabase
  split
  · next h => rw [h]; simp
  · exact Iff.rfl

/-- the problem of a block of `duration` timesteps -/
def cliContext (a : ParsedArguments) (net : Network) (db : DataBase) : OptCtx :=
  { network := net, database := db, timesteps := (List.range a.duration).map Int.ofNat, scenarios := a.scenarios }

theorem runCli_ok {d : Disk} {a : ParsedArguments} {libs : Dict String Library} (hk : KeyedModels libs) {st : OptState} :
    runCli d a libs = .ok st ↔ ∃ s sys db net, d.system a.componentsPath = .ok s ∧ resolveSystem s libs = .ok sys ∧
      buildDataBase (loadSeries d a.timeseriesPath) s = .ok db ∧ buildNetwork sys = .ok net ∧ (cliContext a net db).buildProblem = .ok st := by
  unfold runCli
  simp only [bind_ok_iff, inputDatabase_ok]
  constructor
  · rintro ⟨s, hs, sys, hsys, -, -, db, hdb, net, hnet, h⟩
    exact ⟨s, sys, db, net, hs, hsys, hdb, hnet, h⟩
  · rintro ⟨s, sys, db, net, hs, hsys, hdb, hnet, h⟩
    exact ⟨s, hs, sys, hsys, true, consistencyCheck_resolved hk hsys, db, hdb, net, hnet, h⟩

theorem mainCli_ok {parser : Parser} {os : Nat → SetOrder} {fuel : Nat} {d : Disk} {f : CliFlags} {st : OptState} :
    mainCli parser os fuel d f = some (.ok st) ↔ ∃ a ls libs, parseCli d f = .ok a ∧ ReadAs d a.modelsPath ls ∧ (ls.map (·.id)).Nodup ∧
      resolveLibrary parser os fuel ls = some (.ok libs) ∧ runCli d a libs = .ok st := by
  unfold mainCli inputLibs
  constructor
  · intro h
    cases ha : parseCli d f with
    | error e => rw [ha] at h; simp at h
    | ok a =>
      rw [ha] at h
      dsimp only at h
      cases hl : readLibraries d [] a.modelsPath with
      | error e => rw [hl] at h; simp at h
      | ok ls =>
        rw [hl] at h
        dsimp only at h
        obtain ⟨h1, h2, -⟩ := readLibraries_ok.1 hl
        split at h
        · cases h
        · simp at h
        · next libs hlibs => exact ⟨a, ls, libs, rfl, h1, h2, hlibs, Option.some.inj h⟩
  · rintro ⟨a, ls, libs, ha, h1, h2, h3, h4⟩
    rw [ha]
    dsimp only
    rw [readLibraries_ok.2 ⟨h1, h2, by simp⟩]
    dsimp only
    rw [h3]
    dsimp only
    rw [h4]

/-! ### The order of the files -/

theorem declaredLib_iff {input : List InputLibrary} (nd : (input.map (·.id)).Nodup) (k : String) (l : InputLibrary) :
    declaredLib input k = some l ↔ l ∈ input ∧ l.id = k := by
  unfold declaredLib
  constructor
  · intro h
    exact ⟨List.mem_reverse.1 (List.mem_of_find?_eq_some h), by simpa using List.find?_some h⟩
  · rintro ⟨h, rfl⟩
    have nd' : (input.reverse.map (·.id)).Nodup := by rw [List.map_reverse]; exact List.nodup_reverse.2 nd
    have hm := List.mem_reverse.2 h
    generalize input.reverse = ls at nd' hm
    induction ls with
    | nil => cases hm
    | cons x ls ih =>
      simp only [List.map_cons, List.nodup_cons, List.mem_map, not_exists, not_and] at nd'
      rcases List.mem_cons.1 hm with rfl | hm
      · simp
      · rw [List.find?_cons_of_neg (by simpa using fun he => nd'.1 l hm he.symm)]
        exact ih nd'.2 hm

theorem declaredLib_perm {input input' : List InputLibrary} (nd : (input.map (·.id)).Nodup) (hp : input.Perm input') (k : String) :
    declaredLib input k = declaredLib input' k := by
  have nd' : (input'.map (·.id)).Nodup := (hp.map _).nodup_iff.1 nd
  ext l
  rw [declaredLib_iff nd, declaredLib_iff nd', hp.mem_iff]

section Congr
variable {input input' : List InputLibrary} (h : ∀ k, declaredLib input k = declaredLib input' k) {types : Dict String PortType}
include h

theorem dependsOn_congr (k d : String) : DependsOn input k d ↔ DependsOn input' k d := by
  unfold DependsOn
  rw [h]

theorem visible_congr {k id : String} {pt : PortType} (hv : Visible input types k id pt) : Visible input' types k id pt := by
  induction hv with
  | preloaded hp => exact .preloaded hp
  | own hl ho => exact .own ((h _).symm.trans hl) ho
  | dependency hd _ ih => exact .dependency ((dependsOn_congr h _ _).1 hd) ih

theorem visible_congr_iff (k id : String) (pt : PortType) : Visible input types k id pt ↔ Visible input' types k id pt :=
  ⟨visible_congr h, visible_congr fun k => (h k).symm⟩

theorem noConflict_congr (nc : NoConflict input types) : NoConflict input' types := fun k id pt pt' h1 h2 =>
  nc k id pt pt' ((visible_congr_iff h _ _ _).2 h1) ((visible_congr_iff h _ _ _).2 h2)

theorem isResolved_congr {parser : Parser} {k : String} {l : InputLibrary} {r : Library} (hr : IsResolved parser input types k l r) :
    IsResolved parser input' types k l r :=
  ⟨hr.id, fun id pt hp => visible_congr h (hr.types id pt hp), fun id pt hv => hr.all_types id pt ((visible_congr_iff h _ _ _).2 hv), hr.models⟩

theorem acyclic_congr (ha : Acyclic input) : Acyclic input' := by
  have : DependsOn input = DependsOn input' := by
    funext k d
    exact propext (dependsOn_congr h k d)
  unfold Acyclic
  rw [← this]
  exact ha

theorem closed_congr (hc : Closed input) : Closed input' := by
  intro k d hd
  obtain ⟨l, hl⟩ := hc k d ((dependsOn_congr h _ _).2 hd)
  exact ⟨l, (h d).symm.trans hl⟩

theorem wellFormed_congr {parser : Parser} {k : String} {l : InputLibrary} (hw : WellFormed parser input types k l) :
    WellFormed parser input' types k l := by
  obtain ⟨h1, h2, h3⟩ := hw
  refine ⟨fun id pt pt' hi => h1 id pt pt' ?_, h2, fun t ht => h3 t fun id pt => (ht id pt).trans (visible_congr_iff h _ _ _).symm⟩
  rcases hi with hi | ⟨d, hd, hv⟩
  · exact .inl hi
  · exact .inr ⟨d, (dependsOn_congr h _ _).2 hd, (visible_congr_iff h _ _ _).2 hv⟩

end Congr

theorem keyed_resolved {parser : Parser} {os : Nat → SetOrder} (ho : ∀ i, (os i).Valid) {fuel : Nat} {ls : List InputLibrary}
    {libs : Dict String Library} (h : resolveLibrary parser os fuel ls = some (.ok libs)) : KeyedModels libs := by
  intro k l hl n m hm
  obtain ⟨h1, h2⟩ := Props.c28_content parser os ho fuel ls [] libs h
  cases hd : declaredLib ls k with
  | none =>
    have := h2 k hd
    rw [hl] at this
    cases this
  | some il =>
    obtain ⟨r, hr, hres⟩ := h1 k il hd
    rw [hl] at hr
    cases hr
    have := hres.models
    clear hres h1 h2 hd hl
    generalize il.models = ims, l.models = ms at this hm
    induction this with
    | nil => cases hm
    | @cons im x ims ms hx _ ih =>
      rcases List.mem_cons.1 hm with rfl | hm
      · exact hx.1.trans hx.2.1.symm
      · exact ih hm

theorem sameModels_resolved {parser : Parser} {os os' : Nat → SetOrder} (ho : ∀ i, (os i).Valid) (ho' : ∀ i, (os' i).Valid)
    {fuel fuel' : Nat} {ls ls' : List InputLibrary} (hd : ∀ k, declaredLib ls k = declaredLib ls' k) (nc : NoConflict ls [])
    {libs libs' : Dict String Library} (h : resolveLibrary parser os fuel ls = some (.ok libs))
    (h' : resolveLibrary parser os' fuel' ls' = some (.ok libs')) : SameModels libs libs' := by
  obtain ⟨h1, h2⟩ := Props.c28_content parser os ho fuel ls [] libs h
  obtain ⟨h1', h2'⟩ := Props.c28_content parser os' ho' fuel' ls' [] libs' h'
  intro k
  cases hk : declaredLib ls k with
  | none => rw [h2 k hk, h2' k ((hd k).symm.trans hk)]
  | some l =>
    obtain ⟨r, e1, i1⟩ := h1 k l hk
    obtain ⟨r', e2, i2⟩ := h1' k l ((hd k).symm.trans hk)
    rw [e1, e2]
    have := i1.same nc (isResolved_congr (fun k => (hd k).symm) i2)
    simp [this.2.1]

/-! ### Libraries without dependencies -/

theorem runLib_plain {parser : Parser} {libs : Dict String InputLibrary} {os : Nat → SetOrder} (ho : ∀ i, (os i).Valid)
    (hid : ∀ k l, libs.get? k = some l → l.id = k ∧ l.dependencies = []) (fuel i : Nat) (st : LibState)
    (hst : ∀ k r, st.out.get? k = some r → ∃ l, libs.get? k = some l ∧ resolveLib parser [] l = .ok r) {out : Dict String Library}
    (h : runLib parser libs [] os fuel i st = some (.ok out)) :
    ∀ k r, out.get? k = some r → ∃ l, libs.get? k = some l ∧ resolveLib parser [] l = .ok r := by
  induction fuel generalizing i st with
  | zero => cases h
  | succ fuel ih =>
    unfold runLib at h
    split at h
    · simp at h
    · simp only [Option.some.injEq, Except.ok.injEq] at h
      subst h
      exact hst
    · next st' hs =>
      refine ih (i + 1) st' ?_ h
      unfold libStep at hs
      split at hs
      · split at hs
        · cases hs
        · split_ifs at hs <;> (simp only [Except.ok.injEq, Option.some.injEq] at hs; subst hs; exact hst)
      · next top rest _ =>
        simp only [bind_ok_iff, get_ok_iff''] at hs
        obtain ⟨cur, hcur, inherited, hin, hs⟩ := hs
        obtain ⟨e1, e2⟩ := hid _ _ hcur
        rw [e2] at hs hin
        have hnil : (os i).order [] = [] := List.eq_nil_iff_forall_not_mem.2 fun x hx => by
          have := ((ho i).order_mem [] x).1 hx
          cases this
        simp only [List.filter_nil, hnil, ne_eq, not_true_eq_false, if_false, bind_ok_iff, Except.ok.injEq, Option.some.injEq] at hs hin
        have hin' : inherited = [] := (Except.ok.inj hin).symm
        obtain ⟨l, hl, rfl⟩ := hs
        intro k r hk
        rw [Dict.get?_set] at hk
        have hlid : l.id = cur.id := ((resolveLib_ok_iff _ _ _ _).1 hl).2.2.1
        split_ifs at hk with hkl
        · cases hk
          rw [hin'] at hl
          exact ⟨cur, by rw [← hkl, hlid, e1]; exact hcur, hl⟩
        · exact hst k r hk

theorem resolveLibrary_plain {parser : Parser} {os : Nat → SetOrder} (ho : ∀ i, (os i).Valid) {ls : List InputLibrary}
    (h : ∀ l ∈ ls, l.dependencies = [] ∧ ∃ r, resolveLib parser [] l = .ok r) {fuel : Nat} (hf : 3 * ls.length + 2 ≤ fuel) :
    ∃ libs, resolveLibrary parser os fuel ls = some (.ok libs) ∧
      (∀ k r, libs.get? k = some r → ∃ l ∈ ls, l.id = k ∧ resolveLib parser [] l = .ok r) ∧ ∀ l ∈ ls, (libs.get? l.id).isSome = true := by
  have hmem : ∀ k l, declaredLib ls k = some l → l ∈ ls ∧ l.id = k := by
    intro k l hl
    exact ⟨List.mem_reverse.1 (List.mem_of_find?_eq_some hl), by simpa using List.find?_some hl⟩
  have hdep : ∀ k d, ¬ DependsOn ls k d := by
    rintro k d ⟨l, hl, hd⟩
    rw [(h l (hmem k l hl).1).1] at hd
    cases hd
  have hvis : ∀ {k id pt}, Visible ls [] k id pt → ∃ l, declaredLib ls k = some l ∧ ownPortType l id = some pt := by
    intro k id pt hv
    cases hv with
    | preloaded hp => cases hp
    | own hl hp => exact ⟨_, hl, hp⟩
    | dependency hd _ => exact absurd hd (hdep _ _)
  have hnc : NoConflict ls (preloadedTypes []) := by
    intro k id pt pt' h1 h2
    obtain ⟨l, e1, e2⟩ := hvis h1
    obtain ⟨l', e1', e2'⟩ := hvis h2
    rw [e1] at e1'
    cases e1'
    rw [e2] at e2'
    cases e2'
    rfl
  have : Acyclic ls ∧ Closed ls ∧ ∀ k l, declaredLib ls k = some l → WellFormed parser ls (preloadedTypes []) k l := by
    refine ⟨?_, ?_, ?_⟩
    · intro k ht
      cases ht with
      | single hd => exact hdep _ _ hd
      | tail _ hd => exact hdep _ _ hd
    · intro k d hd
      exact absurd hd (hdep _ _)
    · intro k l hl
      obtain ⟨hm, rfl⟩ := hmem k l hl
      obtain ⟨-, r, hr⟩ := h l hm
      obtain ⟨-, e2, -, e4, ms, e5, -⟩ := (resolveLib_ok_iff _ _ _ _).1 hr
      refine ⟨?_, e2, ?_⟩
      · rintro id pt pt' (hp | ⟨d, hd, -⟩)
        · cases hp
        · exact absurd hd (hdep _ _)
      · intro types ht im him
        have hg : ∀ id, types.get? id = r.portTypes.get? id := by
          intro id
          rw [e4, Dict.get?_update _ _ (Dict.nodup_ofItems _), own_get?]
          ext pt
          rw [ht]
          constructor
          · intro hv
            obtain ⟨l', h1, h2⟩ := hvis hv
            rw [hl] at h1
            cases h1
            rw [h2]
            rfl
          · intro hp
            cases ho : ownPortType l id with
            | none => rw [ho] at hp; cases hp
            | some x =>
              rw [ho] at hp
              cases hp
              exact .own hl ho
        rw [resolveModel_congr parser hg]
        clear hg ht
        generalize l.models = ims at e5 him
        induction e5 with
        | nil => cases him
        | cons hx _ ih =>
          rcases List.mem_cons.1 him with rfl | him
          · exact ⟨_, hx⟩
          · exact ih him
  obtain ⟨libs, hl⟩ := (Props.c27_succeeds_iff parser os ho ls [] hnc).2 this
  obtain ⟨r, hr⟩ := Props.c27_terminates parser os ho ls []
  have e := hr _ (Nat.le_refl _)
  rw [hl] at e
  cases e
  refine ⟨libs, hr _ hf, ?_, ?_⟩
  · intro k r hk
    obtain ⟨l, e1, e2⟩ := runLib_plain ho (libs := libDict ls) (by
      intro k l hl
      rw [libDict_get?] at hl
      exact ⟨(hmem k l hl).2, (h l (hmem k l hl).1).1⟩) _ _ _ (by intro k r hk; cases hk) hl k r hk
    rw [libDict_get?] at e1
    exact ⟨l, (hmem k l e1).1, (hmem k l e1).2, e2⟩
  · intro l hm
    cases hd : declaredLib ls l.id with
    | none =>
      have := List.find?_eq_none.1 hd l (List.mem_reverse.2 hm)
      simp at this
    | some l' =>
      obtain ⟨r, hr, -⟩ := (Props.c28_content parser os ho _ ls [] libs hl).1 l.id l' hd
      simp [hr]

end Verif
