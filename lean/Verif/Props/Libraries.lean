import Verif.Lemmas.Library

/-! # Properties C27 and C28: resolution of libraries -/

namespace Verif
namespace Props

/-- a parser for the examples: only numbers 0 to 9 and identifiers -/
def exampleParser : Parser := fun vars pars s =>
  if s ∈ vars then .ok (.var s) else if s ∈ pars then .ok (.par s) else .ok (.lit 1)

/-- sets gone through in the order of insertion -/
def firstOrder : SetOrder := ⟨fun l => l.headD "", id⟩
/-- sets gone through in the opposite order -/
def lastOrder : SetOrder := ⟨fun l => l.reverse.headD "", List.reverse⟩

theorem firstOrder_valid : firstOrder.Valid where
  pick_mem l h := by cases l with
    | nil => exact absurd rfl h
    | cons x l => simp [firstOrder]
  order_mem l x := Iff.rfl

theorem lastOrder_valid : lastOrder.Valid where
  pick_mem l h := by
    have := firstOrder_valid.pick_mem l.reverse (by simpa using h)
    simpa [firstOrder, lastOrder] using this
  order_mem l x := by simp [lastOrder]

/-- **C27**, termination: whatever the libraries and the orders in which sets are gone through, the loops of
`resolve_library` are over after at most `3 n + 2` iterations, for `n` libraries; the result no longer changes after. -/
theorem c27_terminates (parser : Parser) (os : Nat → SetOrder) (ho : ∀ i, (os i).Valid) (input : List InputLibrary)
    (preloaded : List Library) :
    ∃ r, ∀ fuel, 3 * input.length + 2 ≤ fuel → resolveLibrary parser os fuel input preloaded = some r := by
  obtain ⟨r, hr⟩ := runLib_terminates (nodup_preloadedTypes preloaded) ho (3 * input.length + 2) 0 _
    (libInv_init parser input (preloadedTypes preloaded) (Dict.ofItems (preloaded.map fun l => (l.id, l))))
    (Nat.lt_succ_of_le (libMeasure_init input _))
  refine ⟨r, fun fuel hf => ?_⟩
  obtain ⟨k, rfl⟩ := Nat.exists_eq_add_of_le hf
  exact runLib_mono _ _ _ _ _ _ _ _ hr k

/-- the invariant at the end of a successful resolution -/
theorem resolved_final {parser : Parser} {os : Nat → SetOrder} (ho : ∀ i, (os i).Valid) {fuel : Nat}
    {input : List InputLibrary} {preloaded : List Library} {out : Dict String Library}
    (h : resolveLibrary parser os fuel input preloaded = some (.ok out)) :
    ∃ treated : List String, treated.Nodup ∧ (∀ k, k ∈ treated ↔ ∃ l, declaredLib input k = some l) ∧ Ordered input treated ∧
      (∀ k l, declaredLib input k = some l → ∃ r, out.get? k = some r ∧
        IsResolved parser input (preloadedTypes preloaded) k l r ∧
        (NoConflict input (preloadedTypes preloaded) → WellFormed parser input (preloadedTypes preloaded) k l)) ∧
      ∀ k, declaredLib input k = none → out.get? k = Dict.get? (Dict.ofItems (preloaded.map fun l => (l.id, l))) k := by
  obtain ⟨st, inv, hs, hr, rfl⟩ := runLib_ok (nodup_preloadedTypes preloaded) ho fuel 0 _ (libInv_init parser input _ _) out h
  have hcov : ∀ k, k ∈ st.treated ↔ ∃ l, declaredLib input k = some l := by
    intro k
    rw [← mem_libDict_keys]
    refine ⟨inv.treated_keys k, fun hk => ?_⟩
    rcases inv.covered k hk with h | h | h
    · exact h
    · rw [hr] at h; cases h
    · rw [hs] at h; cases h
  refine ⟨st.treated, inv.treated_nodup, hcov, inv.ordered, ?_, ?_⟩
  · intro k l hl
    obtain ⟨l', r, h1, h2, _, h4, h5⟩ := inv.resolved k ((hcov k).2 ⟨l, hl⟩)
    rw [hl] at h1; cases h1
    exact ⟨r, h2, h4, h5⟩
  · intro k hk
    apply inv.others
    rw [mem_libDict_keys, hk]
    simp

/-- **C27**, success: when the resolution succeeds there is an order of the libraries, without repetition, in which each
one comes after its dependencies (the list starts with the last one); no library depends on itself, directly or not, and
no dependency is missing; each library is in the result. -/
theorem c27_success (parser : Parser) (os : Nat → SetOrder) (ho : ∀ i, (os i).Valid) (fuel : Nat)
    (input : List InputLibrary) (preloaded : List Library) (out : Dict String Library)
    (h : resolveLibrary parser os fuel input preloaded = some (.ok out)) :
    (∃ order : List String, order.Nodup ∧ (∀ k, k ∈ order ↔ ∃ l, declaredLib input k = some l) ∧
      ∀ after k before, order = after ++ k :: before → ∀ d, DependsOn input k d → d ∈ before) ∧
    Acyclic input ∧ Closed input ∧ ∀ k l, declaredLib input k = some l → ∃ r, out.get? k = some r := by
  obtain ⟨tr, nd, hmem, ord, hres, -⟩ := resolved_final ho h
  refine ⟨⟨tr, nd, hmem, ?_⟩, ?_, ?_, ?_⟩
  · clear nd hmem
    induction ord with
    | nil => intro a k b he; simp at he
    | @cons x l hd _ ih =>
      intro a k b he d hdep
      cases a with
      | nil =>
        simp only [List.nil_append, List.cons.injEq] at he
        obtain ⟨rfl, rfl⟩ := he
        exact hd d hdep
      | cons y a =>
        simp only [List.cons_append, List.cons.injEq] at he
        exact ih a k b he.2 d hdep
  · intro k hk
    obtain ⟨d, ⟨l, hl, _⟩, _⟩ := Relation.TransGen.head'_iff.1 hk
    exact ord.acyclic nd k ((hmem k).2 ⟨l, hl⟩) hk
  · intro k d hkd
    obtain ⟨l, hl, hd⟩ := hkd
    exact (hmem d).1 (ord.closed k ((hmem k).2 ⟨l, hl⟩) d (.single ⟨l, hl, hd⟩))
  · intro k l hl
    obtain ⟨r, hr, _⟩ := hres k l hl
    exact ⟨r, hr⟩

/-- **C27**, errors: if a library depends on itself, directly or not, or a dependency is not among the libraries, the
resolution ends with an error. -/
theorem c27_bad_dependencies (parser : Parser) (os : Nat → SetOrder) (ho : ∀ i, (os i).Valid)
    (input : List InputLibrary) (preloaded : List Library) (hbad : ¬ Acyclic input ∨ ¬ Closed input) :
    ∃ e, resolveLibrary parser os (3 * input.length + 2) input preloaded = some (.error e) := by
  obtain ⟨r, hr⟩ := c27_terminates parser os ho input preloaded
  cases r with
  | error e => exact ⟨e, hr _ (Nat.le_refl _)⟩
  | ok out =>
    obtain ⟨-, h1, h2, -⟩ := c27_success parser os ho _ input preloaded out (hr _ (Nat.le_refl _))
    rcases hbad with h | h
    · exact absurd h1 h
    · exact absurd h2 h

/-- **C27 and C28**: when ids of port types are not ambiguous, the resolution succeeds exactly when no library depends on
itself, no dependency is missing and each library is well formed.  This does not depend on the order of sets. -/
theorem c27_succeeds_iff (parser : Parser) (os : Nat → SetOrder) (ho : ∀ i, (os i).Valid)
    (input : List InputLibrary) (preloaded : List Library) (nc : NoConflict input (preloadedTypes preloaded)) :
    (∃ out, resolveLibrary parser os (3 * input.length + 2) input preloaded = some (.ok out)) ↔
      Acyclic input ∧ Closed input ∧
        ∀ k l, declaredLib input k = some l → WellFormed parser input (preloadedTypes preloaded) k l := by
  constructor
  · rintro ⟨out, h⟩
    obtain ⟨-, h1, h2, -⟩ := c27_success parser os ho _ input preloaded out h
    obtain ⟨_, _, _, _, hres, _⟩ := resolved_final ho h
    refine ⟨h1, h2, fun k l hl => ?_⟩
    obtain ⟨r, _, _, hw⟩ := hres k l hl
    exact hw nc
  · rintro ⟨ha, hc, hw⟩
    obtain ⟨r, hr⟩ := c27_terminates parser os ho input preloaded
    cases r with
    | ok out => exact ⟨out, hr _ (Nat.le_refl _)⟩
    | error e =>
      exact absurd (hr _ (Nat.le_refl _)) (runLib_noError (nodup_preloadedTypes preloaded) ho nc ha hc hw _ _ _
        (libInv_init parser input _ _) e)

/-- **C28**, content: a resolved library exposes exactly the ids of the port types visible in it (its own, those of the
preloaded libraries and those of its direct and transitive dependencies), each with a type visible under this id; its
models are those declared, in order, resolved with these types; libraries not in the input are those preloaded. -/
theorem c28_content (parser : Parser) (os : Nat → SetOrder) (ho : ∀ i, (os i).Valid) (fuel : Nat)
    (input : List InputLibrary) (preloaded : List Library) (out : Dict String Library)
    (h : resolveLibrary parser os fuel input preloaded = some (.ok out)) :
    (∀ k l, declaredLib input k = some l → ∃ r, out.get? k = some r ∧
      IsResolved parser input (preloadedTypes preloaded) k l r) ∧
    ∀ k, declaredLib input k = none →
      out.get? k = Dict.get? (Dict.ofItems (preloaded.map fun l => (l.id, l))) k := by
  obtain ⟨_, _, _, _, hres, hoth⟩ := resolved_final ho h
  refine ⟨fun k l hl => ?_, hoth⟩
  obtain ⟨r, h1, h2, _⟩ := hres k l hl
  exact ⟨r, h1, h2⟩

/-- **C28**, preloaded types: under each id, the type of the last preloaded library that has one. -/
theorem c28_preloaded (preloaded : List Library) (hn : ∀ l ∈ preloaded, l.portTypes.keys.Nodup) (id : String) (t : PortType) :
    (preloadedTypes preloaded).get? id = some t ↔ ∃ before l after, preloaded = before ++ l :: after ∧ l.portTypes.get? id = some t ∧
      ∀ m ∈ after, m.portTypes.get? id = none := by
  unfold preloadedTypes
  have : ∀ (ls : List Library), (∀ l ∈ ls, l.portTypes.keys.Nodup) → ∀ d : Dict String PortType,
      (ls.foldl (fun d l => d.update l.portTypes) d).get? id = some t ↔
        (∃ before l after, ls = before ++ l :: after ∧ l.portTypes.get? id = some t ∧ ∀ m ∈ after, m.portTypes.get? id = none) ∨
          d.get? id = some t ∧ ∀ m ∈ ls, m.portTypes.get? id = none := by
    intro ls
    induction ls with
    | nil => intro _ d; simp
    | cons l ls ih =>
      intro hn d
      rw [List.foldl_cons, ih (fun l h => hn l (by simp [h])), Dict.get?_update _ _ (hn l (by simp))]
      constructor
      · rintro (⟨b, k, a, rfl, h1, h2⟩ | ⟨h1, h2⟩)
        · exact .inl ⟨l :: b, k, a, rfl, h1, h2⟩
        · cases hl : l.portTypes.get? id with
          | none =>
            rw [hl] at h1
            exact .inr ⟨h1, by simpa [hl] using h2⟩
          | some u =>
            rw [hl] at h1
            exact .inl ⟨[], l, ls, rfl, by rw [hl]; exact h1, h2⟩
      · rintro (⟨b, k, a, he, h1, h2⟩ | ⟨h1, h2⟩)
        · cases b with
          | nil =>
            simp only [List.nil_append, List.cons.injEq] at he
            obtain ⟨rfl, rfl⟩ := he
            exact .inr ⟨by rw [h1]; rfl, h2⟩
          | cons b' b =>
            simp only [List.cons_append, List.cons.injEq] at he
            exact .inl ⟨b, k, a, he.2, h1, h2⟩
        · exact .inr ⟨by rw [h2 l (by simp)]; exact h1, fun m hm => h2 m (by simp [hm])⟩
  rw [this preloaded hn []]
  simp [Dict.get?]

/-- two libraries resolved from the same declarations have the same content -/
theorem _root_.Verif.IsResolved.same {parser : Parser} {input : List InputLibrary} {types : Dict String PortType} (nc : NoConflict input types) {k : String}
    {l : InputLibrary} {r r' : Library} (hr : IsResolved parser input types k l r) (hr' : IsResolved parser input types k l r') : r.Same r' := by
  have ht : ∀ id, r.portTypes.get? id = r'.portTypes.get? id := by
    intro id
    cases hx : r.portTypes.get? id with
    | some pt =>
      obtain ⟨pt', hy⟩ := hr'.all_types id pt (hr.types id pt hx)
      rw [hy, nc k id pt pt' (hr.types id pt hx) (hr'.types id pt' hy)]
    | none =>
      cases hy : r'.portTypes.get? id with
      | none => rfl
      | some pt =>
        obtain ⟨pt', hz⟩ := hr.all_types id pt (hr'.types id pt hy)
        rw [hx] at hz; cases hz
  refine ⟨by rw [hr.id, hr'.id], ?_, ht⟩
  have e1 := hr.models
  have e2 := hr'.models
  have : ∀ (ims : List InputModel) (a b : Dict String Model),
      List.Forall₂ (fun im nm => nm.1 = im.id ∧ nm.2.id = im.id ∧ resolveModel parser r.portTypes im = .ok nm.2) ims a →
      List.Forall₂ (fun im nm => nm.1 = im.id ∧ nm.2.id = im.id ∧ resolveModel parser r'.portTypes im = .ok nm.2) ims b →
      a = b := by
    intro ims a b h1 h2
    induction h1 generalizing b with
    | nil => cases h2; rfl
    | @cons im x ims a hx _ ih =>
      cases h2 with
      | @cons _ y _ b hy h2 =>
        have : x = y := by
          have := hy.2.2
          rw [← resolveModel_congr parser ht, hx.2.2] at this
          exact Prod.ext (hx.1.trans hy.1.symm) (Except.ok.inj this)
        rw [this, ih b h2]
  exact this _ _ _ e1 e2

/-- **C28 (partial)**, independence of the order of sets: when ids of port types are not ambiguous, two resolutions of the
same libraries with different orders both succeed or both fail, and give libraries with the same content.  Missing: the
ambiguous case, for which it is false (`c28_order_dependent`). -/
theorem c28_order_independent_partial (parser : Parser) (os os' : Nat → SetOrder) (ho : ∀ i, (os i).Valid)
    (ho' : ∀ i, (os' i).Valid) (input : List InputLibrary) (preloaded : List Library)
    (nc : NoConflict input (preloadedTypes preloaded)) :
    ((∃ out, resolveLibrary parser os (3 * input.length + 2) input preloaded = some (.ok out)) ↔
      ∃ out, resolveLibrary parser os' (3 * input.length + 2) input preloaded = some (.ok out)) ∧
    ∀ out out', resolveLibrary parser os (3 * input.length + 2) input preloaded = some (.ok out) →
      resolveLibrary parser os' (3 * input.length + 2) input preloaded = some (.ok out') →
      (∀ k r, out.get? k = some r → ∃ r', out'.get? k = some r' ∧ r.Same r') ∧
      ∀ k r', out'.get? k = some r' → ∃ r, out.get? k = some r ∧ r.Same r' := by
  refine ⟨(c27_succeeds_iff parser os ho input preloaded nc).trans (c27_succeeds_iff parser os' ho' input preloaded nc).symm, ?_⟩
  intro out out' h h'
  obtain ⟨h1, h2⟩ := c28_content parser os ho _ input preloaded out h
  obtain ⟨h1', h2'⟩ := c28_content parser os' ho' _ input preloaded out' h'
  constructor
  · intro k r hk
    cases hl : declaredLib input k with
    | none => exact ⟨r, by rw [h2' k hl, ← h2 k hl]; exact hk, rfl, rfl, fun _ => rfl⟩
    | some l =>
      obtain ⟨r1, e1, i1⟩ := h1 k l hl
      obtain ⟨r2, e2, i2⟩ := h1' k l hl
      rw [hk] at e1; cases e1
      exact ⟨r2, e2, i1.same nc i2⟩
  · intro k r hk
    cases hl : declaredLib input k with
    | none => exact ⟨r, by rw [h2 k hl, ← h2' k hl]; exact hk, rfl, rfl, fun _ => rfl⟩
    | some l =>
      obtain ⟨r1, e1, i1⟩ := h1 k l hl
      obtain ⟨r2, e2, i2⟩ := h1' k l hl
      rw [hk] at e2; cases e2
      exact ⟨r1, e1, i1.same nc i2⟩

/-- **C28** is violated: two dependencies that define a port type with the same id are accepted, and which of the two types
the library gets depends on the order in which a set is gone through. -/
theorem c28_order_dependent : ∃ (parser : Parser) (input : List InputLibrary) (os os' : Nat → SetOrder)
    (out out' : Dict String Library) (r r' : Library),
    (∀ i, (os i).Valid) ∧ (∀ i, (os' i).Valid) ∧
    resolveLibrary parser os (3 * input.length + 2) input [] = some (.ok out) ∧
    resolveLibrary parser os' (3 * input.length + 2) input [] = some (.ok out') ∧
    out.get? "A" = some r ∧ out'.get? "A" = some r' ∧
    r.portTypes.get? "flow" = some ⟨"flow", ["c"]⟩ ∧ r'.portTypes.get? "flow" = some ⟨"flow", ["b"]⟩ := by
  refine ⟨exampleParser, [⟨"A", ["B", "C"], [], []⟩, ⟨"B", [], [⟨"flow", ["b"]⟩], []⟩, ⟨"C", [], [⟨"flow", ["c"]⟩], []⟩],
    fun _ => firstOrder, fun _ => lastOrder, _, _, _, _, fun _ => firstOrder_valid, fun _ => lastOrder_valid, rfl, rfl, rfl, rfl, rfl, rfl⟩

/-- two preloaded libraries with a type of the same id, the second of which counts -/
example (l l' : Library) (h : l.portTypes = [("flow", ⟨"flow", ["b"]⟩)])
    (h' : l'.portTypes = [("flow", ⟨"flow", ["c"]⟩), ("heat", ⟨"heat", []⟩)]) :
    (preloadedTypes [l, l']).get? "flow" = some ⟨"flow", ["c"]⟩ :=
  (c28_preloaded [l, l'] (by simp [h, h', Dict.keys]) "flow" _).2 ⟨[l], l', [], rfl, by rw [h']; rfl, by simp⟩

/-- three libraries in a diamond over a fourth one, with a model using an inherited port type: success -/
example : ∃ out r, resolveLibrary exampleParser (fun _ => firstOrder) 14
    [⟨"A", ["B", "C"], [], [{ id := "m", ports := [⟨"p", "flow"⟩] }]⟩, ⟨"B", ["D"], [], []⟩, ⟨"C", ["D"], [], []⟩,
      ⟨"D", [], [⟨"flow", ["f"]⟩], []⟩] [] = some (.ok out) ∧ out.get? "A" = some r ∧
    r.models.get? "m" = some { id := "m", ports := [("p", ⟨⟨"flow", ["f"]⟩, "p"⟩)] } :=
  ⟨_, _, rfl, rfl, rfl⟩

/-- libraries without ambiguity, to which `c27_succeeds_iff` and `c28_order_independent_partial` apply -/
example : let input : List InputLibrary := [⟨"A", ["B"], [], [{ id := "m", ports := [⟨"p", "flow"⟩] }]⟩,
      ⟨"B", [], [⟨"flow", ["f"]⟩], []⟩]
    NoConflict input (preloadedTypes []) ∧
    ∃ out, resolveLibrary exampleParser (fun _ => lastOrder) (3 * input.length + 2) input [] = some (.ok out) := by
  intro input
  have key : ∀ k id pt, Visible input (preloadedTypes []) k id pt → pt = ⟨"flow", ["f"]⟩ := by
    intro k id pt h
    induction h with
    | preloaded h => cases h
    | @own k l id pt h1 h2 =>
      have hl : l ∈ input := by simpa using List.mem_of_find?_eq_some h1
      simp only [input, List.mem_cons, List.not_mem_nil, or_false] at hl
      rcases hl with rfl | rfl
      · cases h2
      · simp only [ownPortType, Option.map_eq_some_iff] at h2
        obtain ⟨p, hp, rfl⟩ := h2
        have := List.mem_of_find?_eq_some hp
        simp at this
        subst this
        rfl
    | dependency _ _ ih => exact ih
  exact ⟨fun k id pt pt' h h' => (key k id pt h).trans (key k id pt' h').symm, _, rfl⟩

/-- a cycle and a missing dependency -/
example : (∃ m, resolveLibrary exampleParser (fun _ => firstOrder) 8 [⟨"A", ["B"], [], []⟩, ⟨"B", ["A"], [], []⟩] [] =
      some (.error (.exception m))) ∧
    ∃ m, resolveLibrary exampleParser (fun _ => firstOrder) 8 [⟨"A", ["B"], [], []⟩] [] = some (.error (.keyError m)) :=
  ⟨⟨_, rfl⟩, ⟨_, rfl⟩⟩

/-! ## C47: content of the models of a library -/

theorem parsedAs_of_ok {parse : String → R Expr} {s : Option String} {e : Option Expr}
    (h : toExpressionIfPresent parse s = .ok e) : ParsedAs parse s e := by
  cases s with
  | none => cases h; exact .inl ⟨.inl rfl, rfl⟩
  | some t =>
    simp only [toExpressionIfPresent] at h
    split_ifs at h with ht
    · cases h; exact .inl ⟨.inr (by rw [ht]), rfl⟩
    · simp only [bind_ok_iff, Except.ok.injEq] at h
      obtain ⟨x, hx, rfl⟩ := h
      exact .inr ⟨t, x, rfl, ht, hx, rfl⟩

theorem constraintMake_name {c c' : Constraint} (h : Constraint.make c = .ok c') : c'.name = c.name := by
  unfold Constraint.make at h
  split at h
  · split_ifs at h
    split at h <;> cases h <;> rfl
  · simp only [bind_ok_iff] at h
    obtain ⟨cl, _, h⟩ := h
    by_cases hcl : (!cl) = true
    · rw [if_pos hcl] at h; cases h
    · rw [if_neg hcl] at h
      simp only [bind_ok_iff] at h
      obtain ⟨cu, _, h⟩ := h
      split_ifs at h
      cases h
      rfl

theorem toConstraint_spec {parse : String → R Expr} {ic : InputConstraint} {c : Constraint}
    (h : toConstraint parse ic = .ok c) : IsConstraint parse ic c.name c := by
  simp only [toConstraint, bind_ok_iff] at h
  obtain ⟨lb, hlb, ub, hub, e, he, h⟩ := h
  exact ⟨constraintMake_name h, e, lb, ub, he, parsedAs_of_ok hlb, parsedAs_of_ok hub, h⟩

theorem toVariable_spec {parse : String → R Expr} {iv : InputVariable} {v : Variable}
    (h : toVariable parse iv = .ok v) : IsVariable parse iv v.name v := by
  simp only [toVariable, Variable.make, bind_ok_iff, Except.ok.injEq] at h
  obtain ⟨ty, hty, lb, hlb, ub, hub, _, _, _, _, rfl⟩ := h
  refine ⟨rfl, rfl, rfl, ?_, rfl, parsedAs_of_ok hlb, parsedAs_of_ok hub⟩
  rw [get_ok_iff''] at hty
  simp only [Dict.get?_cons] at hty
  split_ifs at hty with h1 h2
  · cases hty; exact .inl ⟨h1.symm, rfl⟩
  · cases hty; exact .inr ⟨h2.symm, rfl⟩
  · cases hty

theorem collectPorts_eq (ps : List ModelPort) (acc out : Dict String ModelPort) (hacc : acc.keys.Nodup)
    (h : collectPorts ps acc = .ok out) : out = acc ++ ps.map (fun p => (p.portName, p)) ∧ out.keys.Nodup := by
  induction ps generalizing acc with
  | nil => cases h; simp [hacc]
  | cons p ps ih =>
    simp only [collectPorts] at h
    split_ifs at h with hc
    have hn : p.portName ∉ acc.keys := fun hm => hc (Dict.contains_iff.2 hm)
    rw [Dict.set_of_notMem hn] at h
    have := ih _ (by rw [← Dict.set_of_notMem (v := p) hn]; exact Dict.nodup_set hacc _ _) h
    simpa using this

theorem forall₂_ofItems {α β : Type} {R : α → β → Prop} {xs : List α} {ys : List β} (f : α → String) (g : β → String)
    (h : List.Forall₂ R xs ys) (hid : ∀ a b, R a b → g b = f a) (nd : (xs.map f).Nodup) :
    List.Forall₂ (fun a (nb : String × β) => nb.1 = f a ∧ R a nb.2) xs (Dict.ofItems (ys.map fun b => (g b, b))) := by
  have hmap : ys.map g = xs.map f := by
    clear nd
    induction h with
    | nil => rfl
    | cons h1 _ ih => simp [hid _ _ h1, ih]
  rw [Dict.ofItems_of_nodup (by simpa [Function.comp_def, hmap] using nd), List.forall₂_map_right_iff]
  exact h.imp fun a b hab => ⟨hid a b hab, hab⟩

/-- **C47 (partial).** A model of a library whose declared ids are distinct has exactly the declared parameters, variables,
ports, port field definitions, constraints and objective, in order, with the declared structure, type, bounds, port type
and expressions.  Missing: models in which an id is used twice, of which one declaration is silently dropped
(`c47_duplicate_variable`); ports used twice are refused (second part). -/
theorem c47_model_partial (parser : Parser) (types : Dict String PortType) (im : InputModel) (m : Model)
    (h : resolveModel parser types im = .ok m)
    (hp : (im.parameters.map (·.id)).Nodup) (hv : (im.variables_.map (·.id)).Nodup)
    (hc : (im.constraints.map (·.id)).Nodup) (hb : (im.bindingConstraints.map (·.id)).Nodup)
    (hd : (im.portFieldDefinitions.map fun d => (d.port, d.field)).Nodup) :
    let parse := parser (im.variables_.map (·.id)) (im.parameters.map (·.id))
    m.id = im.id ∧
    m.parameters = im.parameters.map (fun p => (p.id, ⟨p.id, .continuous, ⟨p.timeDependent, p.scenarioDependent⟩⟩)) ∧
    List.Forall₂ (fun iv nv => IsVariable parse iv nv.1 nv.2) im.variables_ m.variables_ ∧
    List.Forall₂ (fun ic nc => IsConstraint parse ic nc.1 nc.2) im.constraints m.constraints ∧
    List.Forall₂ (fun ic nc => IsConstraint parse ic nc.1 nc.2) im.bindingConstraints m.bindingConstraints ∧
    List.Forall₂ (fun ip np => np.1 = ip.id ∧ np.2.portName = ip.id ∧ types.get? ip.type = some np.2.portType) im.ports m.ports ∧
    List.Forall₂ (fun id nd => nd.1 = ⟨id.port, id.field⟩ ∧ nd.2.portField = ⟨id.port, id.field⟩ ∧
      parse id.definition = .ok nd.2.definition) im.portFieldDefinitions m.portFieldsDefinitions ∧
    ParsedAs parse im.objective m.objectiveOperational ∧ m.objectiveInvestment = none := by
  intro parse
  have hid := resolveModel_id h
  simp only [resolveModel, bind_ok_iff] at h
  obtain ⟨vars, hvars, ports, hports, defs, hdefs, binding, hbinding, cons, hcons, obj, hobj, h⟩ := h
  simp only [mkModel, Model.make, bind_ok_iff, Except.ok.injEq] at h
  obtain ⟨pd, hpd, _, _, _, _, _, _, rfl⟩ := h
  obtain ⟨rfl, -⟩ := collectPorts_eq _ _ _ (by simp [Dict.keys]) hpd
  refine ⟨rfl, ?_, ?_, ?_, ?_, ?_, ?_, parsedAs_of_ok hobj, rfl⟩
  · dsimp only
    rw [Dict.ofItems_of_nodup]
    · simp [toParameter, Function.comp_def]
    · simpa [toParameter, Function.comp_def] using hp
  · have := forall₂_ofItems (·.id) (·.name) (appendAll_ok_iff.1 hvars) (fun a b hab => (toVariable_spec hab).name) hv
    exact this.imp fun a b hab => by
      have hs := toVariable_spec hab.2
      exact { hs with key := hab.1 }
  · have := forall₂_ofItems (·.id) (·.name) (appendAll_ok_iff.1 hcons) (fun a b hab => (toConstraint_spec hab).1) hc
    exact this.imp fun a b hab => ⟨hab.1, (toConstraint_spec hab.2).2⟩
  · have := forall₂_ofItems (·.id) (·.name) (appendAll_ok_iff.1 hbinding) (fun a b hab => (toConstraint_spec hab).1) hb
    exact this.imp fun a b hab => ⟨hab.1, (toConstraint_spec hab.2).2⟩
  · simp only [List.nil_append, List.forall₂_map_right_iff]
    refine (appendAll_ok_iff.1 hports).imp fun a b hab => ?_
    simp only [resolveModelPort, bind_ok_iff, get_ok_iff'', Except.ok.injEq] at hab
    obtain ⟨t, ht, rfl⟩ := hab
    exact ⟨rfl, rfl, ht⟩
  · have hf := appendAll_ok_iff.1 hdefs
    have hspec : ∀ a b, resolveFieldDefinition parse a = .ok b → b.portField = ⟨a.port, a.field⟩ ∧ parse a.definition = .ok b.definition := by
      intro a b hab
      simp only [resolveFieldDefinition, PortFieldDefinition.make, bind_ok_iff, Except.ok.injEq] at hab
      obtain ⟨e, he, _, _, rfl⟩ := hab
      exact ⟨rfl, he⟩
    have hmap' : ∀ (ds : List InputPortFieldDefinition) (defs : List PortFieldDefinition),
        List.Forall₂ (fun x y => resolveFieldDefinition parse x = .ok y) ds defs →
        defs.map (·.portField) = ds.map fun d => (⟨d.port, d.field⟩ : PortFieldId) := by
      intro ds defs hf
      induction hf with
      | nil => rfl
      | cons h1 _ ih => rw [List.map_cons, List.map_cons, (hspec _ _ h1).1, ih]
    have hmap := hmap' _ _ hf
    have hd' : (im.portFieldDefinitions.map fun d => (⟨d.port, d.field⟩ : PortFieldId)).Nodup := by
      have : (im.portFieldDefinitions.map fun d => (⟨d.port, d.field⟩ : PortFieldId)) =
          (im.portFieldDefinitions.map fun d => (d.port, d.field)).map fun x => ⟨x.1, x.2⟩ := by simp
      rw [this]
      exact List.Nodup.map (fun a b hab => by cases a; cases b; simp_all) hd
    dsimp only
    rw [Dict.ofItems_of_nodup (by simpa [Function.comp_def, hmap] using hd'), List.forall₂_map_right_iff]
    exact hf.imp fun a b hab => ⟨(hspec a b hab).1, hspec a b hab⟩

/-- **C47**, ports: two ports with the same name are refused. -/
theorem c47_duplicate_port_rejected (parser : Parser) (types : Dict String PortType) (im : InputModel) (m : Model)
    (h : resolveModel parser types im = .ok m) : (im.ports.map (·.id)).Nodup := by
  simp only [resolveModel, bind_ok_iff] at h
  obtain ⟨vars, hvars, ports, hports, defs, hdefs, binding, hbinding, cons, hcons, obj, hobj, h⟩ := h
  simp only [mkModel, bind_ok_iff] at h
  obtain ⟨pd, hpd, _⟩ := h
  obtain ⟨rfl, nd⟩ := collectPorts_eq _ _ _ (by simp [Dict.keys]) hpd
  have hf := appendAll_ok_iff.1 hports
  have hmap' : ∀ (ps : List InputModelPort) (ports : List ModelPort),
      List.Forall₂ (fun x y => resolveModelPort types x = .ok y) ps ports → ports.map (·.portName) = ps.map (·.id) := by
    intro ps ports hf
    induction hf with
    | nil => rfl
    | @cons a b _ _ h1 _ ih =>
      simp only [resolveModelPort, bind_ok_iff, Except.ok.injEq] at h1
      obtain ⟨t, _, rfl⟩ := h1
      simp [ih]
  have hmap := hmap' _ _ hf
  rw [← hmap]
  simpa [Dict.keys, Function.comp_def] using nd

/-- **C47** is violated: of two variables declared with the same id, the first disappears without an error. -/
theorem c47_duplicate_variable : ∃ (parser : Parser) (im : InputModel) (m : Model),
    resolveModel parser [] im = .ok m ∧ im.variables_.length = 2 ∧ m.variables_.length = 1 :=
  ⟨exampleParser, { id := "m", variables_ := [{ id := "x", variableType := "integer" }, { id := "x" }] }, _, rfl, rfl, rfl⟩

/-- a model with everything: the hypotheses hold -/
example : ∃ m, resolveModel exampleParser [("flow", ⟨"flow", ["f"]⟩)]
    { id := "m", parameters := [⟨"p", true, false⟩], variables_ := [{ id := "x", upperBound := some "p", variableType := "integer" }],
      ports := [⟨"o", "flow"⟩], portFieldDefinitions := [⟨"o", "f", "x"⟩], constraints := [⟨"c", "x", none, some "p"⟩],
      objective := some "1" } = .ok m := ⟨_, rfl⟩

end Props
end Verif
