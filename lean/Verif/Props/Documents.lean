import Verif.Lemmas.DocumentKeys
import Verif.Lemmas.DocumentSame
import Verif.Props.Print
import Verif.Props.Cli
import Verif.Props.AntaresProblem
import Verif.Props.PypsaProblem

/-!
# C70, C71, C72: library and system files

What trees mean is said in `Spec/Document.lean`, without the code that reads them.
-/

namespace Verif.Props
open Verif Verif.Doc Verif.Shipped

/-! ## C70: system files written by the converters -/

/-- **C70.** What a converter writes is read back as the same system, whatever fields were set. -/
theorem c70_written_read (L : Lenient) (s : SetSystem) : parseYamlComponents L (transformToYaml s) = .ok s.values := by
  unfold parseYamlComponents transformToYaml
  rw [show subscript "system" (.map [(some "system", dumpSystem s)]) = .ok (dumpSystem s) from rfl]
  simp only [ok_bind, read_dumpSystem]

/-- **C70**: even the fields that were not set stay so, hence writing the system again gives the same file. -/
theorem c70_written_twice (L : Lenient) (s s' : SetSystem) (h : readSystem L (dumpSystem s) = .ok s') : transformToYaml s' = transformToYaml s := by
  rw [read_dumpSystem] at h
  cases h
  rfl

/-- **C70**: two systems that differ are never written as the same file. -/
theorem c70_distinct {s s' : SetSystem} (h : transformToYaml s = transformToYaml s') : s = s' := by
  have h1 : dumpSystem s = dumpSystem s' := by
    unfold transformToYaml at h
    simpa using h
  have h2 := read_dumpSystem ⟨fun _ => none, fun _ => none, fun _ => none, fun _ => none⟩ s
  rw [h1, read_dumpSystem] at h2
  exact (Except.ok.inj h2).symm

theorem cli_shipped {os : Nat → SetOrder} (ho : ∀ i, (os i).Valid) {ls : List InputLibrary}
    (hls : ∀ l ∈ ls, l ∈ [antaresInput, andromedeInput, pypsaInput]) {fuel : Nat} (hfuel : 3 * ls.length + 2 ≤ fuel) :
    ∃ libs, resolveLibrary textParser os fuel ls = some (.ok libs) ∧ ShippedLibraries libs ∧
      ∀ l ∈ ls, (Dict.get? libs l.id).isSome = true := by
  obtain ⟨libs, h1, h2, h3⟩ := resolveLibrary_plain ho (fun l hl => shipped_inputs (hls l hl)) hfuel
  refine ⟨libs, h1, ?_, h3⟩
  intro k r hk
  obtain ⟨l, e1, e2, e3⟩ := h2 k r hk
  exact ⟨l, hls l e1, e2, e3⟩

/-- **C70 (partial), from an Antares study to the solver.** Convert an Antares study, write the result to a file, and run the command line
on this file and on the files of the shipped libraries: the problem handed to the solver is the problem of the study.  Missing: what is
missing in `c69_problem_partial`. -/
theorem c70_antares_partial (st : AStudy) (disk : String → R Frame) (B : List (AArea × BatteryData)) (T S : Nat) (period : Option Int)
    (pre : Dict String Num) (h : st.Supported disk B T S period) (hkept : st.KeptData B T S)
    (hfirst : ∀ a c, .thermal a c ∈ st.objects → T ≤ comparedPeriod period ∧ c.units (T - 1) 0 = c.units 0 0)
    (L : Lenient) (os : Nat → SetOrder) (ho : ∀ i, (os i).Valid) (fuel : Nat) :
    ∃ sys files, convertStudy st batteryTemplate period pre = .ok (sys, files) ∧
      ∀ (inst : SetSystem), inst.values = sys → ∀ (d : Disk) (f : CliFlags) (paths : List String) (comp dir : String) (ls : List InputLibrary),
        Names d f paths comp (some dir) → ReadAs d paths ls → (ls.map (·.id)).Nodup →
        (∀ l ∈ ls, l ∈ [antaresInput, andromedeInput, pypsaInput]) → antaresInput ∈ ls → (B ≠ [] → andromedeInput ∈ ls) →
        3 * ls.length + 2 ≤ fuel → d.system comp = parseYamlComponents L (transformToYaml inst) →
        (∀ n, d.table dir n = AStudy.load disk files n) → f.duration = T → f.scenario = S →
        ∃ p, mainCli textParser os fuel d f = some (.ok p) ∧
          (∀ (pt : Nat → ℚ) (σ : TermKey → ℚ), (∀ k i, p.columns.get? k = some i → pt i = σ k) →
            ((p.solver.Feasible pt ↔ st.Admits disk B T S (aPlanOf σ)) ∧ p.solver.cost pt = st.planCost B T S (aPlanOf σ)) ∧
            ((p.solver.Feasible pt ∧ ∀ pt', p.solver.Feasible pt' → p.solver.cost pt ≤ p.solver.cost pt') ↔
              (st.Admits disk B T S (aPlanOf σ) ∧ ∀ x, st.Admits disk B T S x → st.planCost B T S (aPlanOf σ) ≤ st.planCost B T S x))) := by
  obtain ⟨sys, files, ok, _⟩ := h.converted pre
  refine ⟨sys, files, ok, ?_⟩
  intro inst hi d f paths comp dir ls hn hr hnd hls ha hb hfuel hs ht hT hS
  obtain ⟨libs, h1, h2, h3⟩ := cli_shipped ho hls hfuel
  obtain ⟨sys', files', rsys, net, db, p, ok', g1, g2, g3, g4, g5⟩ := c69_problem_partial st disk B T S period pre h hkept hfirst libs h2
    ⟨h3 _ ha, fun hB => h3 _ (hb hB)⟩
  rw [ok] at ok'
  cases ok'
  refine ⟨p, (c66_chain textParser os ho fuel d f p).2 ⟨paths, comp, some dir, ls, libs, sys, rsys, db, net, hn, hr, hnd, h1, ?_, g1, ?_, g2, ?_⟩, g5⟩
  · rw [hs, c70_written_read, hi]
  · rw [← g3]
    congr 1
    funext n
    exact ht n
  · rw [hT, hS]
    exact g4

/-- **C70 (partial), from a PyPSA network to the solver.** The same for a network of PyPSA.  Missing: what is missing in
`c65_problem_partial`. -/
theorem c70_pypsa_partial (pf : String → Option Num) (n : PNetwork) (T : Nat) (ht : n.Tables) (hk : SupportedKind n) (hc : Convertible pf n)
    (hd : DistinctNames n) (hb : BusesExist n) (hs : SeriesExist n) (hv : n.SoundData pf T) (hst : n.StorageUnitsFixed pf T)
    (hkept : n.KeptData pf T) (L : Lenient) (os : Nat → SetOrder) (ho : ∀ i, (os i).Valid) (fuel : Nat) :
    ∃ s, pypsaConvert pf n = .ok s ∧
      ∀ (inst : SetSystem), inst.values = s.system → ∀ (d : Disk) (f : CliFlags) (paths : List String) (comp dir : String) (ls : List InputLibrary),
        Names d f paths comp (some dir) → ReadAs d paths ls → (ls.map (·.id)).Nodup →
        (∀ l ∈ ls, l ∈ [antaresInput, andromedeInput, pypsaInput]) → pypsaInput ∈ ls →
        3 * ls.length + 2 ≤ fuel → d.system comp = parseYamlComponents L (transformToYaml inst) →
        (∀ x, d.table dir x = s.load x) → f.duration = T → f.scenario = 1 →
        ∃ p, mainCli textParser os fuel d f = some (.ok p) ∧
          (∀ (pt : Nat → ℚ) (σ : TermKey → ℚ), (∀ k i, p.columns.get? k = some i → pt i = σ k) →
            ((p.solver.Feasible pt ↔ n.Admits pf T (planOf σ)) ∧ p.solver.cost pt = n.planCost pf T (planOf σ)) ∧
            ((p.solver.Feasible pt ∧ ∀ pt', p.solver.Feasible pt' → p.solver.cost pt ≤ p.solver.cost pt') ↔
              (n.Admits pf T (planOf σ) ∧ ∀ x, n.Admits pf T x → n.planCost pf T (planOf σ) ≤ n.planCost pf T x))) := by
  have h0 : ∃ s, pypsaConvert pf n = .ok s := by
    obtain ⟨libs, -, h2, h3⟩ := cli_shipped (os := os) ho (ls := [pypsaInput]) (by simp) (fuel := 5) (by simp)
    obtain ⟨s, _, _, _, _, ok, _⟩ := c65_problem_partial pf n T ht hk hc hd hb hs hv hst hkept libs h2 (h3 pypsaInput (by simp))
    exact ⟨s, ok⟩
  obtain ⟨s, ok⟩ := h0
  refine ⟨s, ok, ?_⟩
  intro inst hi d f paths comp dir ls hn hr hnd hls ha hfuel hsys htab hT hS
  obtain ⟨libs, h1, h2, h3⟩ := cli_shipped ho hls hfuel
  obtain ⟨s', sys, net, db, p, ok', g1, g2, g3, g4, g5⟩ := c65_problem_partial pf n T ht hk hc hd hb hs hv hst hkept libs h2 (h3 _ ha)
  rw [ok] at ok'
  cases ok'
  refine ⟨p, (c66_chain textParser os ho fuel d f p).2 ⟨paths, comp, some dir, ls, libs, s.system, sys, db, net, hn, hr, hnd, h1, ?_, g1, ?_, g2, ?_⟩, g5⟩
  · rw [hsys, c70_written_read, hi]
  · rw [← g3]
    congr 1
    funext x
    exact htab x
  · rw [hT, hS]
    exact g4

/-! ## C71: nothing in a file is ignored or taken for something else -/

theorem subscript_iff {key : String} {tree d : Doc} (hc : tree.Clear) : subscript key tree = .ok d ↔ d.Part key tree := by
  unfold Doc.Part
  cases tree with
  | map l =>
    simp only [subscript, Doc.map.injEq, exists_eq_left']
    rw [← lookup_iff (clear_keys hc.entries)]
    cases lookup l key <;> simp
  | _ => simp [subscript]

theorem Part.clear {key : String} {tree d : Doc} (hc : tree.Clear) (h : d.Part key tree) : d.Clear := by
  obtain ⟨l, rfl, hm⟩ := h
  exact hc.value hm

/-- **C71 (partial), system files.** A file where no key is given twice is accepted exactly when its `system` describes a system: all fields
known, needed ones given, all values of their types.  The result is what the file describes.  Missing: repeated keys (see
`c71_repeated_key`) and what stands beside `system` (see `c71_beside_ignored`). -/
theorem c71_system_partial (L : Lenient) (tree : Doc) (hc : tree.Clear) (s : InputSystem) :
    parseYamlComponents L tree = .ok s ↔ ∃ d, d.Part "system" tree ∧ SaysSystem L s d := by
  unfold parseYamlComponents
  simp only [bind_ok_iff, subscript_iff hc, Except.ok.injEq]
  constructor
  · rintro ⟨d, hp, x, hx, rfl⟩
    exact ⟨d, hp, (readsAs_system L d (Part.clear hc hp) _).1 ⟨x, hx, rfl⟩⟩
  · rintro ⟨d, hp, hs⟩
    obtain ⟨x, hx, hv⟩ := (readsAs_system L d (Part.clear hc hp) _).2 hs
    exact ⟨d, hp, x, hx, hv⟩

/-- **C71 (partial), library files.** The same for libraries. -/
theorem c71_library_partial (L : Lenient) (num : Num → String) (tree : Doc) (hc : tree.Clear) (b : InputLibrary) :
    parseYamlLibrary L num tree = .ok b ↔ ∃ d, d.Part "library" tree ∧ SaysLibrary L num b d := by
  unfold parseYamlLibrary
  simp only [bind_ok_iff, subscript_iff hc]
  have key : ∀ d, (match readLibrary L num d with | .ok l => (.ok l : R InputLibrary) | .error _ => .error (.valueError "An error occurred during parsing")) =
      .ok b ↔ readLibrary L num d = .ok b := by
    intro d
    cases readLibrary L num d <;> simp
  constructor
  · rintro ⟨d, hp, hx⟩
    exact ⟨d, hp, (readsAs_library L num d (Part.clear hc hp) _).1 ⟨b, (key d).1 hx, rfl⟩⟩
  · rintro ⟨d, hp, hs⟩
    obtain ⟨x, hx, rfl⟩ := (readsAs_library L num d (Part.clear hc hp) _).2 hs
    exact ⟨d, hp, (key d).2 hx⟩

/-- **C71**: in an accepted file, every key at any depth is known. -/
theorem c71_known_keys (L : Lenient) (num : Num → String) (tree : Doc) (hc : tree.Clear) :
    (∀ s d, parseYamlComponents L tree = .ok s → d.Part "system" tree → KeysIn systemKeys d) ∧
    (∀ b d, parseYamlLibrary L num tree = .ok b → d.Part "library" tree → KeysIn libraryKeys d) := by
  have uniq : ∀ {key : String} {d d' : Doc}, d.Part key tree → d'.Part key tree → d = d' := by
    intro key d d' h h'
    rw [← subscript_iff hc] at h h'
    rw [h] at h'
    exact Except.ok.inj h'
  constructor
  · intro s d h hp
    obtain ⟨d', hp', hs⟩ := (c71_system_partial L tree hc s).1 h
    rw [uniq hp hp']
    exact keysIn_system s d' (Part.clear hc hp') hs
  · intro b d h hp
    obtain ⟨d', hp', hs⟩ := (c71_library_partial L num tree hc b).1 h
    rw [uniq hp hp']
    exact keysIn_library b d' (Part.clear hc hp') hs

theorem respects_subscript {key : String} (hk : '-' ∉ key.toList ∧ '_' ∉ key.toList) {tree tree' : Doc} (hc : tree.Clear) (h : tree.Same tree') :
    (∃ e, subscript key tree = .error e ∧ subscript key tree' = .error e) ∨
    ∃ d d', subscript key tree = .ok d ∧ subscript key tree' = .ok d' ∧ d.Clear ∧ d.Same d' := by
  have hkk : toKebab key = key := by
    unfold toKebab
    have : ∀ l : List Char, '_' ∉ l → l.map (fun c => if c = '_' then '-' else c) = l := by
      intro l
      induction l with
      | nil => intro _; rfl
      | cons c l ih =>
        intro h
        simp only [List.mem_cons, not_or] at h
        rw [List.map_cons, ih h.2, if_neg fun e => h.1 e.symm]
    rw [this _ hk.2, String.ofList_toList]
  have both : ∀ l : Entries, field l key = lookup l key := by
    intro l
    unfold field
    rw [hkk]
    cases lookup l key <;> rfl
  cases h with
  | refl =>
    cases hs : subscript key tree with
    | error e => exact .inl ⟨e, rfl, rfl⟩
    | ok d => exact .inr ⟨d, d, rfl, rfl, Part.clear hc ((subscript_iff hc).1 hs), .refl d⟩
  | seq _ => exact .inl ⟨_, rfl, rfl⟩
  | map hp he =>
    have hm := sameMaps hc.entries hp he
    simp only [subscript]
    rcases hm.field hk.1 with ⟨h1, h2⟩ | ⟨d, d', h1, h2, hg, hs⟩
    · rw [both] at h1 h2
      rw [h1, h2]
      exact .inl ⟨_, rfl, rfl⟩
    · rw [both] at h1 h2
      rw [h1, h2]
      exact .inr ⟨d, d', rfl, rfl, hc.gives hg, hs⟩

/-- **C71, order and spelling of keys.** Two files with the same data, the keys being in another order or in the other spelling, are read in
the same way, or refused with the same error. -/
theorem c71_same (L : Lenient) (num : Num → String) {tree tree' : Doc} (hc : tree.Clear) (h : tree.Same tree') :
    parseYamlComponents L tree = parseYamlComponents L tree' ∧ parseYamlLibrary L num tree = parseYamlLibrary L num tree' := by
  constructor
  · unfold parseYamlComponents
    rcases respects_subscript (key := "system") (by decide) hc h with ⟨e, h1, h2⟩ | ⟨d, d', h1, h2, h3, h4⟩
    · rw [h1, h2]
    · rw [h1, h2, ok_bind, ok_bind, respects_system L d d' h3 h4]
  · unfold parseYamlLibrary
    rcases respects_subscript (key := "library") (by decide) hc h with ⟨e, h1, h2⟩ | ⟨d, d', h1, h2, h3, h4⟩
    · rw [h1, h2]
    · rw [h1, h2, ok_bind, ok_bind, respects_library L num d d' h3 h4]

/-- **C71, violation: repeated keys.** If a key is given again later in a mapping, the first value is dropped, whatever it is: nothing of it
is looked at. -/
theorem c71_repeated_key (L : Lenient) (num : Num → String) (k : String) (x : Doc) (a b : Entries) (hk : some k ∈ b.map (·.1)) :
    (readSystem L (.map (a ++ (some k, x) :: b)) = readSystem L (.map (a ++ b))) ∧
    (readComponent L (.map (a ++ (some k, x) :: b)) = readComponent L (.map (a ++ b))) ∧
    (readParam L (.map (a ++ (some k, x) :: b)) = readParam L (.map (a ++ b))) ∧
    (readLibrary L num (.map (a ++ (some k, x) :: b)) = readLibrary L num (.map (a ++ b))) ∧
    (readModel L num (.map (a ++ (some k, x) :: b)) = readModel L num (.map (a ++ b))) ∧
    (readVariable L num (.map (a ++ (some k, x) :: b)) = readVariable L num (.map (a ++ b))) ∧
    readConstraint (.map (a ++ (some k, x) :: b)) = readConstraint (.map (a ++ b)) := by
  obtain ⟨⟨k', y⟩, hb, hk'⟩ := List.mem_map.1 hk
  dsimp only at hk'
  subst hk'
  have hl : ∀ n, lookup (a ++ (some k, x) :: b) n = lookup (a ++ b) n := by
    intro n
    unfold lookup
    congr 1
    rw [List.reverse_append, List.reverse_cons, List.reverse_append, List.append_assoc, List.find?_append, List.find?_append,
      List.find?_append]
    cases hf : b.reverse.find? fun e => e.1 == some n with
    | some e => rfl
    | none =>
      rw [Option.none_or, Option.none_or]
      have : ((some k, x) : Option String × Doc).1 ≠ some n := by
        intro e
        have := List.find?_eq_none.1 hf _ (List.mem_reverse.2 hb)
        simp only [beq_iff_eq] at this
        exact this e
      rw [List.find?_cons_of_neg (by simpa using this)]
      rfl
  have hfield : ∀ n, field (a ++ (some k, x) :: b) n = field (a ++ b) n := fun n => by unfold field; rw [hl, hl]
  have hreq : ∀ {α : Type} n (f : Doc → R α), required (a ++ (some k, x) :: b) n f = required (a ++ b) n f := fun n f => by
    unfold required; rw [hfield]
  have hopt : ∀ {α : Type} n (f : Doc → R α), Doc.optional (a ++ (some k, x) :: b) n f = Doc.optional (a ++ b) n f := fun n f => by
    unfold Doc.optional; rw [hfield]
  have hext : ∀ names, forbidExtra names (a ++ (some k, x) :: b) = forbidExtra names (a ++ b) := by
    intro names
    unfold forbidExtra
    simp only [hl]
    congr 1
    rw [eq_iff_iff, List.all_eq_true, List.all_eq_true]
    constructor
    · intro h e he
      refine h e ?_
      rcases List.mem_append.1 he with he | he
      · exact List.mem_append.2 (.inl he)
      · exact List.mem_append.2 (.inr (List.mem_cons_of_mem _ he))
    · intro h e he
      rcases List.mem_append.1 he with he | he
      · exact h e (List.mem_append.2 (.inl he))
      · rcases List.mem_cons.1 he with rfl | he
        · exact h _ (List.mem_append.2 (.inr hb))
        · exact h e (List.mem_append.2 (.inr he))
  have he : ∀ l : Entries, (Doc.map l).entries = .ok l := fun _ => rfl
  refine ⟨?_, ?_, ?_, ?_, ?_, ?_, ?_⟩
  · simp only [readSystem, he, ok_bind, hext, hopt]
  · simp only [readComponent, he, ok_bind, hext, hopt, hreq]
  · simp only [readParam, he, ok_bind, hext, hopt, hreq]
  · simp only [readLibrary, he, ok_bind, hext, hopt, hreq]
  · simp only [readModel, he, ok_bind, hext, hopt, hreq]
  · simp only [readVariable, he, ok_bind, hext, hopt, hreq]
  · simp only [readConstraint, he, ok_bind, hext, hopt, hreq]

/-- **C71, violation: beside the system or library.** Whatever a file gives beside `system` (or `library`) is ignored, for instance a second
part with a misspelt name. -/
theorem c71_beside_ignored (L : Lenient) (num : Num → String) (k : String) (x : Doc) (l : Entries) :
    (k ≠ "system" → parseYamlComponents L (.map ((some k, x) :: l)) = parseYamlComponents L (.map l)) ∧
    (k ≠ "library" → parseYamlLibrary L num (.map ((some k, x) :: l)) = parseYamlLibrary L num (.map l)) := by
  have hl : ∀ n, k ≠ n → lookup ((some k, x) :: l) n = lookup l n := by
    intro n hn
    unfold lookup
    rw [List.reverse_cons, List.find?_append]
    cases l.reverse.find? fun e => e.1 == some n with
    | some e => rfl
    | none =>
      rw [Option.none_or, List.find?_cons_of_neg (by simpa using hn)]
      rfl
  constructor
  · intro h
    simp only [parseYamlComponents, subscript, hl _ h]
  · intro h
    simp only [parseYamlLibrary, subscript, hl _ h]

/-- **C71, errors.** A library file is refused with a `ValueError` if it has a mapping with `library`; without it, with a `KeyError`; if it is
not a mapping, with a `TypeError`. -/
theorem c71_errors (L : Lenient) (num : Num → String) (tree : Doc) (e : Err) (h : parseYamlLibrary L num tree = .error e) :
    (∃ l, tree = .map l ∧ (lookup l "library").isSome = true ∧ ∃ m, e = .valueError m) ∨
    (∃ l, tree = .map l ∧ lookup l "library" = none ∧ e = .keyError "library") ∨ ((∀ l, tree ≠ .map l) ∧ ∃ m, e = .typeError m) := by
  unfold parseYamlLibrary at h
  cases tree with
  | map l =>
    simp only [subscript] at h
    cases hl : lookup l "library" with
    | none =>
      rw [hl] at h
      cases h
      exact .inr (.inl ⟨l, rfl, hl, rfl⟩)
    | some d =>
      rw [hl] at h
      simp only [ok_bind] at h
      left
      refine ⟨l, rfl, by rw [hl]; rfl, ?_⟩
      split at h
      · cases h
      · cases h
        exact ⟨_, rfl⟩
  | _ =>
    cases h
    exact .inr (.inr ⟨by simp, _, rfl⟩)

/-! ## C72: bounds that are given as numbers -/

theorem decimal_digits (n : Nat) : decimal (toString n).toList [] = (n : ℚ) := by
  have key : ∀ l : List Char, Nat.ofDigits 10 (l.reverse.map fun c => c.toNat - '0'.toNat) = Nat.ofDigitChars 10 l 0 := by
    intro l
    induction l using List.reverseRecOn with
    | nil => rfl
    | append_singleton l c ih =>
      rw [List.reverse_append, List.reverse_singleton, List.singleton_append, List.map_cons, Nat.ofDigits_cons, ih, Nat.ofDigitChars_append,
        Nat.ofDigitChars_cons, Nat.ofDigitChars_nil]
      simp [Nat.add_comm]
  have hd : (toString n).toList = Nat.toDigits 10 n := by
    show (Nat.repr n).toList = _
    simp [Nat.repr]
  unfold decimal
  rw [List.append_nil, key, hd, Nat.ofDigitChars_ten_toDigits]
  simp

theorem plain_nat (n : Nat) : (Tok.num (toString n).toList []).Valid := by
  rw [show (toString n).toList = Nat.toDigits 10 n by show (Nat.repr n).toList = _; simp [Nat.repr]]
  refine ⟨Nat.toDigits_ne_nil, ?_, by simp⟩
  intro c hc
  have := Nat.isDigit_of_mem_toDigits (by norm_num) (by norm_num) hc
  rw [Char.isDigit_iff_toNat] at this
  obtain ⟨h1, h2⟩ := this
  have h3 : c = Char.ofNat c.toNat := (Char.ofNat_toNat c).symm
  rw [h3]
  generalize c.toNat = k at h1 h2
  change 48 ≤ k at h1
  change k ≤ 57 at h2
  unfold Tok.isDigit
  interval_cases k <;> decide

theorem plain_int (n : Int) : PlainNumber (toString n) (.fin n) := by
  cases n with
  | ofNat n =>
    refine ⟨(toString n).toList, [], plain_nat n, .inl ⟨rfl, ?_⟩⟩
    rw [decimal_digits]
    simp
  | negSucc n =>
    refine ⟨(toString (n + 1)).toList, [], plain_nat _, .inr ⟨?_, ?_⟩⟩
    · show ("-" ++ toString (n + 1)).toList = _
      rw [String.toList_append]
      rfl
    · rw [decimal_digits]
      congr 1

theorem noPostfix_short {ts : List Tok} (h : Tok.lbrack ∉ ts) : NoPostfix ts := fun hi => h (hi.subset (by simp))

theorem plain_parse {text : String} {v : Num} (hp : PlainNumber text v) (variables_ parameters : List String) :
    text ≠ "" ∧ ∃ e, textParser variables_ parameters text = .ok e ∧ SameValue e (.lit v) ∧ isConstant e = .ok true := by
  obtain ⟨ip, fp, hv, ⟨ht, rfl⟩ | ⟨ht, rfl⟩⟩ := hp
  · have h0 := spells_digits hv ends_nil .nil
    rw [List.append_nil, ← ht] at h0
    have := ((c43_parse_partial h0 (noPostfix_short (by simp)) ⟨variables_, parameters⟩).1 _).2
      (.ofSum (.ofProduct (.ofUnary (.ofPrimary (.ofAtom .number)))))
    refine ⟨?_, _, by unfold textParser; rw [this]; rfl, ⟨fun _ => rfl, fun _ _ _ => rfl⟩, rfl⟩
    rintro rfl
    have h1 := hv.1
    cases ip with
    | nil => exact h1 rfl
    | cons c ip =>
      rw [String.toList_empty] at ht
      cases fp <;> (unfold Tok.text at ht; cases ht)
  · have h0 := spells_minus (spells_digits hv ends_nil .nil)
    rw [List.append_nil, ← ht] at h0
    have := ((c43_parse_partial h0 (noPostfix_short (by simp)) ⟨variables_, parameters⟩).1 _).2
      (.ofSum (.ofProduct (.ofUnary (.neg (.ofPrimary (.ofAtom .number))))))
    refine ⟨?_, _, by unfold textParser; rw [this]; rfl, ⟨fun _ => ?_, fun _ _ _ => ?_⟩, rfl⟩
    · rintro rfl
      cases ht
    · simp [Expr.negOp, evaluate, ok_bind]
    · simp [Expr.negOp, mden]

theorem gives_unique {l : Entries} (hc : l.Clear) {n : String} {d d' : Doc} (h : l.Gives n d) (h' : l.Gives n d') : d = d' := by
  rw [← field_iff hc] at h h'
  rw [h] at h'
  exact Option.some.inj h'

/-- the tree of a number whose text the grammar of expressions reads: an integer, or a float with plain digits -/
def GivesNumber (num : Num → String) (l : Entries) (name : String) (v : Num) : Prop :=
  (∃ n : Int, l.Gives name (.int n) ∧ v = .fin n) ∨ (l.Gives name (.float v) ∧ PlainNumber (num v) v)

theorem number_text {num : Num → String} {l : Entries} (hc : l.Clear) {name : String} {o : Option String} {dflt : Prop} {v : Num}
    (hg : GivesNumber num l name v) (hs : l.May name (SaysOption (SaysTextOrNumber num) o) dflt) :
    ∃ text, o = some text ∧ PlainNumber text v := by
  have : ∃ d, l.Gives name d ∧ ∃ text, PlainNumber text v ∧ ((∃ n : Int, d = .int n ∧ text = toString n) ∨ (d = .float v ∧ text = num v)) := by
    rcases hg with ⟨n, hg, rfl⟩ | ⟨hg, hp⟩
    · exact ⟨_, hg, _, plain_int n, .inl ⟨n, rfl, rfl⟩⟩
    · exact ⟨_, hg, _, hp, .inr ⟨rfl, rfl⟩⟩
  obtain ⟨d, hg, text, hp, hd⟩ := this
  rcases hs with ⟨d', hg', hs⟩ | ⟨hn, _⟩
  · cases gives_unique hc hg hg'
    rcases hs with ⟨rfl, _⟩ | ⟨a, rfl, _, hs⟩
    · rcases hd with ⟨n, h, _⟩ | ⟨h, _⟩ <;> cases h
    · refine ⟨a, rfl, ?_⟩
      rcases hd with ⟨n, rfl, rfl⟩ | ⟨rfl, rfl⟩
      · rcases hs with h | ⟨m, h, rfl⟩ | ⟨w, h, _⟩ <;> cases h
        exact hp
      · rcases hs with h | ⟨m, h, _⟩ | ⟨w, h, rfl⟩ <;> cases h
        exact hp
  · exact absurd ⟨d, hg⟩ hn

/-- **C72 (partial).** A variable of a library file whose bounds are given as numbers gets these numbers as bounds, whatever the names of
variables and parameters of the model.  Missing: numbers that Python writes with an exponent, and infinite ones (see `c72_exponent`); bounds
of constraints (see `c72_constraint_refused`). -/
theorem c72_bounds_partial (L : Lenient) (num : Num → String) (l : Entries) (hc : (Doc.map l).Clear) (v : InputVariable)
    (hv : readVariable L num (.map l) = .ok v) (variables_ parameters : List String) (ty : ValueType)
    (hty : (v.variableType, ty) ∈ [("continuous", ValueType.continuous), ("integer", ValueType.integer)]) :
    (∀ lo hi, GivesNumber num l "lower_bound" lo → GivesNumber num l "upper_bound" hi →
      ∃ w a b, toVariable (textParser variables_ parameters) v = .ok w ∧ w.lowerBound = some a ∧ SameValue a (.lit lo) ∧
        w.upperBound = some b ∧ SameValue b (.lit hi)) ∧
    (∀ lo, GivesNumber num l "lower_bound" lo → (¬ ∃ d, l.Gives "upper_bound" d) →
      ∃ w a, toVariable (textParser variables_ parameters) v = .ok w ∧ w.lowerBound = some a ∧ SameValue a (.lit lo) ∧ w.upperBound = none) ∧
    (∀ hi, GivesNumber num l "upper_bound" hi → (¬ ∃ d, l.Gives "lower_bound" d) →
      ∃ w b, toVariable (textParser variables_ parameters) v = .ok w ∧ w.lowerBound = none ∧ w.upperBound = some b ∧ SameValue b (.lit hi)) := by
  obtain ⟨l', hl', -, -, -, -, h1, h2, -⟩ := (readsAs_variable L num _ hc v).1 ⟨v, hv, rfl⟩
  cases hl'
  have ht : Dict.get [("continuous", ValueType.continuous), ("integer", ValueType.integer)] v.variableType = .ok ty := by
    simp only [List.mem_cons, Prod.mk.injEq, List.not_mem_nil, or_false] at hty
    rcases hty with ⟨h, rfl⟩ | ⟨h, rfl⟩ <;> rw [h] <;> rfl
  have given : ∀ {name o dflt x}, GivesNumber num l name x → l.May name (SaysOption (SaysTextOrNumber num) o) dflt →
      ∃ e, toExpressionIfPresent (textParser variables_ parameters) o = .ok (some e) ∧ SameValue e (.lit x) ∧ isConstant e = .ok true := by
    intro name o dflt x hg hm
    obtain ⟨text, rfl, hp⟩ := number_text hc.entries hg hm
    obtain ⟨hne, e, h1, h2, h3⟩ := plain_parse hp variables_ parameters
    refine ⟨e, ?_, h2, h3⟩
    simp only [toExpressionIfPresent, if_neg hne, h1, ok_bind]
  have left : ∀ {name o}, (¬ ∃ d, l.Gives name d) → l.May name (SaysOption (SaysTextOrNumber num) o) (o = none) → o = none := by
    intro name o hn hm
    rcases hm with ⟨d, hg, _⟩ | ⟨_, h⟩
    · exact absurd ⟨d, hg⟩ hn
    · exact h
  refine ⟨fun lo hi gl gu => ?_, fun lo gl gu => ?_, fun hi gu gl => ?_⟩
  · obtain ⟨a, a1, a2, a3⟩ := given gl h1
    obtain ⟨b, b1, b2, b3⟩ := given gu h2
    refine ⟨⟨v.id, ty, some a, some b, ⟨v.timeDependent, v.scenarioDependent⟩, .operational⟩, a, b, ?_, rfl, a2, rfl, b2⟩
    simp [toVariable, ht, a1, b1, ok_bind, Variable.make, checkConstantBound, a3, b3]
  · obtain ⟨a, a1, a2, a3⟩ := given gl h1
    have b1 : toExpressionIfPresent (textParser variables_ parameters) v.upperBound = .ok none := by rw [left gu h2]; rfl
    refine ⟨⟨v.id, ty, some a, none, ⟨v.timeDependent, v.scenarioDependent⟩, .operational⟩, a, ?_, rfl, a2, rfl⟩
    simp [toVariable, ht, a1, b1, ok_bind, Variable.make, checkConstantBound, a3]
  · obtain ⟨b, b1, b2, b3⟩ := given gu h2
    have a1 : toExpressionIfPresent (textParser variables_ parameters) v.lowerBound = .ok none := by rw [left gl h1]; rfl
    refine ⟨⟨v.id, ty, none, some b, ⟨v.timeDependent, v.scenarioDependent⟩, .operational⟩, b, ?_, rfl, rfl, b2⟩
    simp [toVariable, ht, a1, b1, ok_bind, Variable.make, checkConstantBound, b3]

/-- **C72, violation: exponents.** `1.0e-5` and `.inf` are numbers in the file, but no expressions: the library is read, and then the variable
cannot be made. -/
theorem c72_exponent (L : Lenient) (num : Num → String) (h1 : num (.fin (1 / 100000)) = "1e-05") (h2 : num .pinf = "inf")
    (variables_ parameters : List String) (hv : "inf" ∉ variables_) (hp : "inf" ∉ parameters) (id : String) :
    ∀ x ∈ [Num.fin (1 / 100000), Num.pinf], ∃ v, readVariable L num (.map [(some "id", .str id), (some "lower-bound", .float x)]) = .ok v ∧
      toVariable (textParser variables_ parameters) v = .error .parseException := by
  have hs := c68_small_number num ⟨variables_, parameters⟩ h1 h2
  rw [printExpr, printExpr, h1, h2] at hs
  intro x hx
  refine ⟨⟨id, true, true, some (num x), none, "continuous"⟩, rfl, ?_⟩
  simp only [List.mem_cons, List.not_mem_nil, or_false] at hx
  rcases hx with rfl | rfl
  · rw [h1]
    unfold toVariable
    simp only [toExpressionIfPresent, textParser, hs.1]
    rfl
  · rw [h2]
    unfold toVariable
    simp only [toExpressionIfPresent, textParser, hs.2.1 hv hp]
    rfl

/-- **C72, violation: constraints.** A constraint whose bound or expression is a number is refused, and so is the whole library. -/
theorem c72_constraint_refused (l : Entries) (hc : (Doc.map l).Clear) (d : Doc) (hd : (∃ n, d = .int n) ∨ ∃ v, d = .float v) (name : String)
    (hn : name ∈ ["lower_bound", "upper_bound", "expression"]) (hg : l.Gives name d) : ∃ e, readConstraint (.map l) = .error e := by
  cases hr : readConstraint (.map l) with
  | error e => exact ⟨e, rfl⟩
  | ok c =>
    exfalso
    obtain ⟨l', hl', -, -, h1, h2, h3⟩ := (readsAs_constraint _ hc c).1 ⟨c, hr, rfl⟩
    cases hl'
    have no : ∀ {o}, ¬ SaysOption SaysText o d := by
      intro o h
      rcases h with ⟨rfl, _⟩ | ⟨a, _, _, h⟩
      · rcases hd with ⟨n, h⟩ | ⟨v, h⟩ <;> cases h
      · cases h
        rcases hd with ⟨n, h⟩ | ⟨v, h⟩ <;> cases h
    have may : ∀ {o dflt}, l.Gives name d → l.May name (SaysOption SaysText o) dflt → False := by
      intro o dflt hg hm
      rcases hm with ⟨d', hg', h⟩ | ⟨h, _⟩
      · cases gives_unique hc.entries hg hg'
        exact no h
      · exact h ⟨d, hg⟩
    simp only [List.mem_cons, List.not_mem_nil, or_false] at hn
    rcases hn with rfl | rfl | rfl
    · exact may hg h2
    · exact may hg h3
    · obtain ⟨d', hg', h⟩ := h1
      cases gives_unique hc.entries hg hg'
      cases h
      rcases hd with ⟨n, h⟩ | ⟨v, h⟩ <;> cases h

end Verif.Props
