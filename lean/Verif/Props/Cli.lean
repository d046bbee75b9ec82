import Verif.Lemmas.Cli
import Verif.Props.ShippedBuild

/-!
# C66: what the command line does

`mainCli` is the program up to the call of the solver.
-/

namespace Verif.Props
open Verif Verif.Shipped

/-- the arguments are accepted exactly when the command names files, and these files are used -/
theorem parseCli_iff {d : Disk} {f : CliFlags} {a : ParsedArguments} :
    parseCli d f = .ok a ↔ Names d f a.modelsPath a.componentsPath a.timeseriesPath ∧ a.duration = f.duration ∧ a.scenarios = f.scenario := by
  unfold parseCli
  constructor
  · intro h
    cases hs : f.study with
    | some s =>
      rw [hs] at h
      dsimp only at h
      split_ifs at h with hc
      simp only [not_or, not_not] at hc
      simp only [bind_ok_iff, Except.ok.injEq] at h
      obtain ⟨files, hf, rfl⟩ := h
      exact ⟨.directory hs hc.1 (by simpa using hc.2.1) (by simpa using hc.2.2) hf, rfl, rfl⟩
    | none =>
      rw [hs] at h
      dsimp only at h
      split at h
      · next m ms c hm hc =>
        cases h
        exact ⟨by
          have := Names.files (d := d) hs (by rw [hm]; simp) hc
          rw [hm] at this
          exact this, rfl, rfl⟩
      · cases h
  · rintro ⟨hn, h1, h2⟩
    obtain ⟨mp, cp, tp, du, sc⟩ := a
    dsimp only at hn h1 h2
    subst h1 h2
    cases hn with
    | directory hs hm hc ht hd =>
      rw [hs]
      dsimp only
      rw [if_neg (by simp [hm, hc, ht]), hd]
      rfl
    | files hs hm hc =>
      rw [hs]
      dsimp only
      cases hm' : f.models with
      | nil => exact absurd hm' hm
      | cons m ms => rw [hc]

/-- **C66, chain.** The program hands a problem to the solver exactly when the command names files that are all readable, the libraries have
distinct ids and can be resolved, the system refers to their models, the tables are readable, and the problem of the first `duration`
timesteps can be built: and then it is that problem. -/
theorem c66_chain (parser : Parser) (os : Nat → SetOrder) (ho : ∀ i, (os i).Valid) (fuel : Nat) (d : Disk) (f : CliFlags) (st : OptState) :
    mainCli parser os fuel d f = some (.ok st) ↔
      ∃ paths comp tables ls libs s sys db net, Names d f paths comp tables ∧ ReadAs d paths ls ∧ (ls.map (·.id)).Nodup ∧
        resolveLibrary parser os fuel ls = some (.ok libs) ∧ d.system comp = .ok s ∧ resolveSystem s libs = .ok sys ∧
        buildDataBase (d.study s tables f).load s = .ok db ∧ buildNetwork sys = .ok net ∧
        OptCtx.buildProblem { network := net, database := db, timesteps := (List.range f.duration).map Int.ofNat, scenarios := f.scenario } = .ok st := by
  rw [mainCli_ok]
  constructor
  · rintro ⟨a, ls, libs, ha, h1, h2, h3, h4⟩
    obtain ⟨hn, e1, e2⟩ := parseCli_iff.1 ha
    obtain ⟨s, sys, db, net, g1, g2, g3, g4, g5⟩ := (runCli_ok (keyed_resolved ho h3)).1 h4
    refine ⟨_, _, _, ls, libs, s, sys, db, net, hn, h1, h2, h3, g1, g2, g3, g4, ?_⟩
    rw [← e1, ← e2]
    exact g5
  · rintro ⟨paths, comp, tables, ls, libs, s, sys, db, net, hn, h1, h2, h3, g1, g2, g3, g4, g5⟩
    exact ⟨⟨paths, comp, tables, f.duration, f.scenario⟩, ls, libs, parseCli_iff.2 ⟨hn, rfl, rfl⟩, h1, h2, h3,
      (runCli_ok (keyed_resolved ho h3)).2 ⟨s, sys, db, net, g1, g2, g3, g4, g5⟩⟩

/-- **C66, refusals.** A command that names no files (`--study` together with another option, a missing option, an unreadable directory) ends
with an error. -/
theorem c66_refused (parser : Parser) (os : Nat → SetOrder) (fuel : Nat) (d : Disk) (f : CliFlags)
    (h : ¬ ∃ paths comp tables, Names d f paths comp tables) : ∃ e, mainCli parser os fuel d f = some (.error e) := by
  unfold mainCli
  cases ha : parseCli d f with
  | error e => exact ⟨e, rfl⟩
  | ok a => exact absurd ⟨_, _, _, (parseCli_iff.1 ha).1⟩ h

/-- **C66, duplicates.** If two of the library files have the same id, the program ends with a `ValueError`, whatever their order. -/
theorem c66_duplicate (parser : Parser) (os : Nat → SetOrder) (fuel : Nat) (d : Disk) (f : CliFlags) {paths : List String} {comp : String}
    {tables : Option String} (hn : Names d f paths comp tables) {ls : List InputLibrary} (hr : ReadAs d paths ls)
    (hd : ¬ (ls.map (·.id)).Nodup) : ∃ m, mainCli parser os fuel d f = some (.error (.valueError m)) := by
  unfold mainCli inputLibs
  rw [(parseCli_iff (a := ⟨paths, comp, tables, f.duration, f.scenario⟩)).2 ⟨hn, rfl, rfl⟩]
  dsimp only
  obtain ⟨m, hm⟩ := readLibraries_duplicate (ids := []) hr (fun h => hd h.1)
  rw [hm]
  exact ⟨m, rfl⟩

/-- **C66, termination.** Every command ends: the program never loops, whatever the dependencies between the library files. -/
theorem c66_terminates (parser : Parser) (os : Nat → SetOrder) (ho : ∀ i, (os i).Valid) (d : Disk) (f : CliFlags) :
    ∃ r n, ∀ fuel, n ≤ fuel → mainCli parser os fuel d f = some r := by
  unfold mainCli inputLibs
  cases ha : parseCli d f with
  | error e => exact ⟨_, 0, fun _ _ => rfl⟩
  | ok a =>
    dsimp only
    cases hl : readLibraries d [] a.modelsPath with
    | error e => exact ⟨_, 0, fun _ _ => rfl⟩
    | ok ls =>
      dsimp only
      obtain ⟨r, hr⟩ := c27_terminates parser os ho ls []
      cases r with
      | error e => exact ⟨.error e, _, fun fuel hf => by rw [hr fuel hf]⟩
      | ok libs => exact ⟨runCli d a libs, _, fun fuel hf => by rw [hr fuel hf]⟩

/-- **C66, the consistency check.** The check made before building the problem never refuses anything: when the libraries and the system are
resolved, the models of all components are in the libraries. -/
theorem c66_check_never_refuses (parser : Parser) (os : Nat → SetOrder) (ho : ∀ i, (os i).Valid) (fuel : Nat) (ls : List InputLibrary)
    (libs : Dict String Library) (h : resolveLibrary parser os fuel ls = some (.ok libs)) (s : InputSystem) (sys : System)
    (hs : resolveSystem s libs = .ok sys) : consistencyCheck sys.components (allModels libs) = .ok true :=
  consistencyCheck_resolved (keyed_resolved ho h) hs

theorem names_perm {d d' : Disk} (hd : d.SameFiles d') {f f' : CliFlags} (hf : f' = { f with models := f'.models })
    (hm : f.models.Perm f'.models) {paths : List String} {comp : String} {tables : Option String} (hn : Names d f paths comp tables) :
    ∃ paths', paths.Perm paths' ∧ Names d' f' paths' comp tables := by
  have e1 : f'.study = f.study := by rw [hf]
  have e2 : f'.component = f.component := by rw [hf]
  have e3 : f'.timeseries = f.timeseries := by rw [hf]
  cases hn with
  | directory hs hmo hc ht hl =>
    obtain ⟨files', h1, h2⟩ := hd.listDir _ _ hl
    refine ⟨_, h2.map _, .directory (e1.trans hs) ?_ (e2.trans hc) (e3.trans ht) h1⟩
    rw [hmo] at hm
    exact hm.nil_eq.symm
  | files hs hmo hc =>
    refine ⟨f'.models, hm, ?_⟩
    rw [← e3]
    refine .files (e1.trans hs) (fun h => hmo ?_) (e2.trans hc)
    rw [h] at hm
    exact hm.eq_nil

theorem readAs_perm {d : Disk} {paths paths' : List String} (hp : paths.Perm paths') {ls : List InputLibrary} (h : ReadAs d paths ls) :
    ∃ ls', ls.Perm ls' ∧ ReadAs d paths' ls' := by
  induction hp generalizing ls with
  | nil => exact ⟨ls, .refl _, h⟩
  | cons x _ ih =>
    cases h with
    | cons hx h =>
      obtain ⟨ls', h1, h2⟩ := ih h
      exact ⟨_, h1.cons _, .cons hx h2⟩
  | swap x y l =>
    cases h with
    | cons hx h =>
      cases h with
      | cons hy h => exact ⟨_, .swap _ _ _, .cons hy (.cons hx h)⟩
  | trans _ _ ih1 ih2 =>
    obtain ⟨l1, h1, h2⟩ := ih1 h
    obtain ⟨l2, h3, h4⟩ := ih2 h2
    exact ⟨l2, h1.trans h3, h4⟩

/-- **C66 (partial), order of the files.** If an id never designates two port types in a library, the problem handed to the solver depends
neither on the order of the library files, on the command line or in the directory, nor on the order of Python sets.  (Without the
hypothesis it may: see `c28_order_dependent`.) -/
theorem c66_order_partial (parser : Parser) (os os' : Nat → SetOrder) (ho : ∀ i, (os i).Valid) (ho' : ∀ i, (os' i).Valid) (fuel fuel' : Nat)
    (d d' : Disk) (hd : d.SameFiles d') (f f' : CliFlags) (hf : f' = { f with models := f'.models }) (hm : f.models.Perm f'.models)
    (nc : ∀ paths comp tables ls, Names d f paths comp tables → ReadAs d paths ls → NoConflict ls [])
    (hfuel : ∀ paths comp tables, Names d f paths comp tables → 3 * paths.length + 2 ≤ fuel')
    (st : OptState) (h : mainCli parser os fuel d f = some (.ok st)) : mainCli parser os' fuel' d' f' = some (.ok st) := by
  obtain ⟨paths, comp, tables, ls, libs, s, sys, db, net, hn, h1, h2, h3, g1, g2, g3, g4, g5⟩ := (c66_chain parser os ho fuel d f st).1 h
  obtain ⟨paths', hp, hn'⟩ := names_perm hd hf hm hn
  obtain ⟨ls', hl, h1'⟩ := readAs_perm hp h1
  have h2' : (ls'.map (·.id)).Nodup := (hl.map _).nodup_iff.1 h2
  have hdl := declaredLib_perm h2 hl
  have hnc := nc _ _ _ _ hn h1
  obtain ⟨r0, hr0⟩ := c27_terminates parser os ho ls []
  have h3b : resolveLibrary parser os (3 * ls.length + 2) ls = some (.ok libs) := by
    have e1 := hr0 _ (Nat.le_add_right (3 * ls.length + 2) fuel)
    have e2 := runLib_mono _ _ _ _ _ _ _ _ h3 (3 * ls.length + 2)
    rw [hr0 _ (Nat.le_refl _), ← e1, Nat.add_comm]
    exact e2
  obtain ⟨a1, a2, a3⟩ := (c27_succeeds_iff parser os ho ls [] hnc).1 ⟨libs, h3b⟩
  obtain ⟨libs', h3'⟩ := (c27_succeeds_iff parser os' ho' ls' [] (noConflict_congr hdl hnc)).2
    ⟨acyclic_congr hdl a1, closed_congr hdl a2, fun k l hk => wellFormed_congr hdl (a3 k l ((hdl k).trans hk))⟩
  have hlen : ls'.length = paths.length := by rw [← hl.length_eq]; exact (List.Forall₂.length_eq h1).symm
  obtain ⟨r, hr⟩ := c27_terminates parser os' ho' ls' []
  have h3'' : resolveLibrary parser os' fuel' ls' = some (.ok libs') := by
    rw [hr fuel' (by rw [hlen]; exact hfuel _ _ _ hn), ← hr _ (Nat.le_refl _)]
    exact h3'
  have hsm := sameModels_resolved ho ho' hdl hnc h3 h3''
  refine (c66_chain parser os' ho' fuel' d' f' st).2 ⟨paths', comp, tables, ls', libs', s, sys, db, net, hn', ?_, h2', h3'', ?_, ?_, ?_, g4, ?_⟩
  · unfold ReadAs
    rw [hd.library]
    exact h1'
  · rw [hd.system]
    exact g1
  · rw [← resolveSystem_congr hsm]
    exact g2
  · unfold Disk.study at g3 ⊢
    rw [hd.table]
    exact g3
  · rw [hf]
    exact g5

theorem addParams_read {load : String → R Frame} {c : String} {ps : List InputParam} {db db' : DataBase} (h : addParams load c ps db = .ok db') :
    ∀ p ∈ ps, ∃ x, buildData load p = .ok x := by
  induction ps generalizing db with
  | nil => intro p hp; cases hp
  | cons q ps ih =>
    unfold addParams at h
    simp only [bind_ok_iff] at h
    obtain ⟨x, hx, h⟩ := h
    intro p hp
    rcases List.mem_cons.1 hp with rfl | hp
    · exact ⟨x, hx⟩
    · exact ih h p hp

theorem addComponents_read {load : String → R Frame} {cs : List InputComponent} {db db' : DataBase} (h : addComponents load cs db = .ok db') :
    ∀ c ∈ cs, ∀ p ∈ c.parameters, ∃ x, buildData load p = .ok x := by
  induction cs generalizing db with
  | nil => intro p hp; cases hp
  | cons q cs ih =>
    unfold addComponents at h
    simp only [bind_ok_iff] at h
    obtain ⟨x, hx, h⟩ := h
    intro c hc
    rcases List.mem_cons.1 hc with rfl | hc
    · exact addParams_read hx
    · exact ih h c hc

/-- **C66, missing tables.** Without a directory of tables, no problem is ever handed to the solver if a component of the system file has a
parameter whose value is the name of a table. -/
theorem c66_no_tables (parser : Parser) (os : Nat → SetOrder) (ho : ∀ i, (os i).Valid) (fuel : Nat) (d : Disk) (f : CliFlags) {paths : List String}
    {comp : String} (hn : Names d f paths comp none) {s : InputSystem} (hs : d.system comp = .ok s) {c : InputComponent}
    (hc : c ∈ s.nodes ∨ c ∈ s.components) {p : InputParam} (hp : p ∈ c.parameters) {n : String} (hv : p.value = .name n) (st : OptState) :
    mainCli parser os fuel d f ≠ some (.ok st) := by
  intro h
  obtain ⟨a, ls, libs, ha, h1, h2, h3, h4⟩ := mainCli_ok.1 h
  obtain ⟨s', sys, db, net, g1, g2, g3, g4, g5⟩ := (runCli_ok (keyed_resolved ho h3)).1 h4
  rw [(parseCli_iff (a := ⟨paths, comp, none, f.duration, f.scenario⟩)).2 ⟨hn, rfl, rfl⟩] at ha
  cases ha
  rw [hs] at g1
  cases g1
  obtain ⟨x, hx⟩ := addComponents_read g3 c (by simpa [or_comm] using hc) p hp
  unfold buildData at hx
  rw [hv] at hx
  simp [loadSeries] at hx

/-! ## Studies over the shipped libraries -/

theorem shipped_inputs {l : InputLibrary} (h : l ∈ [antaresInput, andromedeInput, pypsaInput]) :
    l.dependencies = [] ∧ ∃ r, resolveLib textParser [] l = .ok r := by
  simp only [List.mem_cons, List.not_mem_nil, or_false] at h
  rcases h with rfl | rfl | rfl
  · exact ⟨rfl, antaresLibrary, by decide +kernel⟩
  · exact ⟨rfl, andromedeLibrary, by decide +kernel⟩
  · exact ⟨rfl, pypsaLibrary, by decide +kernel⟩

/-- **C66 (partial), shipped libraries.** Take a command naming distinct files among the shipped libraries, in any order, and a system file
and tables that make a complete study.  Then the program hands a problem to the solver.  If no coefficient is smaller than `1e-16`, this
problem has exactly the solutions and costs that the files mean. -/
theorem c66_shipped_partial (os : Nat → SetOrder) (ho : ∀ i, (os i).Valid) (fuel : Nat) (d : Disk) (f : CliFlags) {paths : List String}
    {comp : String} {tables : Option String} (hn : Names d f paths comp tables) {ls : List InputLibrary} (hr : ReadAs d paths ls)
    (hnd : (ls.map (·.id)).Nodup) (hls : ∀ l ∈ ls, l ∈ [antaresInput, andromedeInput, pypsaInput]) {s : InputSystem}
    (hs : d.system comp = .ok s) (hI : (d.study s tables f).Sound)
    (hc : ∀ libs, (∀ l ∈ ls, (Dict.get? libs l.id).isSome = true) → (d.study s tables f).Complete libs)
    (hfuel : 3 * ls.length + 2 ≤ fuel) :
    ∃ libs sys net db st, resolveLibrary textParser os fuel ls = some (.ok libs) ∧ resolveSystem s libs = .ok sys ∧
      buildNetwork sys = .ok net ∧ buildDataBase (d.study s tables f).load s = .ok db ∧ mainCli textParser os fuel d f = some (.ok st) ∧
      ((∀ c ∈ net.allComponents, (∀ k ∈ c.model.allConstraints, ∀ t s : Nat, t < f.duration → s < f.scenario →
          (cliContext ⟨paths, comp, tables, f.duration, f.scenario⟩ net db).NoTiny c k.expression t s) ∧
          ∀ e ∈ c.model.objectives, (cliContext ⟨paths, comp, tables, f.duration, f.scenario⟩ net db).NoTiny c e 0 0) →
        ∀ (pt : Nat → ℚ) (σ : TermKey → ℚ), (∀ k i, st.columns.get? k = some i → pt i = σ k) →
          (st.solver.Feasible pt ↔ (d.study s tables f).Accepts σ) ∧ st.solver.cost pt = (d.study s tables f).cost σ) := by
  obtain ⟨libs, h1, h2, h3⟩ := resolveLibrary_plain ho (fun l hl => shipped_inputs (hls l hl)) hfuel
  have hl : ShippedLibraries libs := by
    intro k r hk
    obtain ⟨l, e1, e2, e3⟩ := h2 k r hk
    exact ⟨l, hls l e1, e2, e3⟩
  obtain ⟨sys, net, db, st, g1, g2, g3, g4, g5⟩ := c63_study_partial _ hI libs hl (hc libs h3)
  refine ⟨libs, sys, net, db, st, h1, g1, g2, g3, (c66_chain textParser os ho fuel d f st).2
    ⟨paths, comp, tables, ls, libs, s, sys, db, net, hn, hr, hnd, h1, hs, g1, g3, g2, g4⟩, fun ht => g5 ?_⟩
  intro c hcm
  refine ⟨fun k hk t s ht' hs' => (ht c hcm).1 k hk t s ?_ hs', (ht c hcm).2⟩
  simpa [Disk.study] using ht'

/-! ## Examples -/

/-- the files of the study of `shippedDemoStudy`; the table has a line for each of the timesteps 0 and 1 -/
def cliDemoDisk : Disk where
  listDir p := if p = "study/input/models" then .ok ["andromede_v1_models.yml", "antares_historic.yml"] else .error (.exception "FileNotFoundError")
  library p :=
    if p = "study/input/models/andromede_v1_models.yml" then .ok andromedeInput
    else if p = "study/input/models/antares_historic.yml" then .ok antaresInput
    else .error (.exception "FileNotFoundError")
  system p := if p = "study/input/components/components.yml" then .ok shippedDemoStudy.system else .error (.exception "FileNotFoundError")
  table p n := if p = "study/input/components/series" ∧ n = "load" then .ok ⟨1, [[10], [20]]⟩ else .error (.exception "FileNotFoundError")

def cliDemoFlags : CliFlags := { study := some "study", duration := 2 }

theorem cliDemo_names : Names cliDemoDisk cliDemoFlags
    ["study/input/models/andromede_v1_models.yml", "study/input/models/antares_historic.yml"] "study/input/components/components.yml"
    (some "study/input/components/series") :=
  .directory (s := "study") (files := ["andromede_v1_models.yml", "antares_historic.yml"]) rfl rfl rfl rfl rfl

theorem cliDemo_read : ReadAs cliDemoDisk ["study/input/models/andromede_v1_models.yml", "study/input/models/antares_historic.yml"]
    [andromedeInput, antaresInput] := .cons rfl (.cons rfl .nil)


def cliDemoStudy : StudyInput := cliDemoDisk.study shippedDemoStudy.system (some "study/input/components/series") cliDemoFlags

theorem cliDemo_table {n : String} {f : Frame} (h : cliDemoStudy.load n = .ok f) : f = ⟨1, [[10], [20]]⟩ := by
  simp only [cliDemoStudy, Disk.study, cliDemoDisk] at h
  split_ifs at h
  cases h
  rfl

theorem cliDemo_sound : cliDemoStudy.Sound := by
  refine ⟨shippedDemo_sound.ids, shippedDemo_sound.parameters, ?_, ?_, by decide, by decide, by decide, shippedDemo_sound.varying⟩
  · intro n f h
    rw [cliDemo_table h]
    simp [Frame.Rectangular]
  · intro c hc p hp t s v h
    have hc : c ∈ shippedDemoStudy.declared := hc
    rcases declaredEntry_mem h with h | ⟨n, f, row, h, hl, hr, hv⟩
    · simp only [StudyInput.declared, shippedDemoStudy, List.cons_append, List.nil_append, List.mem_cons, List.not_mem_nil, or_false] at hc
      rcases hc with rfl | rfl | rfl <;> simp only [List.mem_cons, List.not_mem_nil, or_false] at hp <;> (try casesm* _ ∨ _) <;> subst hp <;> cases h <;> rfl
    · rw [cliDemo_table hl] at hr
      simp only [List.mem_cons, List.not_mem_nil, or_false] at hr
      rcases hr with rfl | rfl <;> simp only [List.mem_cons, List.not_mem_nil, or_false] at hv <;> subst hv <;> rfl

theorem cliDemo_complete (libs : Dict String Library) (hl : ∀ l ∈ [andromedeInput, antaresInput], (Dict.get? libs l.id).isSome = true) :
    cliDemoStudy.Complete libs := by
  refine ⟨?_, shippedDemo_complete.parameters, ?_, ?_, shippedDemo_complete.connections, ?_⟩
  · intro c hc
    have hc : c ∈ shippedDemoStudy.declared := hc
    simp only [StudyInput.declared, shippedDemoStudy, List.cons_append, List.nil_append, List.mem_cons, List.not_mem_nil, or_false] at hc
    rcases hc with rfl | rfl | rfl
    · exact ⟨⟨_, rfl⟩, hl antaresInput (by simp)⟩
    · exact ⟨⟨_, rfl⟩, hl antaresInput (by simp)⟩
    · exact ⟨⟨_, rfl⟩, hl andromedeInput (by simp)⟩
  · intro c hc p hp
    have hc : c ∈ shippedDemoStudy.declared := hc
    simp only [StudyInput.declared, shippedDemoStudy, List.cons_append, List.nil_append, List.mem_cons, List.not_mem_nil, or_false] at hc
    rcases hc with rfl | rfl | rfl <;> simp only [List.mem_cons, List.not_mem_nil, or_false] at hp
    · rcases hp with rfl | rfl <;> exact ⟨rfl, rfl⟩
    · subst hp
      exact ⟨.inl rfl, _, rfl, fun _ => rfl, by simp⟩
    · rcases hp with rfl | rfl <;> exact ⟨rfl, rfl⟩
  · intro c hc p hp t ht s hs
    have hs : s = 0 := Nat.lt_one_iff.1 hs
    subst hs
    have ht : t ∈ [(0 : Int), 1] := ht
    have hc : c ∈ shippedDemoStudy.declared := hc
    simp only [StudyInput.declared, shippedDemoStudy, List.cons_append, List.nil_append, List.mem_cons, List.not_mem_nil, or_false] at hc ht
    rcases hc with rfl | rfl | rfl <;> simp only [List.mem_cons, List.not_mem_nil, or_false] at hp
    · rcases hp with rfl | rfl <;> exact ⟨_, rfl⟩
    · subst hp
      rcases ht with rfl | rfl <;> exact ⟨_, rfl⟩
    · rcases hp with rfl | rfl <;> exact ⟨_, rfl⟩
  · intro c hc d hd t s ht hs
    have hc : c ∈ shippedDemoStudy.declared := hc
    simp only [StudyInput.declared, shippedDemoStudy, List.cons_append, List.nil_append, List.mem_cons, List.not_mem_nil, or_false] at hc
    rcases hc with rfl | rfl | rfl
    · simp [Rules.needs] at hd
    · simp [Rules.needs] at hd
    · simp only [Rules.needs, List.mem_cons, Prod.mk.injEq, List.not_mem_nil, or_false, String.reduceEq, false_and, true_and, false_or] at hd
      subst hd
      show (0 : ℚ) ≤ 5
      norm_num

/-- the program hands a problem to the solver for these files -/
theorem cliDemo_runs (os : Nat → SetOrder) (ho : ∀ i, (os i).Valid) : ∃ st, mainCli textParser os 8 cliDemoDisk cliDemoFlags = some (.ok st) := by
  obtain ⟨_, _, _, _, st, _, _, _, _, h, _⟩ := c66_shipped_partial os ho 8 cliDemoDisk cliDemoFlags cliDemo_names cliDemo_read (by decide)
    (by simp) rfl cliDemo_sound cliDemo_complete (Nat.le_refl _)
  exact ⟨st, h⟩

/-- the same files, listed in the other order -/
def cliDemoDisk' : Disk := { cliDemoDisk with
  listDir := fun p => if p = "study/input/models" then .ok ["antares_historic.yml", "andromede_v1_models.yml"] else .error (.exception "FileNotFoundError") }

/-- and the same one when the directory lists its files in the other order -/
example : ∃ st, ∀ fuel, 8 ≤ fuel → mainCli textParser (fun _ => firstOrder) 8 cliDemoDisk cliDemoFlags = some (.ok st) ∧
    mainCli textParser (fun _ => lastOrder) fuel cliDemoDisk' cliDemoFlags = some (.ok st) := by
  obtain ⟨st, h⟩ := cliDemo_runs (fun _ => firstOrder) (fun _ => firstOrder_valid)
  refine ⟨st, fun fuel hf => ⟨h, c66_order_partial textParser (fun _ => firstOrder) (fun _ => lastOrder) (fun _ => firstOrder_valid)
    (fun _ => lastOrder_valid) 8 fuel cliDemoDisk cliDemoDisk' ⟨rfl, rfl, rfl, ?_⟩
    cliDemoFlags cliDemoFlags rfl (.refl _) ?_ ?_ st h⟩⟩
  · intro p files hp
    simp only [cliDemoDisk] at hp
    split_ifs at hp with hq
    cases hp
    exact ⟨["antares_historic.yml", "andromede_v1_models.yml"], if_pos hq, .swap _ _ _⟩
  · intro paths comp tables ls hn hr
    have : ∀ l ∈ ls, l.dependencies = [] := by
      have hread : ∀ p l, cliDemoDisk.library p = .ok l → l.dependencies = [] := by
        intro p l hl
        simp only [cliDemoDisk] at hl
        split_ifs at hl <;> cases hl <;> rfl
      clear hn
      intro l hl
      induction hr with
      | nil => cases hl
      | cons hx _ ih =>
        rcases List.mem_cons.1 hl with rfl | hl
        · exact hread _ _ hx
        · exact ih hl
    have hvis : ∀ {k id pt}, Visible ls [] k id pt → ∃ l, declaredLib ls k = some l ∧ ownPortType l id = some pt := by
      intro k id pt hv
      cases hv with
      | preloaded hp => cases hp
      | own hl hp => exact ⟨_, hl, hp⟩
      | dependency hd _ =>
        obtain ⟨l, hl, hd⟩ := hd
        rw [this l (List.mem_reverse.1 (List.mem_of_find?_eq_some hl))] at hd
        cases hd
    intro k id pt pt' h1 h2
    obtain ⟨l, e1, e2⟩ := hvis h1
    obtain ⟨l', e1', e2'⟩ := hvis h2
    rw [e1] at e1'
    cases e1'
    rw [e2] at e2'
    exact Option.some.inj e2'
  · intro paths comp tables hn
    have := (parseCli_iff (a := ⟨paths, comp, tables, 2, 1⟩)).2 ⟨hn, rfl, rfl⟩
    have h2 := (parseCli_iff (a := ⟨_, _, _, 2, 1⟩)).2 ⟨cliDemo_names, rfl, rfl⟩
    rw [this] at h2
    cases h2
    exact hf

/-- two files with the same library: refused -/
example : ∃ m, mainCli textParser (fun _ => firstOrder) 8 { cliDemoDisk with library := fun _ => .ok antaresInput } cliDemoFlags =
    some (.error (.valueError m)) :=
  c66_duplicate _ _ _ _ _ (.directory (s := "study") (files := ["andromede_v1_models.yml", "antares_historic.yml"]) rfl rfl rfl rfl rfl)
    (ls := [antaresInput, antaresInput]) (.cons rfl (.cons rfl .nil)) (by simp)

/-- `--study` with `--component`: refused -/
example : ∃ e, mainCli textParser (fun _ => firstOrder) 8 cliDemoDisk { study := some "study", component := some "c.yml" } = some (.error e) := by
  refine c66_refused _ _ _ _ _ ?_
  rintro ⟨_, _, _, h⟩
  cases h with
  | directory _ _ hc _ _ => cases hc
  | files hs _ _ => cases hs

/-- the files named one by one, without tables: no problem, because the load is a table -/
example (st : OptState) : mainCli textParser (fun _ => firstOrder) 8 cliDemoDisk
    { models := ["study/input/models/antares_historic.yml"], component := some "study/input/components/components.yml" } ≠ some (.ok st) :=
  c66_no_tables _ _ (fun _ => firstOrder_valid) _ _ _ (.files rfl (by simp) rfl) rfl
    (c := ⟨"L", "antares-historic.load", none, [⟨"load", true, false, .name "load", none⟩]⟩) (.inr (by simp [shippedDemoStudy]))
    (p := ⟨"load", true, false, .name "load", none⟩) (by simp) rfl st

end Verif.Props
