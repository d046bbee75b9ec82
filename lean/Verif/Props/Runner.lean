import Verif.Lemmas.Runner
import Verif.Props.Structure
import Verif.Props.Tree

/-!
# C67: running a decomposed problem
-/

namespace Verif.Props
open Verif

/-! ## The files -/

/-- **C67, files (general).** Whatever the names, the `.mps` file of a name holds the last problem of this name (unless the structure file
has the same name). -/
theorem c67_files_last (b : BendersFolder) (solver : String) (level : Int) (debug : Bool) (m m' : Machine)
    (h : b.initialise solver level debug m = (m', .ok ())) {p : Problem} {n : String}
    (hp : b.problems.reverse.find? (fun p => p.name = n) = some p) (hs : b.structureFile ≠ n ++ ".mps") :
    m'.files (b.folder m.cwd ++ [n ++ ".mps"]) = some (.text (b.mps p.state)) := by
  cases hx : exportStructure b.problem.master.state b.problem.subproblems with
  | error e => rw [BendersFolder.initialise_error _ _ _ _ hx] at h; cases h
  | ok s =>
    rw [BendersFolder.initialise_eq _ _ _ _ hx] at h
    dsimp only at h
    have hc := (BendersFolder.writeAll_rest (b := b) ".mps" b.mps b.problems m).1
    have h1 := BendersFolder.writeAll_last (b := b) ".mps" b.mps b.problems m hp
    have h2 : (b.serialize "options.json" (.json (b.options solver level)) (b.serialize b.structureFile (.text s)
        (b.writeAll ".mps" b.mps b.problems m))).files (b.folder m.cwd ++ [n ++ ".mps"]) = some (.text (b.mps p.state)) := by
      unfold BendersFolder.serialize
      dsimp only
      rw [Files.set_other, Files.set_other, h1]
      · rw [hc]
        intro he
        have := List.append_cancel_left he
        simp only [List.cons.injEq, and_true] at this
        exact hs this.symm
      · rw [hc]
        intro he
        have := List.append_cancel_left he
        simp only [List.cons.injEq, and_true] at this
        exact mps_ne_options _ this
    cases debug
    · cases h
      exact h2
    · cases h
      refine (BendersFolder.writeAll_other _ _ _ _ fun q hq he => ?_).trans h2
      have hc' : (b.serialize "options.json" (.json (b.options solver level)) (b.serialize b.structureFile (.text s)
        (b.writeAll ".mps" b.mps b.problems m))).cwd = m.cwd := hc
      rw [hc'] at he
      have := List.append_cancel_left he
      simp only [List.cons.injEq, and_true] at this
      exact mps_ne_lp _ _ this

theorem joinPath_eq (ps : List String) : joinPath ps = if ps = [] then "." else "/".intercalate ps := by
  cases ps with
  | nil => rfl
  | cons p ps =>
    rw [if_neg (by simp)]
    induction ps generalizing p with
    | nil => simp [joinPath]
    | cons q ps ih => rw [joinPath, ih, String.intercalate_cons_cons]; simp

/-- **C67 (partial), files.** If the problems have different names and the structure file has the name of none of the others, then after
writing: each problem is in its own file, the structure file holds the structure, the options name the master, the structure file and the
result file, and, for debugging, each problem is in its `.lp` file.  Missing: problems of the same name, see `c67_overwritten`. -/
theorem c67_files_partial (b : BendersFolder) (hd : b.Distinct) (solver : String) (level : Int) (debug : Bool) (m m' : Machine)
    (h : b.initialise solver level debug m = (m', .ok ())) :
    (∀ p ∈ b.problems, m'.files (b.folder m.cwd ++ [p.name ++ ".mps"]) = some (.text (b.mps p.state))) ∧
    (∃ s, exportStructure b.problem.master.state b.problem.subproblems = .ok s ∧ m'.files (b.folder m.cwd ++ [b.structureFile]) = some (.text s)) ∧
    (∃ entries, m'.files (b.folder m.cwd ++ ["options.json"]) = some (.json (.obj entries)) ∧
      ("MASTER_NAME", .str b.problem.master.name) ∈ entries ∧ ("STRUCTURE_FILE", .str b.structureFile) ∈ entries ∧
      ("JSON_FILE", .str ((if b.outputPath = [] then "." else "/".intercalate b.outputPath) ++ "/out.json")) ∈ entries ∧ ("SOLVER_NAME", .str solver) ∈ entries ∧
      ("LOG_LEVEL", .num (.fin level)) ∈ entries ∧ (entries.map (·.1)).Nodup) ∧
    (debug = true → ∀ p ∈ b.problems, m'.files (b.folder m.cwd ++ [p.name ++ ".lp"]) = some (.text (b.lp p.state))) := by
  refine ⟨fun p hp => c67_files_last b solver level debug m m' h (BendersFolder.find_last hd.names hp) (hd.exports p hp).1, ?_⟩
  cases hx : exportStructure b.problem.master.state b.problem.subproblems with
  | error e => rw [BendersFolder.initialise_error _ _ _ _ hx] at h; cases h
  | ok s =>
    rw [BendersFolder.initialise_eq _ _ _ _ hx] at h
    dsimp only at h
    have hc := (BendersFolder.writeAll_rest (b := b) ".mps" b.mps b.problems m).1
    generalize hm2 : b.serialize "options.json" (.json (b.options solver level)) (b.serialize b.structureFile (.text s)
        (b.writeAll ".mps" b.mps b.problems m)) = m2 at h
    have hc2 : m2.cwd = m.cwd := by rw [← hm2]; exact hc
    have e1 : m2.files (b.folder m.cwd ++ [b.structureFile]) = some (.text s) := by
      rw [← hm2]
      unfold BendersFolder.serialize
      dsimp only
      rw [hc, Files.set_other, show b.folder m.cwd = b.emplacement.from m.cwd from rfl, Files.set_same]
      intro he
      have := List.append_cancel_left he
      simp only [List.cons.injEq, and_true] at this
      exact hd.options this
    have e2 : m2.files (b.folder m.cwd ++ ["options.json"]) = some (.json (b.options solver level)) := by
      rw [← hm2]
      unfold BendersFolder.serialize
      dsimp only
      rw [hc, show b.folder m.cwd = b.emplacement.from m.cwd from rfl, Files.set_same]
    have key : ∀ {n : String} {c : Content}, m2.files (b.folder m.cwd ++ [n]) = some c → (∀ p ∈ b.problems, n ≠ p.name ++ ".lp") →
        m'.files (b.folder m.cwd ++ [n]) = some c := by
      intro n c hn hne
      cases debug
      · cases h
        exact hn
      · cases h
        refine (BendersFolder.writeAll_other _ _ _ _ fun q hq he => ?_).trans hn
        rw [hc2] at he
        have := List.append_cancel_left he
        simp only [List.cons.injEq, and_true] at this
        exact hne q hq this
    refine ⟨⟨s, rfl, key e1 fun p hp => (hd.exports p hp).2⟩, ⟨_, key e2 fun p _ he => lp_ne_options _ he.symm, ?_⟩, ?_⟩
    · rw [← joinPath_eq]
      refine ⟨by simp, by simp, by simp, by simp, by simp, by simp⟩
    · rintro rfl p hp
      cases h
      rw [← hc2]
      exact BendersFolder.writeAll_last (b := b) ".lp" b.lp b.problems m2 (BendersFolder.find_last hd.names hp)

/-- **C67, frame.** Nothing else is written, and neither the working directory nor the solution changes. -/
theorem c67_frame (b : BendersFolder) (solver : String) (level : Int) (debug : Bool) (m : Machine) :
    (∀ q, (∀ n ∈ b.written debug, q ≠ b.folder m.cwd ++ [n]) → (b.initialise solver level debug m).1.files q = m.files q) ∧
    (b.initialise solver level debug m).1.cwd = m.cwd ∧ (b.initialise solver level debug m).1.solution = m.solution :=
  ⟨fun _ h => BendersFolder.initialise_frame _ _ _ _ h, (BendersFolder.initialise_rest _ _ _ _).1, (BendersFolder.initialise_rest _ _ _ _).2.1⟩

/-- **C67, names.** In a decomposition of a decision tree the master is named `master`, as in the structure file, and no subproblem has this
name. -/
theorem c67_master_name (order : List String → List String) (info : CouplingInfo) (network : Network) (database : DataBase) (root : DTree)
    (b : Benders) (h : buildBenders order info network database root = .ok b) :
    b.master.name = "master" ∧ ∀ p ∈ b.subproblems, p.name ≠ "master" := by
  unfold buildBenders at h
  split_ifs at h
  simp only [bind_ok_iff, Except.ok.injEq, appendAll_ok_iff] at h
  obtain ⟨cn, -, coupler, -, built, hb, master, hf, rfl⟩ := h
  have hlen : root.size = built.length := by rw [c48_size]; exact hb.length_eq
  constructor
  · unfold fusionProblems at hf
    split at hf
    · next m hm =>
      cases hf
      have h1 : built.length = 1 := by simpa using congrArg List.length hm
      have hsz : root.size = 1 := hlen.trans h1
      obtain ⟨x, hx⟩ := List.length_eq_one_iff.1 h1
      subst hx
      simp only [List.map_cons, List.map_nil, List.cons.injEq, and_true] at hm
      subst hm
      rw [hsz] at hb
      generalize root.traverse = ts at hb
      cases hb with
      | cons hb _ =>
        unfold buildNode at hb
        simp only [bind_ok_iff, Except.ok.injEq] at hb
        obtain ⟨st, -, subs, -, rfl⟩ := hb
        simp [suffixTree]
    · simp only [bind_ok_iff, Except.ok.injEq] at hf
      obtain ⟨f, -, rfl⟩ := hf
      rfl
  · intro p hp
    obtain ⟨x, hx, hp'⟩ := List.mem_flatMap.1 hp
    clear hp
    rename p ∈ x.2 => hp
    have : ∃ t, buildNode database root.size t = .ok x := by
      clear hf hp hlen
      generalize root.size = n, root.traverse = ts at hb ⊢
      induction hb with
      | nil => cases hx
      | cons hb _ ih =>
        rcases List.mem_cons.1 hx with rfl | hx
        · exact ⟨_, hb⟩
        · exact ih hx
    obtain ⟨t, ht⟩ := this
    unfold buildNode at ht
    simp only [bind_ok_iff, Except.ok.injEq, appendAll_ok_iff] at ht
    obtain ⟨st, -, subs, hs, rfl⟩ := ht
    have : ∃ b, buildSubproblem database root.size t b = .ok p := by
      dsimp only at hp
      clear hx
      generalize t.config.blocks = bs at hs
      induction hs with
      | nil => cases hp
      | cons hb _ ih =>
        rcases List.mem_cons.1 hp with rfl | hp
        · exact ⟨_, hb⟩
        · exact ih hp
    obtain ⟨bl, hbl⟩ := this
    unfold buildSubproblem at hbl
    simp only [bind_ok_iff, Except.ok.injEq] at hbl
    obtain ⟨st', -, rfl⟩ := hbl
    intro he
    have he := congrArg (fun s => s.toList.head?) he
    simp [String.toList_append] at he

/-! ## The run -/

/-- **C67, exact outcome.** What `run` does when the solver is there and starts: it keeps the working directory, leaves the files as the
solver left them, returns `False` and keeps the solution if the solver fails, and otherwise returns `True` with the solution that the result
file describes. -/
theorem c67_outcome (b : BendersFolder) (hb : b.problem.subproblems ≠ []) (programs : FilePath → Option Executable) (o : RunOptions) (m : Machine)
    (exe : Executable) (hexe : programs (m.cwd ++ if o.shouldMerge then ["bin", "merge_mps"] else ["bin", "benders"]) = some exe)
    (files : Files) (code : Int)
    (hrun : exe (b.folder m.cwd) (b.initialise o.solverName o.logLevel o.showDebug m).1.files = .ok (files, code)) :
    let r := b.run programs o m
    r.1.cwd = m.cwd ∧ r.1.files = files ∧ r.1.isMerged = (m.isMerged || o.shouldMerge) ∧
    (code ≠ 0 → r.2 = .ok false ∧ r.1.solution = m.solution) ∧
    (code = 0 → files (b.resultFile m.cwd) = none → r.2 = .ok true ∧ r.1.solution = m.solution) ∧
    (∀ data, code = 0 → files (b.resultFile m.cwd) = some (.json data) → r.2 = .ok true ∧ r.1.solution = some (m.isMerged || o.shouldMerge, data)) ∧
    (∀ s, code = 0 → files (b.resultFile m.cwd) = some (.text s) → (∃ e, r.2 = .error e) ∧ r.1.solution = m.solution) := by
  intro r
  obtain ⟨m2, g1, g2, g3, g4, hr⟩ := BendersFolder.run_eq hb programs o m
  have hr' : b.run programs o m = r := rfl
  clear_value r
  rw [hr'] at hr
  have hc : runCommand programs o.command b.emplacement m2 = ({ m2 with files := files }, .ok code) := by
    unfold runCommand RunOptions.command
    rw [g1, hexe]
    dsimp only
    rw [g4, show b.emplacement.from m.cwd = b.folder m.cwd from rfl, hrun]
  rw [hc] at hr
  subst hr
  by_cases hz : code = 0
  · subst hz
    obtain ⟨a1, a2, a3, a4, a5, a6⟩ := BendersFolder.afterCommand_ok (b := b) { m2 with files := files }
    dsimp only at a1 a2 a3 a4 a5 a6
    refine ⟨a1.trans g1, a2, a3.trans g3, fun h => absurd rfl h, fun _ h => ?_, fun data _ h => ?_, fun s _ h => ?_⟩
    · rw [a4 (by rw [g1]; exact h)]
      exact ⟨rfl, g2⟩
    · rw [a5 data (by rw [g1]; exact h)]
      exact ⟨rfl, by rw [← g3]⟩
    · obtain ⟨e, he⟩ := a6 s (by rw [g1]; exact h)
      rw [he]
      exact ⟨⟨e, rfl⟩, g2⟩
  · have : b.afterCommand ({ m2 with files := files }, .ok code) = ({ m2 with files := files }, .ok false) := if_neg hz
    rw [this]
    exact ⟨g1, rfl, g3, fun _ => ⟨rfl, g2⟩, fun h => absurd h hz, fun _ h => absurd h hz, fun _ h => absurd h hz⟩

/-- A decomposition without subproblem is refused. -/
theorem c67_no_subproblem (b : BendersFolder) (hb : b.problem.subproblems = []) (programs : FilePath → Option Executable) (o : RunOptions)
    (m : Machine) : (∃ e, (b.run programs o m).2 = .error e) ∧ (b.run programs o m).1.solution = m.solution := by
  obtain ⟨e, he⟩ := BendersFolder.run_error hb programs o m
  rw [he]
  exact ⟨⟨e, rfl⟩, (BendersFolder.initialise_rest _ _ _ _).2.1⟩

/-! ## Histories of runs -/

theorem run_state (b : BendersFolder) (programs : FilePath → Option Executable) (o : RunOptions) (m : Machine) :
    (NeverRaises programs → (b.run programs o m).1.cwd = m.cwd) ∧
    (b.problem.subproblems ≠ [] → (b.run programs o m).1.isMerged = (m.isMerged || o.shouldMerge)) ∧
    ((b.run programs o m).1.solution = m.solution ∨ ∃ d, (b.run programs o m).1.solution = some (m.isMerged || o.shouldMerge, d)) := by
  by_cases hb : b.problem.subproblems = []
  · obtain ⟨e, he⟩ := BendersFolder.run_error hb programs o m
    rw [he]
    exact ⟨fun _ => (BendersFolder.initialise_rest _ _ _ _).1, fun h => absurd hb h, .inl (BendersFolder.initialise_rest _ _ _ _).2.1⟩
  · obtain ⟨m2, g1, g2, g3, g4, hr⟩ := BendersFolder.run_eq hb programs o m
    rw [hr]
    have key : ∀ m3 : Machine, m3.cwd = m2.cwd → m3.solution = m2.solution → m3.isMerged = m2.isMerged → ∀ code : Int,
        (b.afterCommand (m3, .ok code)).1.cwd = m.cwd ∧ (b.afterCommand (m3, .ok code)).1.isMerged = (m.isMerged || o.shouldMerge) ∧
        ((b.afterCommand (m3, .ok code)).1.solution = m.solution ∨
          ∃ d, (b.afterCommand (m3, .ok code)).1.solution = some (m.isMerged || o.shouldMerge, d)) := by
      intro m3 e1 e2 e3 code
      by_cases hz : code = 0
      · subst hz
        obtain ⟨a1, a2, a3, a4, a5, a6⟩ := BendersFolder.afterCommand_ok (b := b) m3
        refine ⟨a1.trans (e1.trans g1), a3.trans (e3.trans g3), ?_⟩
        cases hf : m3.files (b.resultFile m3.cwd) with
        | none =>
          rw [a4 hf]
          exact .inl (e2.trans g2)
        | some c =>
          cases c with
          | text s =>
            obtain ⟨e, he⟩ := a6 s hf
            rw [he]
            exact .inl (e2.trans g2)
          | json d =>
            rw [a5 d hf]
            exact .inr ⟨d, by rw [e3, g3]⟩
      · have : b.afterCommand (m3, .ok code) = (m3, .ok false) := if_neg hz
        rw [this]
        exact ⟨e1.trans g1, e3.trans g3, .inl (e2.trans g2)⟩
    unfold runCommand
    cases hp : programs (m2.cwd ++ o.command) with
    | none =>
      obtain ⟨k1, k2, k3⟩ := key m2 rfl rfl rfl 0
      exact ⟨fun _ => k1, fun _ => k2, k3⟩
    | some exe =>
      dsimp only
      cases hx : exe (b.emplacement.from m2.cwd) m2.files with
      | error e => exact ⟨fun hn => absurd hx (hn _ _ hp _ _ _), fun _ => g3, .inl g2⟩
      | ok fc =>
        obtain ⟨k1, k2, k3⟩ := key { m2 with files := fc.1 } rfl rfl rfl fc.2
        exact ⟨fun _ => k1, fun _ => k2, k3⟩

/-- **C67 (partial), working directory.** After any history of runs in which executables could always be started, the working directory is
the same as before.  Missing: executables that cannot be started, see `c67_lost_directory`. -/
theorem c67_directory_partial (b : BendersFolder) (history : List ((FilePath → Option Executable) × RunOptions))
    (hn : ∀ r ∈ history, NeverRaises r.1) (m : Machine) : (b.runs history m).cwd = m.cwd := by
  induction history generalizing m with
  | nil => rfl
  | cons r rest ih =>
    obtain ⟨p, o⟩ := r
    exact (ih (fun r hr => hn r (by simp [hr])) _).trans ((run_state b p o m).1 (hn (p, o) (by simp)))

/-- **C67 (partial), kind of the solution.** Take a new problem, and any history of runs.  If none of them merged the problems the solution,
if any, is a decomposed one; if all of them did, it is a merged one.  Missing: histories with both kinds, see `c67_kind_kept`. -/
theorem c67_kind_partial (b : BendersFolder) (history : List ((FilePath → Option Executable) × RunOptions)) (kind : Bool)
    (hk : ∀ r ∈ history, r.2.shouldMerge = kind) (files : Files) (cwd : FilePath) {k : Bool} {data : Json}
    (hs : (b.runs history { files := files, cwd := cwd }).solution = some (k, data)) : k = kind := by
  suffices H : ∀ m : Machine, ((m.isMerged || kind) = kind) → (∀ k d, m.solution = some (k, d) → k = kind) →
      ∀ k d, (b.runs history m).solution = some (k, d) → k = kind by
    exact H _ (by simp) (by intro k d h; cases h) k data hs
  clear hs
  induction history with
  | nil => intro m _ h; exact h
  | cons r rest ih =>
    obtain ⟨p, o⟩ := r
    intro m hm hsol
    have ho : o.shouldMerge = kind := hk (p, o) (by simp)
    obtain ⟨-, h2, h3⟩ := run_state b p o m
    refine ih (fun r hr => hk r (by simp [hr])) _ ?_ ?_
    · by_cases hb : b.problem.subproblems = []
      · obtain ⟨e, he⟩ := BendersFolder.run_error hb p o m
        rw [he, (BendersFolder.initialise_rest _ _ _ _).2.2]
        exact hm
      · rw [h2 hb, ho, hm]
        cases kind <;> rfl
    · intro k d hkd
      rcases h3 with h3 | ⟨d', h3⟩
      · rw [h3] at hkd
        exact hsol k d hkd
      · rw [h3] at hkd
        cases hkd
        rw [ho, hm]

/-! ## What goes wrong -/

/-- **C67, violated: missing solver.** If the executable does not exist, `run` returns `True`, with any result that an earlier run left in
the folder, possibly by another problem, and without any solution if there is none. -/
theorem c67_missing_solver (b : BendersFolder) (hb : b.problem.subproblems ≠ []) (programs : FilePath → Option Executable) (o : RunOptions)
    (m : Machine) (hexe : programs (m.cwd ++ if o.shouldMerge then ["bin", "merge_mps"] else ["bin", "benders"]) = none)
    (hout : ∀ n ∈ b.written o.showDebug, b.resultFile m.cwd ≠ b.folder m.cwd ++ [n]) :
    (m.files (b.resultFile m.cwd) = none → (b.run programs o m).2 = .ok true ∧ (b.run programs o m).1.solution = m.solution) ∧
    ∀ data, m.files (b.resultFile m.cwd) = some (.json data) →
      (b.run programs o m).2 = .ok true ∧ (b.run programs o m).1.solution = some (m.isMerged || o.shouldMerge, data) := by
  obtain ⟨m2, g1, g2, g3, g4, hr⟩ := BendersFolder.run_eq hb programs o m
  rw [hr]
  have hc : runCommand programs o.command b.emplacement m2 = (m2, .ok 0) := by
    unfold runCommand RunOptions.command
    rw [g1, hexe]
  rw [hc]
  obtain ⟨-, -, -, a4, a5, -⟩ := BendersFolder.afterCommand_ok (b := b) m2
  have hf : m2.files (b.resultFile m2.cwd) = m.files (b.resultFile m.cwd) := by
    rw [g4, g1]
    exact BendersFolder.initialise_frame _ _ _ _ hout
  rw [hf] at a4 a5
  refine ⟨fun h => ?_, fun data h => ?_⟩
  · rw [a4 h]
    exact ⟨rfl, g2⟩
  · rw [a5 data h]
    exact ⟨rfl, by rw [← g3]⟩

/-- **C67, violated: lost directory.** When the executable cannot be started the working directory stays in the folder, and with a relative
folder the next run does not find the executable any more: it returns `True` although nothing was ever solved. -/
theorem c67_lost_directory (b : BendersFolder) (hb : b.problem.subproblems ≠ []) (he : b.emplacement.absolute = false)
    (hne : b.emplacement.parts ≠ []) (programs : FilePath → Option Executable) (o : RunOptions) (m : Machine)
    (exe : Executable) (hexe : ∀ p, programs p = if p = m.cwd ++ o.command then some exe else none)
    (hraise : ∀ dir files, ∃ e, exe dir files = .error e) (hfiles : ∀ p, p.length > (b.folder m.cwd).length + 1 → m.files p = none)
    (hout : ∀ n, b.outputPath ++ ["out.json"] ≠ [n]) :
    let first := b.run programs o m
    (∃ e, first.2 = .error e) ∧ first.1.cwd = b.folder m.cwd ∧ (b.run programs o first.1).2 = .ok true ∧
      (b.run programs o first.1).1.solution = m.solution := by
  intro first
  obtain ⟨m2, g1, g2, g3, g4, hr⟩ := BendersFolder.run_eq hb programs o m
  obtain ⟨e, hex⟩ := hraise (b.emplacement.from m2.cwd) m2.files
  have hc : runCommand programs o.command b.emplacement m2 = ({ m2 with cwd := b.emplacement.from m2.cwd }, .error e) := by
    unfold runCommand
    rw [hexe, g1, if_pos rfl]
    dsimp only
    rw [← g1, hex]
  rw [hc] at hr
  have hfirst : first = ({ m2 with cwd := b.emplacement.from m2.cwd }, .error e) := hr
  have hcwd : first.1.cwd = b.folder m.cwd := by
    rw [hfirst]
    show b.emplacement.from m2.cwd = _
    rw [g1]
    rfl
  have hlen : (b.folder m.cwd).length = m.cwd.length + b.emplacement.parts.length := by
    unfold BendersFolder.folder WrittenPath.from
    rw [he]
    simp
  have hpos : 0 < b.emplacement.parts.length := List.length_pos_iff.2 hne
  have hout' : 1 < (b.outputPath ++ ["out.json"]).length := by
    rw [List.length_append, List.length_singleton]
    rcases Nat.eq_zero_or_pos b.outputPath.length with h0 | h0
    · have := List.length_eq_zero_iff.1 h0
      exact absurd (by rw [this]; rfl) (hout "out.json")
    · omega
  have hsol : first.1.solution = m.solution := by rw [hfirst]; exact g2
  have hfol : (b.folder first.1.cwd).length = (b.folder m.cwd).length + b.emplacement.parts.length := by
    rw [hcwd]
    have : ∀ c, b.folder c = c ++ b.emplacement.parts := by
      intro c
      unfold BendersFolder.folder WrittenPath.from
      rw [he]
      rfl
    rw [this (b.folder m.cwd), List.length_append]
  have hmiss := c67_missing_solver b hb programs o first.1 (by
    rw [hexe, if_neg]
    rw [hcwd]
    intro h
    have := congrArg List.length h
    unfold RunOptions.command at this
    simp only [List.length_append] at this
    omega) (by
    intro n _ h
    have := congrArg List.length h
    unfold BendersFolder.resultFile at this
    simp only [List.length_append, List.length_singleton] at this hout'
    omega)
  refine ⟨⟨e, by rw [hfirst]⟩, hcwd, ?_⟩
  rw [← hsol]
  refine hmiss.1 ?_
  have hrl : (b.resultFile first.1.cwd).length > (b.folder m.cwd).length + 1 := by
    unfold BendersFolder.resultFile
    rw [List.append_assoc, List.length_append, hfol]
    omega
  rw [hfirst]
  show m2.files _ = none
  rw [g4, BendersFolder.initialise_frame]
  · have : (({ m2 with cwd := b.emplacement.from m2.cwd } : Machine), (.error e : R Bool)).1.cwd = first.1.cwd := by rw [hfirst]
    rw [this]
    exact hfiles _ hrl
  · intro n _ h
    have := congrArg List.length h
    have hcw : (({ m2 with cwd := b.emplacement.from m2.cwd } : Machine), (.error e : R Bool)).1.cwd = first.1.cwd := by rw [hfirst]
    rw [hcw, List.length_append] at this
    simp only [List.length_singleton] at this
    omega

/-- **C67, violated: kind of the solution.** After a run that merged the problems, whatever its outcome, the solution of a run that does not
merge them is still presented as a merged one. -/
theorem c67_kind_kept (b : BendersFolder) (hb : b.problem.subproblems ≠ []) (programs programs' : FilePath → Option Executable)
    (o o' : RunOptions) (ho : o.shouldMerge = true) (ho' : o'.shouldMerge = false) (m : Machine) (exe : Executable)
    (hexe : programs' ((b.run programs o m).1.cwd ++ ["bin", "benders"]) = some exe) (files : Files) (data : Json)
    (hrun : exe (b.folder (b.run programs o m).1.cwd)
      (b.initialise o'.solverName o'.logLevel o'.showDebug (b.run programs o m).1).1.files = .ok (files, 0))
    (hf : files (b.resultFile (b.run programs o m).1.cwd) = some (.json data)) :
    (b.run programs' o' (b.run programs o m).1).2 = .ok true ∧ (b.run programs' o' (b.run programs o m).1).1.solution = some (true, data) := by
  have h := (run_state b programs o m).2.1 hb
  rw [ho, Bool.or_true] at h
  have := (c67_outcome b hb programs' o' _ exe (by rw [ho']; exact hexe) files 0 hrun).2.2.2.2.2.1 data rfl hf
  rw [h] at this
  exact this

/-- **C67, violated: lost problems.** Of two problems of the same name, which a decision tree can give (`c40_names_collide`), only the last
one is written. -/
theorem c67_overwritten (b : BendersFolder) (solver : String) (level : Int) (debug : Bool) (m m' : Machine)
    (h : b.initialise solver level debug m = (m', .ok ())) {before between after : List Problem} {p q : Problem}
    (hpq : b.problems = before ++ p :: between ++ q :: after) (hname : q.name = p.name) (hlast : ∀ x ∈ after, x.name ≠ p.name)
    (hdiff : b.mps p.state ≠ b.mps q.state) (hs : b.structureFile ≠ p.name ++ ".mps") :
    m'.files (b.folder m.cwd ++ [p.name ++ ".mps"]) ≠ some (.text (b.mps p.state)) := by
  have : b.problems.reverse.find? (fun x => x.name = p.name) = some q := by
    rw [hpq]
    have hn : after.reverse.find? (fun x => x.name = p.name) = none := by
      rw [List.find?_eq_none]
      intro x hx
      simpa using hlast x (List.mem_reverse.1 hx)
    simp [List.find?_append, hn, hname]
  rw [c67_files_last b solver level debug m m' h this hs]
  intro he
  simp only [Option.some.injEq, Content.text.injEq] at he
  exact hdiff he.symm

/-! ## Examples -/

/-- a master with columns `a`, `b` and two subproblems with columns `x`, `a` -/
def folderDemo : BendersFolder where
  problem := ⟨⟨"master", (couplerAB .ninf .pinf).state⟩, [subXA "subproblem_b1", subXA "subproblem_b2"]⟩
  mps st := toString st.solver.vars.length
  lp st := toString st.solver.rows.length

theorem folderDemo_distinct : folderDemo.Distinct := by
  refine ⟨by decide, by decide, ?_⟩
  intro p hp
  simp only [folderDemo, BendersFolder.problems, List.mem_cons, List.not_mem_nil, or_false] at hp
  rcases hp with rfl | rfl | rfl <;> decide

/-- a solver that writes its result and ends well -/
def demoSolver : Executable := fun dir files => .ok (files.set (dir ++ ["expansion", "out.json"]) (.json (.obj [("cost", .num 5)])), 0)

def demoPrograms : FilePath → Option Executable := fun p => if p = ["home", "bin", "benders"] then some demoSolver else none

def demoMachine : Machine := { files := fun _ => none, cwd := ["home"] }

/-- hypotheses of `c67_files_partial` and `c67_outcome` met: the run returns `True` with the result of the solver -/
example : (∃ m', folderDemo.initialise "XPRESS" 0 true demoMachine = (m', .ok ())) ∧
    (folderDemo.run demoPrograms {} demoMachine).2 = .ok true ∧
    (folderDemo.run demoPrograms {} demoMachine).1.solution = some (false, .obj [("cost", .num 5)]) := by
  refine ⟨⟨_, Prod.ext rfl ((BendersFolder.initialise_ok_iff _ _ _ _).2 (by simp [folderDemo]))⟩, ?_⟩
  exact (c67_outcome folderDemo (by simp [folderDemo]) demoPrograms {} demoMachine demoSolver rfl _ 0 rfl).2.2.2.2.2.1 _ rfl
    (Files.set_same _ _ _)

/-- hypotheses of `c67_missing_solver` met: `True` without solver -/
example : (folderDemo.run (fun _ => none) {} demoMachine).2 = .ok true :=
  ((c67_missing_solver folderDemo (by simp [folderDemo]) (fun _ => none) {} demoMachine rfl (by
    intro n _ h
    have := congrArg List.length h
    simp [BendersFolder.resultFile, BendersFolder.folder, folderDemo] at this)).1 rfl).1

/-- hypotheses of `c67_lost_directory` met -/
example : (folderDemo.run (fun p => if p = ["home", "bin", "benders"] then some (fun _ _ => .error (.exception "PermissionError")) else none) {}
      (folderDemo.run (fun p => if p = ["home", "bin", "benders"] then some (fun _ _ => .error (.exception "PermissionError")) else none) {}
        demoMachine).1).2 = .ok true :=
  (c67_lost_directory folderDemo (by simp [folderDemo]) rfl (by simp [folderDemo]) _ {} demoMachine _ (fun _ => rfl) (fun _ _ => ⟨_, rfl⟩)
    (fun _ _ => rfl) (by intro n h; simp [folderDemo] at h)).2.2.1

/-- hypotheses of `c67_kind_kept` met: a run that merges with a missing program, then a run that does not merge -/
example : (folderDemo.run demoPrograms {} (folderDemo.run demoPrograms { shouldMerge := true } demoMachine).1).1.solution =
    some (true, .obj [("cost", .num 5)]) := by
  have hc : (folderDemo.run demoPrograms { shouldMerge := true } demoMachine).1.cwd = ["home"] := by
    refine (run_state folderDemo demoPrograms { shouldMerge := true } demoMachine).1 ?_
    intro path exe h dir files e he
    unfold demoPrograms at h
    split_ifs at h
    cases h
    cases he
  refine (c67_kind_kept folderDemo (by simp [folderDemo]) demoPrograms demoPrograms { shouldMerge := true } {} rfl rfl demoMachine demoSolver
    (by rw [hc]; rfl) _ _ rfl ?_).2
  have : folderDemo.resultFile (folderDemo.run demoPrograms { shouldMerge := true } demoMachine).1.cwd =
      folderDemo.folder (folderDemo.run demoPrograms { shouldMerge := true } demoMachine).1.cwd ++ ["expansion", "out.json"] := by
    unfold BendersFolder.resultFile
    rw [List.append_assoc]
    rfl
  rw [this]
  exact Files.set_same _ _ _

def sameNameDemo : BendersFolder where
  problem := ⟨⟨"master", {}⟩, [⟨"s", {}⟩, subXA "s"]⟩
  mps st := toString st.solver.vars.length
  lp _ := ""

/-- hypotheses of `c67_overwritten` met by two subproblems of the same name -/
example : ∃ m', sameNameDemo.initialise "XPRESS" 0 false demoMachine = (m', .ok ()) ∧
    m'.files (sameNameDemo.folder demoMachine.cwd ++ ["s.mps"]) ≠ some (.text "0") := by
  have h := (BendersFolder.initialise_ok_iff (b := sameNameDemo) "XPRESS" 0 false demoMachine).2 (by simp [sameNameDemo])
  exact ⟨_, Prod.ext rfl h, c67_overwritten sameNameDemo "XPRESS" 0 false demoMachine _ (Prod.ext rfl h) (before := [⟨"master", {}⟩])
    (between := []) (after := []) (p := ⟨"s", {}⟩) (q := subXA "s") rfl rfl (by simp) (by decide) (by decide)⟩

end Verif.Props
