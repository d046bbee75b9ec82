import Verif.Spec.Runner
import Verif.Lemmas.Basic
import Mathlib.Data.List.Nodup

/-! # Lemmas about running decomposed problems -/

namespace Verif

@[simp] theorem Files.set_same (f : Files) (p : FilePath) (c : Content) : f.set p c p = some c := by simp [Files.set]

theorem Files.set_other (f : Files) {p q : FilePath} (c : Content) (h : q ≠ p) : f.set p c q = f q := by simp [Files.set, h]

theorem last_char_ne {x y a b : String} {c d : Char} (ha : a.toList.getLast? = some c) (hb : b.toList.getLast? = some d) (h : c ≠ d) :
    x ++ a ≠ y ++ b := by
  intro e
  have e := congrArg (fun s => s.toList.getLast?) e
  simp only [String.toList_append, List.getLast?_append, ha, hb, Option.or_some] at e
  simp at e
  exact h e

theorem mps_ne_lp (x y : String) : x ++ ".mps" ≠ y ++ ".lp" := last_char_ne (c := 's') (d := 'p') rfl rfl (by decide)

theorem mps_ne_options (x : String) : x ++ ".mps" ≠ "options.json" := by
  have := last_char_ne (x := x) (y := "options.jso") (a := ".mps") (b := "n") (c := 's') (d := 'n') rfl rfl (by decide)
  exact this

theorem lp_ne_options (x : String) : x ++ ".lp" ≠ "options.json" := by
  have := last_char_ne (x := x) (y := "options.jso") (a := ".lp") (b := "n") (c := 'p') (d := 'n') rfl rfl (by decide)
  exact this

theorem append_right_cancel' {x y e : String} (h : x ++ e = y ++ e) : x = y := by
  have := congrArg String.toList h
  simp only [String.toList_append] at this
  exact String.toList_injective (List.append_cancel_right this)

namespace BendersFolder
variable {b : BendersFolder}

/-- writing the exports of a list of problems -/
def writeAll (b : BendersFolder) (ext : String) (f : OptState → String) (ps : List Problem) (m : Machine) : Machine :=
  ps.foldl (fun m p => b.serialize (p.name ++ ext) (.text (f p.state)) m) m

theorem writeAll_rest (ext : String) (f : OptState → String) (ps : List Problem) (m : Machine) :
    (b.writeAll ext f ps m).cwd = m.cwd ∧ (b.writeAll ext f ps m).solution = m.solution ∧ (b.writeAll ext f ps m).isMerged = m.isMerged := by
  induction ps generalizing m with
  | nil => exact ⟨rfl, rfl, rfl⟩
  | cons p ps ih => exact ih _

theorem writeAll_other (ext : String) (f : OptState → String) (ps : List Problem) (m : Machine) {q : FilePath}
    (h : ∀ p ∈ ps, q ≠ b.folder m.cwd ++ [p.name ++ ext]) : (b.writeAll ext f ps m).files q = m.files q := by
  induction ps generalizing m with
  | nil => rfl
  | cons p ps ih =>
    refine (ih (b.serialize (p.name ++ ext) (.text (f p.state)) m) fun p' hp' => h p' (by simp [hp'])).trans ?_
    exact Files.set_other _ _ (h p (by simp))

/-- the file holds the text of the last problem of this name -/
theorem writeAll_last (ext : String) (f : OptState → String) (ps : List Problem) (m : Machine) {p : Problem} {n : String}
    (h : ps.reverse.find? (fun p => p.name = n) = some p) : (b.writeAll ext f ps m).files (b.folder m.cwd ++ [n ++ ext]) = some (.text (f p.state)) := by
  induction ps generalizing m with
  | nil => cases h
  | cons x ps ih =>
    simp only [List.reverse_cons, List.find?_append] at h
    cases hr : ps.reverse.find? (fun p => p.name = n) with
    | some y =>
      rw [hr] at h
      cases h
      exact ih (b.serialize (x.name ++ ext) (.text (f x.state)) m) hr
    | none =>
      rw [hr, Option.none_or] at h
      have hx : x = p ∧ x.name = n := by
        simp only [List.find?_cons, List.find?_nil] at h
        split at h
        · next hd => cases h; exact ⟨rfl, by simpa using hd⟩
        · cases h
      obtain ⟨rfl, rfl⟩ := hx
      refine (writeAll_other (b := b) ext f ps (b.serialize (x.name ++ ext) (.text (f x.state)) m) ?_).trans ?_
      · intro p' hp' he
        have := List.find?_eq_none.1 hr p' (List.mem_reverse.2 hp')
        simp only [decide_eq_true_eq] at this
        have he := List.append_cancel_left he
        simp only [List.cons.injEq, and_true] at he
        exact this (append_right_cancel' he).symm
      · exact Files.set_same _ _ _

theorem find_last {ps : List Problem} (hn : (ps.map (·.name)).Nodup) {p : Problem} (hp : p ∈ ps) :
    ps.reverse.find? (fun q => q.name = p.name) = some p := by
  have hn' : (ps.reverse.map (·.name)).Nodup := by rw [List.map_reverse]; exact List.nodup_reverse.2 hn
  have hp := List.mem_reverse.2 hp
  generalize ps.reverse = qs at hn' hp
  induction qs with
  | nil => cases hp
  | cons x qs ih =>
    simp only [List.map_cons, List.nodup_cons, List.mem_map, not_exists, not_and] at hn'
    rcases List.mem_cons.1 hp with rfl | hp
    · simp
    · rw [List.find?_cons_of_neg (by simpa using fun he => hn'.1 p hp he.symm)]
      exact ih hn'.2 hp

/-- `initialise` on a problem whose structure file can be written -/
theorem initialise_eq (solver : String) (level : Int) (debug : Bool) (m : Machine) {s : String}
    (hs : exportStructure b.problem.master.state b.problem.subproblems = .ok s) :
    b.initialise solver level debug m =
      (let m := b.writeAll ".mps" b.mps b.problems m
       let m := b.serialize b.structureFile (.text s) m
       let m := b.serialize "options.json" (.json (b.options solver level)) m
       if debug then b.writeAll ".lp" b.lp b.problems m else m, .ok ()) := by
  unfold initialise
  rw [hs]
  cases debug <;> rfl

theorem initialise_error (solver : String) (level : Int) (debug : Bool) (m : Machine) {e : Err}
    (hs : exportStructure b.problem.master.state b.problem.subproblems = .error e) :
    b.initialise solver level debug m = (b.writeAll ".mps" b.mps b.problems m, .error e) := by
  unfold initialise
  rw [hs]
  rfl

theorem initialise_rest (solver : String) (level : Int) (debug : Bool) (m : Machine) :
    (b.initialise solver level debug m).1.cwd = m.cwd ∧ (b.initialise solver level debug m).1.solution = m.solution ∧
      (b.initialise solver level debug m).1.isMerged = m.isMerged := by
  cases hs : exportStructure b.problem.master.state b.problem.subproblems with
  | error e =>
    rw [initialise_error _ _ _ _ hs]
    exact writeAll_rest _ _ _ _
  | ok s =>
    rw [initialise_eq _ _ _ _ hs]
    dsimp only
    have := writeAll_rest (b := b) ".mps" b.mps b.problems m
    cases debug
    · exact this
    · have h2 := writeAll_rest (b := b) ".lp" b.lp b.problems
        (b.serialize "options.json" (.json (b.options solver level)) (b.serialize b.structureFile (.text s) (b.writeAll ".mps" b.mps b.problems m)))
      exact ⟨h2.1.trans this.1, h2.2.1.trans this.2.1, h2.2.2.trans this.2.2⟩

theorem initialise_ok_iff (solver : String) (level : Int) (debug : Bool) (m : Machine) :
    (b.initialise solver level debug m).2 = .ok () ↔ b.problem.subproblems ≠ [] := by
  cases hs : exportStructure b.problem.master.state b.problem.subproblems with
  | error e =>
    rw [initialise_error _ _ _ _ hs]
    constructor
    · intro h; cases h
    · intro h
      unfold exportStructure at hs
      rw [if_neg (by simpa using h)] at hs
      cases hs
  | ok s =>
    rw [initialise_eq _ _ _ _ hs]
    refine ⟨fun _ h => ?_, fun _ => rfl⟩
    rw [h] at hs
    cases hs

theorem initialise_frame (solver : String) (level : Int) (debug : Bool) (m : Machine) {q : FilePath}
    (h : ∀ n ∈ b.written debug, q ≠ b.folder m.cwd ++ [n]) : (b.initialise solver level debug m).1.files q = m.files q := by
  have h1 : (b.writeAll ".mps" b.mps b.problems m).files q = m.files q :=
    writeAll_other _ _ _ _ fun p hp => h _ (by
      unfold written
      simp only [List.append_assoc, List.mem_append, List.mem_map]
      exact .inl ⟨p, hp, rfl⟩)
  cases hs : exportStructure b.problem.master.state b.problem.subproblems with
  | error e =>
    rw [initialise_error _ _ _ _ hs]
    exact h1
  | ok s =>
    rw [initialise_eq _ _ _ _ hs]
    dsimp only
    have hc := (writeAll_rest (b := b) ".mps" b.mps b.problems m).1
    have h2 : (b.serialize "options.json" (.json (b.options solver level)) (b.serialize b.structureFile (.text s)
        (b.writeAll ".mps" b.mps b.problems m))).files q = m.files q := by
      unfold serialize
      dsimp only
      rw [Files.set_other, Files.set_other, h1]
      · rw [hc]
        exact h _ (by unfold written; simp)
      · rw [hc]
        exact h _ (by unfold written; simp)
    cases debug
    · exact h2
    · refine (writeAll_other _ _ _ _ fun p hp => ?_).trans h2
      have : (b.serialize "options.json" (.json (b.options solver level)) (b.serialize b.structureFile (.text s)
        (b.writeAll ".mps" b.mps b.problems m))).cwd = m.cwd := hc
      rw [this]
      exact h _ (by
        unfold written
        simp only [if_true, List.append_assoc, List.mem_append, List.mem_map]
        exact .inr (.inr ⟨p, hp, rfl⟩))

/-- the end of `run` -/
def afterCommand (b : BendersFolder) : Machine × R Int → Machine × R Bool
  | (m, .error e) => (m, .error e)
  | (m, .ok code) =>
    if code = 0 then
      match b.readSolution m with
      | (m, .error e) => (m, .error e)
      | (m, .ok ()) => (m, .ok true)
    else (m, .ok false)

theorem run_eq (hb : b.problem.subproblems ≠ []) (programs : FilePath → Option Executable) (o : RunOptions) (m : Machine) :
    ∃ m2 : Machine, m2.cwd = m.cwd ∧ m2.solution = m.solution ∧ m2.isMerged = (m.isMerged || o.shouldMerge) ∧
      m2.files = (b.initialise o.solverName o.logLevel o.showDebug m).1.files ∧
      b.run programs o m = b.afterCommand (runCommand programs o.command b.emplacement m2) := by
  obtain ⟨h1, h2, h3⟩ := initialise_rest (b := b) o.solverName o.logLevel o.showDebug m
  have h4 := (initialise_ok_iff (b := b) o.solverName o.logLevel o.showDebug m).2 hb
  unfold run
  generalize b.initialise o.solverName o.logLevel o.showDebug m = i at h1 h2 h3 h4
  obtain ⟨m1, e⟩ := i
  dsimp only at h1 h2 h3 h4
  subst h4
  refine ⟨if o.shouldMerge then { m1 with isMerged := true } else m1, ?_, ?_, ?_, ?_, ?_⟩
  · split_ifs <;> exact h1
  · split_ifs <;> exact h2
  · cases o.shouldMerge <;> simp [h3]
  · split_ifs <;> rfl
  · dsimp only
    generalize runCommand programs o.command b.emplacement (if o.shouldMerge then { m1 with isMerged := true } else m1) = x
    obtain ⟨m3, c⟩ := x
    cases c <;> rfl

theorem run_error (hb : b.problem.subproblems = []) (programs : FilePath → Option Executable) (o : RunOptions) (m : Machine) :
    ∃ e, b.run programs o m = ((b.initialise o.solverName o.logLevel o.showDebug m).1, .error e) := by
  unfold run
  have h4 := (initialise_ok_iff (b := b) o.solverName o.logLevel o.showDebug m).not.2 (not_not.2 hb)
  generalize b.initialise o.solverName o.logLevel o.showDebug m = i at h4
  obtain ⟨m1, e⟩ := i
  cases e with
  | error e => exact ⟨e, rfl⟩
  | ok u => exact absurd rfl h4

/-- the end of a successful command -/
theorem afterCommand_ok (m : Machine) :
    (b.afterCommand (m, .ok 0)).1.cwd = m.cwd ∧ (b.afterCommand (m, .ok 0)).1.files = m.files ∧
    (b.afterCommand (m, .ok 0)).1.isMerged = m.isMerged ∧
    (m.files (b.resultFile m.cwd) = none → b.afterCommand (m, .ok 0) = (m, .ok true)) ∧
    (∀ data, m.files (b.resultFile m.cwd) = some (.json data) → b.afterCommand (m, .ok 0) = ({ m with solution := some (m.isMerged, data) }, .ok true)) ∧
    (∀ s, m.files (b.resultFile m.cwd) = some (.text s) → ∃ e, b.afterCommand (m, .ok 0) = (m, .error e)) := by
  have hr : b.afterCommand (m, .ok 0) = match b.readSolution m with
      | (m, .error e) => (m, .error e)
      | (m, .ok ()) => (m, .ok true) := by
    unfold afterCommand
    dsimp only
    rw [if_pos rfl]
  have hs : b.readSolution m = match m.files (b.resultFile m.cwd) with
      | none => (m, .ok ())
      | some (.text _) => (m, .error (.valueError "JSONDecodeError"))
      | some (.json data) => ({ m with solution := some (m.isMerged, data) }, .ok ()) := rfl
  rw [hr, hs]
  generalize m.files (b.resultFile m.cwd) = c
  match c with
  | none => simp
  | some (.text s) => simp
  | some (.json d) => simp

end BendersFolder
end Verif
