import Verif.Props.Fusion

/-!
# C40: the structure file of a Benders decomposition
-/

namespace Verif.Props
open Verif

theorem registered_nodup {st : OptState} (h : Registered st) : (st.solver.vars.map (·.name)).Nodup := by
  rw [List.nodup_iff_getElem?_ne_getElem?]
  intro i j hij hj heq
  rw [List.length_map] at hj
  rw [List.getElem?_map, List.getElem?_map, List.getElem?_eq_getElem hj, List.getElem?_eq_getElem (by omega : i < _)] at heq
  simp only [Option.map_some, Option.some.injEq] at heq
  obtain ⟨b, hb⟩ := h.info i _ (List.getElem?_eq_getElem (by omega))
  obtain ⟨b', hb'⟩ := h.info j _ (List.getElem?_eq_getElem hj)
  rw [heq, hb'] at hb
  simp only [Option.some.injEq, VarInfo.mk.injEq] at hb
  omega

theorem registered_perm {st : OptState} (h : Registered st) : (st.solver.vars.map (·.name)).Perm st.infos.keys := by
  refine List.Subperm.perm_of_length_le (List.Nodup.subperm (registered_nodup h) ?_) ?_
  · intro n hn
    obtain ⟨v, hv, rfl⟩ := List.mem_map.1 hn
    obtain ⟨i, b, hb⟩ := registered_names h v hv
    exact Dict.mem_keys_iff.2 ⟨_, hb⟩
  · have := h.length
    simp [Dict.keys, this]

/-- the name and column number in each record -/
theorem registered_mem {st : OptState} (h : Registered st) (c : String) (i : Nat) :
    (∃ info ∈ st.infos.values, info.name = c ∧ info.columnId = i) ↔ st.solver.vars[i]?.map (·.name) = some c := by
  have hnd : st.infos.keys.Nodup := (registered_perm h).nodup_iff.1 (registered_nodup h)
  constructor
  · rintro ⟨info, hinfo, rfl, rfl⟩
    obtain ⟨⟨k, info⟩, hm, rfl⟩ := List.mem_map.1 hinfo
    have hk : k ∈ st.infos.keys := List.mem_map.2 ⟨_, hm, rfl⟩
    obtain ⟨v, hv, rfl⟩ := List.mem_map.1 (h.only k hk)
    obtain ⟨i, hi⟩ := List.getElem?_of_mem hv
    obtain ⟨b, hb⟩ := h.info i v hi
    have := Dict.get?_of_mem hnd hm
    rw [hb] at this
    cases this
    simp [hi]
  · intro hc
    cases hi : st.solver.vars[i]? with
    | none => rw [hi] at hc; cases hc
    | some v =>
      rw [hi] at hc
      simp only [Option.map_some, Option.some.injEq] at hc
      subst hc
      obtain ⟨b, hb⟩ := h.info i v hi
      exact ⟨_, List.mem_map.2 ⟨_, Dict.mem_of_get? hb, rfl⟩, rfl, rfl⟩

theorem registered_record_names {st : OptState} (h : Registered st) : st.infos.values.map (·.name) = st.infos.keys := by
  have hnd : st.infos.keys.Nodup := (registered_perm h).nodup_iff.1 (registered_nodup h)
  unfold Dict.values Dict.keys
  rw [List.map_map]
  apply List.map_congr_left
  rintro ⟨k, info⟩ hm
  have hk : k ∈ st.infos.keys := List.mem_map.2 ⟨_, hm, rfl⟩
  obtain ⟨v, hv, rfl⟩ := List.mem_map.1 (h.only k hk)
  obtain ⟨i, hi⟩ := List.getElem?_of_mem hv
  obtain ⟨b, hb⟩ := h.info i v hi
  have := Dict.get?_of_mem hnd hm
  rw [hb] at this
  cases this
  rfl

theorem foldl_set {α β γ} [DecidableEq β] (key : α → β) (f : α → γ) (l : List α) (d : Dict β γ)
    (nd : (d.keys ++ l.map key).Nodup) :
    l.foldl (fun d a => d.set (key a) (f a)) d = d ++ l.map fun a => (key a, f a) := by
  induction l generalizing d with
  | nil => simp
  | cons a l ih =>
    have hna : key a ∉ d.keys := by
      intro h
      rw [List.nodup_append] at nd
      exact nd.2.2 _ h _ (by simp) rfl
    rw [List.foldl_cons, Dict.set_of_notMem hna, ih]
    · simp
    · simpa [Dict.keys] using nd

/-- **C40**: when every column of the master and of the subproblems is recorded under its name and no two subproblems have
the same name, the lines of the structure are different, and they are exactly: for the master, a line for each column,
with its name and number; for each subproblem, a line for each of its columns whose name is the name of a column of the
master, with its number in this subproblem. -/
theorem c40_lines_partial (master : OptState) (subproblems : List Problem) (hm : Registered master)
    (hs : ∀ s ∈ subproblems, Registered s.state) (hn : ("master" :: subproblems.map (·.name)).Nodup) :
    (structureLines (problemToCandidates master subproblems)).Nodup ∧
    ∀ p c i, (p, c, i) ∈ structureLines (problemToCandidates master subproblems) ↔
      (p = "master" ∧ master.solver.vars[i]?.map (·.name) = some c) ∨
      ∃ s ∈ subproblems, p = s.name ∧ s.state.solver.vars[i]?.map (·.name) = some c ∧ c ∈ master.solver.vars.map (·.name) := by
  have hmk : (master.infos.values.map fun i => (i.name, i.columnId)).map Prod.fst = master.infos.keys := by
    rw [List.map_map]
    exact registered_record_names hm
  have hmnd : master.infos.keys.Nodup := (registered_perm hm).nodup_iff.1 (registered_nodup hm)
  have hof : Dict.ofItems (master.infos.values.map fun i => (i.name, i.columnId)) =
      master.infos.values.map fun i => (i.name, i.columnId) := Dict.ofItems_of_nodup (by rw [hmk]; exact hmnd)
  have hcand : ∀ c, c ∈ master.infos.keys ↔ c ∈ master.solver.vars.map (·.name) := fun c => (registered_perm hm).mem_iff.symm
  have hsub : ∀ s ∈ subproblems, Dict.ofItems ((s.state.infos.values.filter fun i => master.infos.keys.contains i.name).map
      fun i => (i.name, i.columnId)) =
      (s.state.infos.values.filter fun i => master.infos.keys.contains i.name).map fun i => (i.name, i.columnId) := by
    intro s hss
    apply Dict.ofItems_of_nodup
    rw [List.map_map]
    have hnd : (s.state.infos.values.map (·.name)).Nodup := by
      rw [registered_record_names (hs s hss)]
      exact (registered_perm (hs s hss)).nodup_iff.1 (registered_nodup (hs s hss))
    exact hnd.sublist (List.Sublist.map _ List.filter_sublist)
  have hsubnd : ∀ s ∈ subproblems,
      (((s.state.infos.values.filter fun i => master.infos.keys.contains i.name).map fun i => (i.name, i.columnId)).map
        Prod.fst).Nodup := by
    intro s hss
    rw [List.map_map]
    have hnd : (s.state.infos.values.map (·.name)).Nodup := by
      rw [registered_record_names (hs s hss)]
      exact (registered_perm (hs s hss)).nodup_iff.1 (registered_nodup (hs s hss))
    exact hnd.sublist (List.Sublist.map _ List.filter_sublist)
  have hpc : problemToCandidates master subproblems =
      ("master", master.infos.values.map fun i => (i.name, i.columnId)) :: subproblems.map fun s =>
        (s.name, (s.state.infos.values.filter fun i => master.infos.keys.contains i.name).map fun i => (i.name, i.columnId)) := by
    unfold problemToCandidates
    simp only [hof]
    have hk : Dict.keys (master.infos.values.map fun i => (i.name, i.columnId)) = master.infos.keys := hmk
    rw [hk, foldl_set (fun s : Problem => s.name) _ subproblems _ (by simpa [Dict.keys] using hn)]
    rw [List.singleton_append]
    congr 1
    apply List.map_congr_left
    intro s hss
    rw [hsub s hss]
  constructor
  · rw [hpc]
    unfold structureLines
    rw [List.nodup_flatMap]
    constructor
    · rintro ⟨p, d⟩ hpd
      have hd : (d.map Prod.fst).Nodup := by
        rcases List.mem_cons.1 hpd with h | h
        · cases h
          rw [hmk]
          exact hmnd
        · obtain ⟨s, hss, h⟩ := List.mem_map.1 h
          cases h
          exact hsubnd s hss
      have : d.Nodup := List.Nodup.of_map _ hd
      refine this.map ?_
      rintro ⟨a, b⟩ ⟨a', b'⟩ h
      simpa using h
    · have hk : (("master", master.infos.values.map fun i => (i.name, i.columnId)) :: subproblems.map fun s =>
          (s.name, (s.state.infos.values.filter fun i => master.infos.keys.contains i.name).map
            fun i => (i.name, i.columnId))).map Prod.fst = "master" :: subproblems.map (·.name) := by
        rw [List.map_cons, List.map_map]
        rfl
      rw [← hk, List.Nodup, List.pairwise_map] at hn
      refine hn.imp ?_
      rintro ⟨p, d⟩ ⟨p', d'⟩ hne l h1 h2
      obtain ⟨_, _, rfl⟩ := List.mem_map.1 h1
      obtain ⟨_, _, h⟩ := List.mem_map.1 h2
      exact hne (by simpa using (congrArg Prod.fst h).symm)
  · intro p c i
    rw [hpc]
    unfold structureLines
    simp only [List.flatMap_cons, List.mem_append, List.mem_flatMap, List.mem_map, Prod.mk.injEq]
    refine or_congr ?_ ?_
    · rw [← registered_mem hm c i]
      constructor
      · rintro ⟨_, ⟨info, hi, rfl⟩, rfl, rfl, rfl⟩
        exact ⟨rfl, info, hi, rfl, rfl⟩
      · rintro ⟨rfl, info, hi, rfl, rfl⟩
        exact ⟨_, ⟨info, hi, rfl⟩, rfl, rfl, rfl⟩
    · constructor
      · rintro ⟨_, ⟨s, hss, rfl⟩, ci, hi, rfl, rfl, rfl⟩
        obtain ⟨info, hf, rfl⟩ := List.mem_map.1 hi
        obtain ⟨hi, hc⟩ := List.mem_filter.1 hf
        refine ⟨s, hss, rfl, (registered_mem (hs s hss) _ _).1 ⟨info, hi, rfl, rfl⟩, ?_⟩
        have := (hcand info.name).1 (by simpa using hc)
        simpa using this
      · rintro ⟨s, hss, rfl, hv, v, hvm, hvn⟩
        obtain ⟨info, hi, rfl, rfl⟩ := (registered_mem (hs s hss) _ _).2 hv
        refine ⟨_, ⟨s, hss, rfl⟩, (info.name, info.columnId), List.mem_map.2 ⟨info, List.mem_filter.2 ⟨hi, ?_⟩, rfl⟩, rfl, rfl, rfl⟩
        have := (hcand info.name).2 (List.mem_map.2 ⟨v, hvm, hvn⟩)
        simpa using this

/-! ## The file -/

theorem cut_word {sep : Char} {a : List Char} (h : sep ∉ a) : cut sep a = [a] := by
  induction a with
  | nil => rfl
  | cons c l ih =>
    simp only [List.mem_cons, not_or] at h
    rw [cut, if_neg (Ne.symm h.1), ih h.2]

theorem cut_sep {sep : Char} {a : List Char} (h : sep ∉ a) (l : List Char) : cut sep (a ++ sep :: l) = a :: cut sep l := by
  induction a with
  | nil => simp [cut]
  | cons c a ih =>
    simp only [List.mem_cons, not_or] at h
    rw [List.cons_append, cut, if_neg (Ne.symm h.1), ih h.2]

theorem words_blank (n : Nat) (l : List Char) : words (List.replicate n ' ' ++ l) = words l := by
  induction n with
  | zero => simp
  | succ n ih =>
    rw [List.replicate_succ, List.cons_append]
    unfold words at ih ⊢
    rw [cut, if_pos rfl, List.filter_cons]
    simpa using ih

theorem words_word {a : List Char} (h : ' ' ∉ a) (hne : a ≠ []) : words a = [a] := by
  unfold words
  rw [cut_word h]
  simp [hne]

theorem words_sep {a : List Char} (h : ' ' ∉ a) (hne : a ≠ []) (l : List Char) : words (a ++ ' ' :: l) = a :: words l := by
  unfold words
  rw [cut_sep h]
  simp [hne]

theorem words_pad {a : List Char} (h : ' ' ∉ a) (hne : a ≠ []) (n : Nat) (l : List Char) (hn : 0 < n) :
    words (a ++ (List.replicate n ' ' ++ l)) = a :: words l := by
  obtain ⟨k, rfl⟩ : ∃ k, n = k + 1 := ⟨n - 1, by omega⟩
  rw [List.replicate_succ, List.cons_append, words_sep h hne, words_blank]

theorem toString_digits (i : Nat) : (toString i).toList = Nat.toDigits 10 i := by
  show (Nat.repr i).toList = _
  simp [Nat.repr]

theorem digit_not {i : Nat} {c : Char} (hc : c.isDigit = false) : c ∉ (toString i).toList := by
  rw [toString_digits]
  intro h
  have := Nat.isDigit_of_mem_toDigits (by norm_num) (by norm_num) h
  rw [hc] at this
  cases this

theorem toString_ne (i : Nat) : (toString i).toList ≠ [] := by
  rw [toString_digits]
  exact Nat.toDigits_ne_nil

/-- **C40**, the file: with at least one subproblem the file is written, and reading it word by word gives back its lines:
the name of the problem, the name of the column and its number.  The names must be words, the names of columns shorter
than 50 characters and the numbers shorter than 10. -/
theorem c40_file_partial (master : OptState) (subproblems : List Problem) (hne : subproblems ≠ [])
    (hw : ∀ l ∈ structureLines (problemToCandidates master subproblems), IsWord l.1 ∧ IsWord l.2.1 ∧ l.2.1.length < 50 ∧
      (toString l.2.2).length < 10) :
    ∃ file, exportStructure master subproblems = .ok file ∧
      readLines file = (structureLines (problemToCandidates master subproblems)).map fun l =>
        [l.1.toList, l.2.1.toList, (toString l.2.2).toList] := by
  refine ⟨_, by unfold exportStructure; rw [if_neg (by simpa using hne)], ?_⟩
  generalize structureLines (problemToCandidates master subproblems) = lines at hw
  have hline : ∀ l ∈ lines, ∃ body, (structureLine l.1 l.2.1 l.2.2).toList = body ++ ['\n'] ∧ '\n' ∉ body ∧
      words body = [l.1.toList, l.2.1.toList, (toString l.2.2).toList] := by
    intro l hl
    obtain ⟨⟨p1, p2, p3⟩, ⟨c1, c2, c3⟩, hlen, hdig⟩ := hw l hl
    refine ⟨List.replicate (50 - l.1.length) ' ' ++ (l.1.toList ++ (List.replicate (50 - l.2.1.length) ' ' ++ (l.2.1.toList ++
      (List.replicate (10 - (toString l.2.2).length) ' ' ++ (toString l.2.2).toList)))), ?_, ?_, ?_⟩
    · unfold structureLine padLeft
      simp only [String.toList_append, String.toList_ofList, List.append_assoc]
      rfl
    · simp only [List.mem_append, List.mem_replicate, not_or]
      refine ⟨fun h => absurd h.2 (by decide), p3, fun h => absurd h.2 (by decide), c3, fun h => absurd h.2 (by decide), ?_⟩
      exact digit_not (by decide)
    · rw [words_blank, words_pad p2 p1 _ _ (by omega), words_pad c2 c1 _ _ (by omega), words_word (digit_not (by decide)) (toString_ne _)]
  clear hw
  have hcut : cut '\n' (String.join (lines.map fun l => structureLine l.1 l.2.1 l.2.2)).toList =
      (lines.map fun l => (structureLine l.1 l.2.1 l.2.2).toList.dropLast) ++ [[]] := by
    rw [String.toList_join]
    induction lines with
    | nil => rfl
    | cons l lines ih =>
      obtain ⟨body, hb, hnot, _⟩ := hline l (by simp)
      simp only [List.map_cons, List.flatMap_cons]
      rw [hb, List.append_assoc, List.singleton_append, cut_sep hnot]
      rw [ih (fun l hl => hline l (by simp [hl]))]
      simp
  unfold readLines
  rw [hcut, List.dropLast_concat, List.map_map]
  apply List.map_congr_left
  intro l hl
  obtain ⟨body, hb, _, hwords⟩ := hline l hl
  simp only [Function.comp, hb, List.dropLast_concat, hwords]

/-- **C40**: without subproblem there is no file. -/
theorem c40_no_subproblem (master : OptState) : exportStructure master [] =
    .error (.runtimeError "Subproblem list must have at least one sub problem") := rfl

/-! ## Concrete cases -/

/-- a subproblem with two columns, `x` and the column 1 `a` -/
def subXA (name : String) : Problem :=
  ⟨name, ⟨⟨[⟨"x", .fin 0, .fin 10, false⟩, ⟨"a", .fin 0, .fin 10, false⟩], [], [], .fin 0⟩, [],
    [("x", ⟨"x", 0, false⟩), ("a", ⟨"a", 1, false⟩)]⟩⟩

theorem subXA_registered (name : String) : Registered (subXA name).state := by
  refine ⟨rfl, ?_, fun n hn => hn⟩
  intro i v hv
  match i with
  | 0 => cases hv; exact ⟨false, rfl⟩
  | 1 => cases hv; exact ⟨false, rfl⟩
  | i + 2 => cases hv

/-- hypotheses of `c40_lines_partial` and `c40_file_partial` met by a master with columns `a`, `b` and two subproblems with columns `x`, `a`;
the lines are those expected -/
example : Registered (couplerAB .ninf .pinf).state ∧ (∀ s ∈ [subXA "s1", subXA "s2"], Registered s.state) ∧
    ("master" :: [subXA "s1", subXA "s2"].map (·.name)).Nodup ∧
    structureLines (problemToCandidates (couplerAB .ninf .pinf).state [subXA "s1", subXA "s2"]) =
      [("master", "a", 0), ("master", "b", 1), ("s1", "a", 1), ("s2", "a", 1)] ∧
    ∀ l ∈ structureLines (problemToCandidates (couplerAB .ninf .pinf).state [subXA "s1", subXA "s2"]),
      IsWord l.1 ∧ IsWord l.2.1 ∧ l.2.1.length < 50 ∧ (toString l.2.2).length < 10 := by
  have hlines : structureLines (problemToCandidates (couplerAB .ninf .pinf).state [subXA "s1", subXA "s2"]) =
      [("master", "a", 0), ("master", "b", 1), ("s1", "a", 1), ("s2", "a", 1)] := rfl
  refine ⟨(couplerAB_ok _ _).2, ?_, by decide, hlines, ?_⟩
  · intro s hs
    simp only [List.mem_cons, List.not_mem_nil, or_false] at hs
    rcases hs with rfl | rfl <;> exact subXA_registered _
  · rw [hlines]
    unfold IsWord
    decide

/-- C40 needs different names: of two subproblems of the same name, the first one has no line. -/
theorem c40_same_name : ∃ s s' : Problem, Registered s.state ∧ Registered s'.state ∧ s.name = s'.name ∧
    s.state.solver.vars[0]?.map (·.name) = some "a" ∧
    ("s", "a", 0) ∉ structureLines (problemToCandidates (couplerAB .ninf .pinf).state [s, s']) := by
  refine ⟨⟨"s", (couplerAB .ninf .pinf).state⟩, subXA "s", (couplerAB_ok _ _).2, subXA_registered _, rfl, rfl, ?_⟩
  decide

/-- a tree: the root, a node `a` with two blocks and a node `a_b1` with one block, without any component -/
def collidingTree : DTree :=
  .node "r" ⟨[⟨1, [0]⟩], 1⟩ { id := "n" } 1
    [.node "a" ⟨[⟨1, [0]⟩, ⟨2, [1]⟩], 1⟩ { id := "n" } (.fin (1 / 2)) [],
     .node "a_b1" ⟨[⟨1, [0]⟩], 1⟩ { id := "n" } (.fin (1 / 2)) []]

/-- The names given by the decomposition can be the same although the names of the tree nodes and of the blocks differ: the
block 1 of the node `a` and the only block of the node `a_b1` give two subproblems named `subproblem_a_b1`. -/
theorem c40_names_collide : ∃ b, buildBenders (fun l => l) {} { id := "_Coupler" } {} collidingTree = .ok b ∧
    b.subproblems.map (·.name) = ["subproblem_r", "subproblem_a_b1", "subproblem_a_b2", "subproblem_a_b1"] := by
  refine ⟨⟨⟨"master", {}⟩, [⟨"subproblem_r", {}⟩, ⟨"subproblem_a_b1", {}⟩, ⟨"subproblem_a_b2", {}⟩, ⟨"subproblem_a_b1", {}⟩]⟩, ?_, rfl⟩
  with_unfolding_all rfl

/-- C40 needs short names: when the name of a column has 50 characters its line is read as two words. -/
theorem c40_long_name : ∃ (master : OptState) (s : Problem) (file : String), Registered master ∧ Registered s.state ∧
    exportStructure master [s] = .ok file ∧ (readLines file).map List.length = [2, 2] := by
  refine ⟨⟨⟨[⟨"aaaaaaaaaaaaaaaaaaaaaaaaaaaaaaaaaaaaaaaaaaaaaaaaaa", .fin 0, .fin 10, false⟩], [], [], .fin 0⟩, [],
    [("aaaaaaaaaaaaaaaaaaaaaaaaaaaaaaaaaaaaaaaaaaaaaaaaaa", ⟨"aaaaaaaaaaaaaaaaaaaaaaaaaaaaaaaaaaaaaaaaaaaaaaaaaa", 0, false⟩)]⟩,
    ⟨"s", ⟨⟨[⟨"aaaaaaaaaaaaaaaaaaaaaaaaaaaaaaaaaaaaaaaaaaaaaaaaaa", .fin 0, .fin 10, false⟩], [], [], .fin 0⟩, [],
    [("aaaaaaaaaaaaaaaaaaaaaaaaaaaaaaaaaaaaaaaaaaaaaaaaaa", ⟨"aaaaaaaaaaaaaaaaaaaaaaaaaaaaaaaaaaaaaaaaaaaaaaaaaa", 0, false⟩)]⟩⟩,
    _, ?_, ?_, rfl, ?_⟩
  · refine ⟨rfl, ?_, fun n hn => hn⟩
    intro i v hv
    match i with
    | 0 => cases hv; exact ⟨false, rfl⟩
    | i + 1 => cases hv
  · refine ⟨rfl, ?_, fun n hn => hn⟩
    intro i v hv
    match i with
    | 0 => cases hv; exact ⟨false, rfl⟩
    | i + 1 => cases hv
  · decide +kernel

end Verif.Props
