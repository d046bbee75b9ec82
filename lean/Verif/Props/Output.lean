import Verif.Spec.Output
import Verif.Lemmas.Shape
import Verif.Props.ProblemExamples

/-!
# C41: output values
-/

namespace Verif.Props
open Verif OptCtx

theorem appendAll_ok_map {α β} (f : α → R β) (g : α → β) (xs : List α) (h : ∀ x ∈ xs, f x = .ok (g x)) :
    appendAll f xs = .ok (xs.map g) := by
  rw [appendAll_ok_iff, List.forall₂_map_right_iff, List.forall₂_same]
  exact h

/-- reading a variable that has all the values of its size -/
theorem read_shaped (w : OutVar) (S T : Nat) (f : Nat → Nat → Num) (hsize : w.size = (S, T))
    (h : ∀ t < T, ∀ s < S, Dict.get? w.value ((t : Int), (s : Int)) = some (f t s)) : w.read = .ok (shaped S T f) := by
  unfold OutVar.read shaped
  rw [hsize]
  simp only
  split_ifs with h1 h2
  · subst h1 h2
    have := h 0 (by omega) 0 (by omega)
    rw [(get_ok_iff' _ _ _).2 (by simpa using this), ok_bind]
  · subst h1
    rw [appendAll_ok_map _ (fun s => f 0 s), ok_bind, List.map_map]
    · rfl
    · intro s hs
      exact (get_ok_iff' _ _ _).2 (by simpa using h 0 (by omega) s (List.mem_range.1 hs))
  · rw [appendAll_ok_map _ (fun s => (List.range T).map fun t => f t s), ok_bind, List.map_map]
    · rfl
    · intro s hs
      refine appendAll_ok_map _ _ _ fun t ht => ?_
      exact (get_ok_iff' _ _ _).2 (h t (List.mem_range.1 ht) s (List.mem_range.1 hs))

theorem get?_assignRow (s : Nat) (l : List Num) : ∀ (t0 : Nat) (d : Dict (Int × Int) Num) (t s' : Nat),
    Dict.get? (OutVar.assignRow s t0 l d) ((t : Int), (s' : Int)) =
      (if s' = s ∧ t0 ≤ t then l[t - t0]? else none).or (Dict.get? d ((t : Int), (s' : Int))) := by
  induction l with
  | nil => intro t0 d t s'; simp [OutVar.assignRow]
  | cons x xs ih =>
    intro t0 d t s'
    rw [OutVar.assignRow, ih, Dict.get?_set]
    by_cases hs : s' = s
    · subst hs
      by_cases ht : t = t0
      · subst ht
        simp
      · have hne : ¬ (((t0 : Int), (s' : Int)) = ((t : Int), (s' : Int))) := by
          simp only [Prod.mk.injEq, and_true]; omega
        rw [if_neg hne]
        by_cases hle : t0 ≤ t
        · have e1 : t0 + 1 ≤ t := by omega
          have e2 : t - t0 = (t - (t0 + 1)) + 1 := by omega
          simp only [e1, hle, and_self, if_true, e2, List.getElem?_cons_succ]
        · have e1 : ¬ t0 + 1 ≤ t := by omega
          simp only [e1, hle, and_false, if_false]
    · have hne : ¬ (((t0 : Int), (s : Int)) = ((t : Int), (s' : Int))) := by
        simp only [Prod.mk.injEq]; omega
      rw [if_neg hne]
      simp [hs]

theorem assignItems_rows (rows : List (List Num)) : ∀ (s0 : Nat) (d : Dict (Int × Int) Num) (n : Nat),
    (∀ t s : Nat, Dict.get? (OutVar.assignItems s0 (rows.map .row) d n).1 ((t : Int), (s : Int)) =
      (if s0 ≤ s then (rows[s - s0]?).bind (·[t]?) else none).or (Dict.get? d ((t : Int), (s : Int)))) ∧
    (OutVar.assignItems s0 (rows.map .row) d n).2 = (rows.getLast?.map List.length).getD n := by
  induction rows with
  | nil => intro s0 d n; simp [OutVar.assignItems]
  | cons r rest ih =>
    intro s0 d n
    simp only [List.map_cons, OutVar.assignItems]
    obtain ⟨h1, h2⟩ := ih (s0 + 1) (OutVar.assignRow s0 0 r d) r.length
    constructor
    · intro t s
      rw [h1, get?_assignRow]
      by_cases hs : s = s0
      · subst hs
        simp
      · by_cases hle : s0 ≤ s
        · have e1 : s0 + 1 ≤ s := by omega
          have e2 : s - s0 = (s - (s0 + 1)) + 1 := by omega
          simp only [e1, hle, if_true, e2, List.getElem?_cons_succ, hs, false_and, if_false, Option.none_or]
        · have e1 : ¬ s0 + 1 ≤ s := by omega
          simp only [e1, hle, hs, false_and, if_false, Option.none_or]
    · rw [h2]
      cases rest with
      | nil => rfl
      | cons => rw [List.getLast?_cons_cons]; rfl

theorem assignItems_nums (xs : List Num) : ∀ (s0 : Nat) (d : Dict (Int × Int) Num) (n : Nat),
    (∀ s : Nat, Dict.get? (OutVar.assignItems s0 (xs.map .num) d n).1 (0, (s : Int)) =
      (if s0 ≤ s then xs[s - s0]? else none).or (Dict.get? d (0, (s : Int)))) ∧
    (OutVar.assignItems s0 (xs.map .num) d n).2 = n := by
  induction xs with
  | nil => intro s0 d n; simp [OutVar.assignItems]
  | cons x rest ih =>
    intro s0 d n
    simp only [List.map_cons, OutVar.assignItems]
    obtain ⟨h1, h2⟩ := ih (s0 + 1) (d.set (0, (s0 : Int)) x) n
    refine ⟨fun s => ?_, h2⟩
    rw [h1, Dict.get?_set]
    by_cases hs : s = s0
    · subst hs
      simp
    · have hne : ¬ (((0 : Int), (s0 : Int)) = ((0 : Int), (s : Int))) := by
        simp only [Prod.mk.injEq]; omega
      rw [if_neg hne]
      by_cases hle : s0 ≤ s
      · have e1 : s0 + 1 ≤ s := by omega
        have e2 : s - s0 = (s - (s0 + 1)) + 1 := by omega
        simp only [e1, hle, if_true, e2, List.getElem?_cons_succ]
      · have e1 : ¬ s0 + 1 ≤ s := by omega
        simp only [e1, hle, if_false]

theorem read_rows (w : OutVar) (rows : List (List Num)) (T : Nat) (h0 : rows ≠ []) (h : ∀ r ∈ rows, r.length = T) :
    (w.assign (.list (rows.map .row))).read = .ok (shaped rows.length T fun t s => ((rows[s]?).bind (·[t]?)).getD 0) := by
  obtain ⟨h1, h2⟩ := assignItems_rows rows 0 w.value 1
  refine read_shaped _ _ _ _ ?_ ?_
  · simp only [OutVar.assign, List.length_map, h2]
    obtain ⟨r, hr⟩ : ∃ r, rows.getLast? = some r := by
      rw [← Option.isSome_iff_exists]; simpa using h0
    rw [hr, Option.map_some, Option.getD_some, h r (List.mem_of_getLast? hr)]
  · intro t ht s hs
    show Dict.get? (OutVar.assignItems 0 (rows.map .row) w.value 1).1 _ = _
    rw [h1 t s]
    have hr : (rows[s]).length = T := h _ (List.getElem_mem hs)
    simp [hs, hr, ht]

theorem read_nums (w : OutVar) (xs : List Num) :
    (w.assign (.list (xs.map .num))).read = .ok (shaped xs.length 1 fun _ s => (xs[s]?).getD 0) := by
  obtain ⟨h1, h2⟩ := assignItems_nums xs 0 w.value 1
  refine read_shaped _ _ _ _ ?_ ?_
  · simp only [OutVar.assign, List.length_map, h2]
  · intro t ht s hs
    obtain rfl : t = 0 := by omega
    show Dict.get? (OutVar.assignItems 0 (xs.map .num) w.value 1).1 (0, _) = _
    rw [h1 s]
    simp [hs]

/-- **C41 (partial), round trip**: whatever the variable contained, after setting its value to a number, to a list of
numbers (not exactly one) or to a list of lists of the same length (not one), reading it back gives the same value.
A list of one number reads as the number, a list of lists of one number as the list of these numbers, and a list of one
list of one number as this number.

Not covered: lists of lists of different lengths (`c41_ragged_lost`, `c41_ragged_raises`). -/
theorem c41_round_trip_partial (w : OutVar) :
    (∀ x, (w.assign (.num x)).read = .ok (.num x)) ∧
    (∀ xs : List Num, xs.length ≠ 1 → (w.assign (.list (xs.map .num))).read = .ok (.list (xs.map .num))) ∧
    (∀ (rows : List (List Num)) (T : Nat), T ≠ 1 → (∀ r ∈ rows, r.length = T) →
      (w.assign (.list (rows.map .row))).read = .ok (.list (rows.map .row))) ∧
    (∀ x, (w.assign (.list [.num x])).read = .ok (.num x)) ∧
    (∀ x, (w.assign (.list [.row [x]])).read = .ok (.num x)) ∧
    (∀ xs : List Num, xs.length ≠ 1 → (w.assign (.list (xs.map fun x => .row [x]))).read = .ok (.list (xs.map .num))) := by
  refine ⟨fun x => ?_, fun xs h => ?_, fun rows T hT h => ?_, fun x => ?_, fun x => ?_, fun xs h => ?_⟩
  · exact read_shaped (w.assign (.num x)) 1 1 (fun _ _ => x) rfl fun t ht s hs => by
      obtain rfl : t = 0 := by omega
      obtain rfl : s = 0 := by omega
      exact Dict.get?_set_self _ _ _
  · rw [read_nums, shaped, if_pos rfl, if_neg h]
    congr 2
    refine List.ext_getElem (by simp) fun i h1 h2 => ?_
    simp only [List.length_map] at h2
    simp [h2]
  · rcases eq_or_ne rows [] with rfl | h0
    · rfl
    · rw [read_rows w rows T h0 h, shaped, if_neg hT]
      congr 2
      refine List.ext_getElem (by simp) fun i h1 h2 => ?_
      simp only [List.length_map] at h2
      simp only [List.getElem_map, List.getElem_range, OutItem.row.injEq]
      have hl := h _ (List.getElem_mem h2)
      refine List.ext_getElem (by simp [hl]) fun j h3 h4 => ?_
      simp [h2, h4]
  · exact read_nums w [x]
  · exact read_rows w [[x]] 1 (by simp) (by simp)
  · rcases eq_or_ne xs [] with rfl | h0
    · rfl
    · have := read_rows w (xs.map fun x => [x]) 1 (by simpa using h0) (by simp)
      rw [List.map_map] at this
      rw [show (xs.map fun x => OutItem.row [x]) = xs.map (OutItem.row ∘ fun x => [x]) from rfl, this, shaped, if_pos rfl,
        List.length_map, if_neg h]
      congr 2
      refine List.ext_getElem (by simp) fun i h1 h2 => ?_
      simp only [List.length_map] at h2
      simp [h2]

/-- C41 fails for lists of different lengths: values are lost, -/
theorem c41_ragged_lost : ∃ w : OutVar, (w.assign (.list [.row [1, 2], .row [3]])).read = .ok (.list [.num 1, .num 3]) :=
  ⟨⟨"x", [], (0, 0), false⟩, rfl⟩

/-- or reading raises `KeyError`. -/
theorem c41_ragged_raises : ∃ w : OutVar, ∃ m, (w.assign (.list [.row [1], .row [2, 3]])).read = .error (.keyError m) :=
  ⟨⟨"x", [], (0, 0), false⟩, _, rfl⟩

/-- Setting a value does not forget the previous one: two variables with the same name and the same value read, set last,
compare different. -/
theorem c41_stale_values : ∃ w : OutVar,
    ((w.assign (.list [.num 1, .num 2])).assign (.num 5)).read = (w.assign (.num 5)).read ∧
    ((w.assign (.list [.num 1, .num 2])).assign (.num 5)).eqb (w.assign (.num 5)) = false :=
  ⟨⟨"x", [], (0, 0), false⟩, rfl, by decide +kernel⟩

/-! ## reading -/

theorem lookup_modifyVar (o : Output) (c v : String) (f : OutVar → OutVar) (c' v' : String) :
    (o.modifyVar c v f).lookup c' v' =
      if c' = c ∧ v' = v then some (f ((o.lookup c v).getD ⟨v, [], (0, 0), false⟩)) else o.lookup c' v' := by
  unfold Output.modifyVar Output.lookup Output.component
  cases hc : Dict.get? o.components c with
  | none =>
    simp only [OutComp.var, Dict.get?_nil, Option.bind_none, Option.getD_none, Dict.get?_set]
    by_cases h1 : c = c'
    · subst h1
      simp only [if_true, Option.bind_some, true_and, Dict.get?_set]
      by_cases h2 : v = v'
      · subst h2; simp
      · simp [h2, Ne.symm h2, hc]
    · simp [h1, Ne.symm h1]
  | some k =>
    simp only [OutComp.var, Option.bind_some]
    cases hv : Dict.get? k.variables_ v with
    | none =>
      simp only [Dict.get?_set, Option.getD_none]
      by_cases h1 : c = c'
      · subst h1
        simp only [if_true, Option.bind_some, true_and, Dict.get?_set, hc]
        by_cases h2 : v = v'
        · subst h2; simp
        · simp [h2, Ne.symm h2]
      · simp [h1, Ne.symm h1]
    | some w =>
      simp only [Dict.get?_set, Option.getD_some]
      by_cases h1 : c = c'
      · subst h1
        simp only [if_true, Option.bind_some, true_and, Dict.get?_set, hc]
        by_cases h2 : v = v'
        · subst h2; simp
        · simp [h2, Ne.symm h2]
      · simp [h1, Ne.symm h1]

theorem dict_set_same {κ α} [DecidableEq κ] {d : Dict κ α} {k : κ} {v : α} (h : d.get? k = some v) : d.set k v = d := by
  induction d with
  | nil => cases h
  | cons x xs ih =>
    obtain ⟨k', v'⟩ := x
    simp only [Dict.get?_cons] at h
    unfold Dict.set
    split_ifs at h with hk
    · cases h
      simp [hk]
    · simp [hk, ih h]

/-- **C41, reading**: reading the value of a variable that the output has returns the value of this variable and leaves the
output unchanged; reading any other gives an empty list. -/
theorem c41_read (o : Output) (c v : String) :
    (∀ w, o.lookup c v = some w → o.readVar c v = (o, w.read)) ∧
    (o.lookup c v = none → (o.readVar c v).2 = .ok (.list [])) := by
  unfold Output.readVar Output.lookup Output.component
  cases hc : Dict.get? o.components c with
  | none => exact ⟨fun w h => (by cases h), fun _ => rfl⟩
  | some k =>
    simp only [Option.bind_some, OutComp.var]
    cases hv : Dict.get? k.variables_ v with
    | none => exact ⟨fun w h => (by cases h), fun _ => rfl⟩
    | some w =>
      refine ⟨fun w' h => ?_, fun h => (by cases h)⟩
      cases h
      simp only [dict_set_same hc]

/-- C41 fails for unknown names: reading a component or a variable that does not exist adds it to the output, which is then
different from what it was. -/
theorem c41_reading_changes : ∃ (o : Output) (c v : String), (o.readVar c v).1.eqb o = .ok false :=
  ⟨{}, "c", "x", rfl⟩

/-! ## the output of a problem -/

theorem lookup_foldl (sol : Nat → Num) (c v : String) : ∀ (l : List (TermKey × Nat)) (o : Output),
    (l.foldl (fun o p => o.modifyVar p.1.component p.1.var fun w => w.setAt p.1.time p.1.scenario (sol p.2)) o).lookup c v =
      (l.filter fun p => decide (p.1.component = c ∧ p.1.var = v)).foldl
        (fun (w : Option OutVar) p => some ((w.getD ⟨v, [], (0, 0), false⟩).setAt p.1.time p.1.scenario (sol p.2))) (o.lookup c v) := by
  intro l
  induction l with
  | nil => intro o; rfl
  | cons p l ih =>
    intro o
    rw [List.foldl_cons, ih, lookup_modifyVar, List.filter_cons]
    by_cases h : p.1.component = c ∧ p.1.var = v
    · obtain ⟨rfl, rfl⟩ := h
      simp
    · have h' : ¬ (c = p.1.component ∧ v = p.1.var) := fun ⟨a, b⟩ => h ⟨a.symm, b.symm⟩
      rw [if_neg h', if_neg (by simpa using h)]

/-- position of a key in the values of a variable -/
def pos (k : TermKey) : Int × Int := (k.time.getD 0, k.scenario.getD 0)

/-- setting values at distinct positions, within `S` scenarios and `T` timesteps -/
theorem setAt_all (v : String) (sol : Nat → Num) (S T : Nat) : ∀ (l : List (TermKey × Nat)),
    (l.map fun p => pos p.1).Nodup → (∀ p ∈ l, 0 ≤ (pos p.1).1 ∧ (pos p.1).1 < T ∧ 0 ≤ (pos p.1).2 ∧ (pos p.1).2 < S) →
    l ≠ [] → ∃ w : OutVar, l.foldl (fun (w : Option OutVar) p => some ((w.getD ⟨v, [], (0, 0), false⟩).setAt p.1.time p.1.scenario (sol p.2))) none = some w ∧
      w.name = v ∧ w.ignore = false ∧ (∀ q x, Dict.get? w.value q = some x ↔ ∃ p ∈ l, pos p.1 = q ∧ x = sol p.2) ∧
      w.size.1 ≤ S ∧ w.size.2 ≤ T ∧ ∀ p ∈ l, (pos p.1).2 < w.size.1 ∧ (pos p.1).1 < w.size.2 := by
  intro l
  induction l using List.reverseRecOn with
  | nil => intro _ _ h; exact absurd rfl h
  | append_singleton l p ih =>
    intro hn hb _
    rw [List.map_append, List.nodup_append] at hn
    have hbp := hb p (by simp)
    rw [List.foldl_append, List.foldl_cons, List.foldl_nil]
    -- the variable before the last value
    have key : ∀ w0 : OutVar, w0.name = v → w0.ignore = false →
        (∀ q x, Dict.get? w0.value q = some x ↔ ∃ p ∈ l, pos p.1 = q ∧ x = sol p.2) → w0.size.1 ≤ S → w0.size.2 ≤ T →
        (∀ p ∈ l, (pos p.1).2 < w0.size.1 ∧ (pos p.1).1 < w0.size.2) →
        ∃ w, some (w0.setAt p.1.time p.1.scenario (sol p.2)) = some w ∧
        w.name = v ∧ w.ignore = false ∧ (∀ q x, Dict.get? w.value q = some x ↔ ∃ p' ∈ l ++ [p], pos p'.1 = q ∧ x = sol p'.2) ∧
        w.size.1 ≤ S ∧ w.size.2 ≤ T ∧ ∀ p' ∈ l ++ [p], (pos p'.1).2 < w.size.1 ∧ (pos p'.1).1 < w.size.2 := by
      intro w0 h1 h2 h3 h4 h5 h6
      have hnew : Dict.contains w0.value (pos p.1) = false := by
        rw [Dict.contains_false_iff]
        cases hg : Dict.get? w0.value (pos p.1) with
        | none => rfl
        | some x =>
          obtain ⟨p', hp', he, _⟩ := (h3 _ _).1 hg
          exact absurd he (hn.2.2 _ (List.mem_map.2 ⟨p', hp', rfl⟩) _ (by simp))
      refine ⟨_, rfl, h1, h2, ?_, ?_, ?_, ?_⟩
      · intro q x
        show Dict.get? (Dict.set w0.value (pos p.1) (sol p.2)) q = some x ↔ _
        rw [Dict.get?_set]
        by_cases hq : pos p.1 = q
        · rw [if_pos hq]
          constructor
          · intro h; cases h; exact ⟨p, by simp, hq, rfl⟩
          · rintro ⟨p', hp', he, rfl⟩
            rcases List.mem_append.1 hp' with hp' | hp'
            · exact absurd (he.trans hq.symm) (hn.2.2 _ (List.mem_map.2 ⟨p', hp', rfl⟩) _ (by simp))
            · simp only [List.mem_singleton] at hp'
              rw [hp']
        · rw [if_neg hq, h3]
          constructor
          · rintro ⟨p', hp', he⟩; exact ⟨p', List.mem_append.2 (.inl hp'), he⟩
          · rintro ⟨p', hp', he, hx⟩
            rcases List.mem_append.1 hp' with hp' | hp'
            · exact ⟨p', hp', he, hx⟩
            · simp only [List.mem_singleton] at hp'
              rw [hp'] at he
              exact absurd he hq
      · show (if Dict.contains w0.value (pos p.1) then w0.size else (max w0.size.1 ((pos p.1).2 + 1).toNat, max w0.size.2 ((pos p.1).1 + 1).toNat)).1 ≤ S
        rw [hnew]
        simp only [Bool.false_eq_true, if_false]
        omega
      · show (if Dict.contains w0.value (pos p.1) then w0.size else (max w0.size.1 ((pos p.1).2 + 1).toNat, max w0.size.2 ((pos p.1).1 + 1).toNat)).2 ≤ T
        rw [hnew]
        simp only [Bool.false_eq_true, if_false]
        omega
      · intro p' hp'
        show (pos p'.1).2 < (if Dict.contains w0.value (pos p.1) then w0.size else (max w0.size.1 ((pos p.1).2 + 1).toNat, max w0.size.2 ((pos p.1).1 + 1).toNat)).1 ∧
          (pos p'.1).1 < (if Dict.contains w0.value (pos p.1) then w0.size else (max w0.size.1 ((pos p.1).2 + 1).toNat, max w0.size.2 ((pos p.1).1 + 1).toNat)).2
        rw [hnew]
        simp only [Bool.false_eq_true, if_false]
        rcases List.mem_append.1 hp' with hp' | hp'
        · have := h6 p' hp'
          omega
        · simp only [List.mem_singleton] at hp'
          subst hp'
          omega
    rcases eq_or_ne l [] with rfl | h0
    · simp only [List.foldl_nil, Option.getD_none]
      exact key ⟨v, [], (0, 0), false⟩ rfl rfl (by simp) (by simp) (by simp) (by simp)
    · obtain ⟨w0, hw0, a, b, c, d, e, f⟩ := ih hn.1 (fun p hp => hb p (List.mem_append.2 (.inl hp))) h0
      rw [hw0, Option.getD_some]
      exact key w0 a b c d e f

/-- the columns of a problem are registered once -/
theorem build_columns_nodup {x : OptCtx} {st : OptState} (h : x.buildProblem = .ok st) : (Dict.keys st.columns).Nodup := by
  obtain ⟨ports, st1, st2, hreg, h1, h2, h3⟩ := build_phases h
  have hr2 := createConstraints_keep h2
  have hr3 : st.columns = st2.columns := by
    refine loop_inv (fun s => s.columns = st2.columns) _ (fun s1 s2 c _ hp hs =>
      loop_inv (fun s => s.columns = st2.columns) _ (fun s1 s2 o _ hp hs => ?_) s1 s2 hp hs)
      st2 st rfl h3
    cases o with
    | none => cases hs; exact hp
    | some e =>
      simp only [OptCtx.createObjectiveOf, OptCtx.createObjective, bind_ok_iff] at hs
      obtain ⟨_, _, _, _, l, _, s3, hs3, hs⟩ := hs
      cases hs
      obtain ⟨a, b, -⟩ := objectiveTerms_inv l.terms.values s1 s3 hs3
      exact b.trans hp
  rw [hr3, hr2.2.1]
  refine loop_inv (fun s => (Dict.keys s.columns).Nodup) _ (fun s1 s2 c _ h1 h2 =>
    loop_inv (fun s => (Dict.keys s.columns).Nodup) _ (fun s1 s2 v _ h1 h2 => ?_) s1 s2 h1 h2) _ st1 (by simp [Dict.keys]) h1
  unfold OptCtx.createVariablesOf at h2
  simp only [bind_ok_iff] at h2
  obtain ⟨lb, _, ub, _, h2⟩ := h2
  refine loop_inv (fun s => (Dict.keys s.columns).Nodup) _ (fun s1 s2 ts _ h1 h2 => ?_) s1 s2 h1 h2
  unfold OptCtx.createVariable at h2
  simp only [bind_ok_iff] at h2
  obtain ⟨lo, _, up, _, h2⟩ := h2
  split_ifs at h2
  cases h2
  exact Dict.nodup_set h1 _ _

/-- **C41, the output of a problem**: for every selected variable of every component of a built problem, the output gives
the solution values of its instances, over the scenarios and the timesteps that the variable depends on; it has no other
variable.  (`val` is the solution, by instance.) -/
theorem c41_problem (x : OptCtx) (hn : x.NetworkOk) (st : OptState) (h : x.buildProblem = .ok st) (sol : Nat → Num)
    (val : TermKey → Num) (hval : ∀ k i, st.columns.get? k = some i → val k = sol i) (hT : 0 < x.T) (hS : 0 < x.scenarios) :
    (∀ c ∈ x.network.allComponents, ∀ v ∈ x.strategy.getVariables c.model,
      (Output.ofColumns st.columns sol).readVar c.id v.name = (Output.ofColumns st.columns sol,
        .ok (shaped (if v.structure_.scenario then x.scenarios else 1) (if v.structure_.time then x.T else 1)
          fun t s => val (instanceAt c v t s)))) ∧
    ∀ c v, (Output.ofColumns st.columns sol).lookup c v ≠ none →
      ∃ d ∈ x.network.allComponents, d.id = c ∧ ∃ w ∈ x.strategy.getVariables d.model, w.name = v := by
  obtain ⟨ports, hreg, hvars, hcols⟩ := build_columns hn h
  have hnd := build_columns_nodup h
  have hlook : ∀ c v, (Output.ofColumns st.columns sol).lookup c v =
      (st.columns.filter fun p => decide (p.1.component = c ∧ p.1.var = v)).foldl
        (fun (w : Option OutVar) p => some ((w.getD ⟨v, [], (0, 0), false⟩).setAt p.1.time p.1.scenario (sol p.2))) none :=
    fun c v => lookup_foldl sol c v st.columns {}
  have hmem : ∀ k i, (k, i) ∈ st.columns → ∃ n ∈ x.instances, n.key = k := by
    intro k i hi
    obtain ⟨n, hn', hk⟩ := (hcols k i).1 (Dict.get?_of_mem hnd hi)
    exact ⟨n, List.mem_of_getElem? hn', hk⟩
  have hmem' : ∀ n ∈ x.instances, ∃ i, (n.key, i) ∈ st.columns := by
    intro n hn'
    obtain ⟨i, hi⟩ := List.mem_iff_getElem?.1 hn'
    exact ⟨i, Dict.mem_of_get? ((hcols _ _).2 ⟨n, hi, rfl⟩)⟩
  constructor
  · intro c hc v hv
    -- an instance with these names is one of this variable
    have huniq : ∀ n ∈ x.instances, n.comp.id = c.id → n.var.name = v.name → n.comp = c ∧ n.var = v := by
      intro n hn' h1 h2
      obtain ⟨a, b, -, -⟩ := mem_instances.1 hn'
      have e1 : n.comp = c := List.inj_on_of_nodup_map hn.ids a hc h1
      refine ⟨e1, ?_⟩
      rw [e1] at b
      exact List.inj_on_of_nodup_map (getVariables_names hn hc) b hv h2
    set l := st.columns.filter fun p => decide (p.1.component = c.id ∧ p.1.var = v.name) with hl
    set S := if v.structure_.scenario then x.scenarios else 1 with hSdef
    set T := if v.structure_.time then x.T else 1 with hTdef
    -- the instances of this variable
    have hinst : ∀ p ∈ l, ∃ t s : Nat, t < T ∧ s < S ∧ p.1 = instanceAt c v t s ∧ pos p.1 = ((t : Int), (s : Int)) := by
      intro p hp
      rw [hl, List.mem_filter] at hp
      obtain ⟨hp, hcv⟩ := hp
      simp only [decide_eq_true_eq] at hcv
      obtain ⟨n, hn', hk⟩ := hmem p.1 p.2 hp
      obtain ⟨e1, e2⟩ := huniq n hn' (by rw [← hcv.1, ← hk]; rfl) (by rw [← hcv.2, ← hk]; rfl)
      obtain ⟨-, -, ht, hs⟩ := mem_instances.1 hn'
      rw [mem_indexList, e2] at ht hs
      have ⟨t, ht1, ht2⟩ : ∃ t : Nat, t < T ∧ n.t = atT v.structure_ t ∧ n.t.getD 0 = t := by
        rw [hTdef]
        cases hst : v.structure_.time
        · simp only [hst, Bool.false_eq_true, if_false] at ht ⊢
          exact ⟨0, by omega, by simp [atT, hst, ht], by simp [ht]⟩
        · simp only [hst, if_true] at ht ⊢
          obtain ⟨t, h1, h2⟩ := ht
          exact ⟨t, h1, by simp [atT, hst, h2], by simp [h2]⟩
      have ⟨s, hs1, hs2⟩ : ∃ s : Nat, s < S ∧ n.s = atS v.structure_ s ∧ n.s.getD 0 = s := by
        rw [hSdef]
        cases hst : v.structure_.scenario
        · simp only [hst, Bool.false_eq_true, if_false] at hs ⊢
          exact ⟨0, by omega, by simp [atS, hst, hs], by simp [hs]⟩
        · simp only [hst, if_true] at hs ⊢
          obtain ⟨s, h1, h2⟩ := hs
          exact ⟨s, h1, by simp [atS, hst, h2], by simp [h2]⟩
      refine ⟨t, s, ht1, hs1, ?_, ?_⟩
      · rw [← hk]
        show (⟨n.comp.id, n.var.name, n.t, n.s⟩ : TermKey) = _
        rw [e1, e2, ht2.1, hs2.1]
        rfl
      · rw [← hk]
        show (n.t.getD 0, n.s.getD 0) = _
        rw [ht2.2, hs2.2]
    have hall : ∀ t s : Nat, t < T → s < S → ∃ i, (instanceAt c v t s, i) ∈ l ∧ pos (instanceAt c v t s) = ((t : Int), (s : Int)) := by
      intro t s ht hs
      have : (⟨c, v, atT v.structure_ t, atS v.structure_ s⟩ : Inst) ∈ x.instances := by
        rw [mem_instances, mem_indexList, mem_indexList]
        refine ⟨hc, hv, ?_, ?_⟩
        · cases hst : v.structure_.time
          · simp [atT, hst]
          · simp only [hst, if_true, hTdef] at ht ⊢
            exact ⟨t, ht, by simp [atT, hst]⟩
        · cases hst : v.structure_.scenario
          · simp [atS, hst]
          · simp only [hst, if_true, hSdef] at hs ⊢
            exact ⟨s, hs, by simp [atS, hst]⟩
      obtain ⟨i, hi⟩ := hmem' _ this
      refine ⟨i, List.mem_filter.2 ⟨hi, by simp [Inst.key, instanceAt]⟩, ?_⟩
      unfold pos instanceAt
      simp only
      congr 1
      · cases hst : v.structure_.time
        · simp only [hst, Bool.false_eq_true, if_false, hTdef] at ht
          obtain rfl : t = 0 := by omega
          simp [atT, hst]
        · simp [atT, hst]
      · cases hst : v.structure_.scenario
        · simp only [hst, Bool.false_eq_true, if_false, hSdef] at hs
          obtain rfl : s = 0 := by omega
          simp [atS, hst]
        · simp [atS, hst]
    have hT0 : 0 < T := by rw [hTdef]; split_ifs <;> omega
    have hS0 : 0 < S := by rw [hSdef]; split_ifs <;> omega
    obtain ⟨i0, hi0, _⟩ := hall 0 0 hT0 hS0
    -- positions are distinct
    have hpos : (l.map fun p => pos p.1).Nodup := by
      have hk : (l.map Prod.fst).Nodup := (List.Sublist.map _ List.filter_sublist).nodup hnd
      refine List.Nodup.map_on ?_ (List.Nodup.of_map _ hk)
      intro p hp q hq he
      obtain ⟨t, s, _, _, h1, h2⟩ := hinst p hp
      obtain ⟨t', s', _, _, h1', h2'⟩ := hinst q hq
      rw [h2, h2'] at he
      simp only [Prod.mk.injEq, Nat.cast_inj] at he
      refine List.inj_on_of_nodup_map hk hp hq ?_
      rw [h1, h1', he.1, he.2]
    obtain ⟨w, hw, h1, h2, h3, h4, h5, h6⟩ := setAt_all v.name sol S T l hpos (fun p hp => by
      obtain ⟨t, s, ht, hs, _, h⟩ := hinst p hp
      rw [h]
      simp only
      omega) (List.ne_nil_of_mem hi0)
    rw [(c41_read _ c.id v.name).1 w (by rw [hlook]; exact hw)]
    congr 1
    refine read_shaped w S T _ ?_ fun t ht s hs => ?_
    · obtain ⟨i, hi, hp⟩ := hall (T - 1) (S - 1) (by omega) (by omega)
      have := h6 _ hi
      rw [hp] at this
      simp only at this
      ext <;> simp only <;> omega
    · obtain ⟨i, hi, hp⟩ := hall t s ht hs
      refine (h3 _ _).2 ⟨_, hi, hp, ?_⟩
      exact hval _ _ (Dict.get?_of_mem hnd (List.mem_filter.1 hi).1)
  · intro c v hne
    rw [hlook] at hne
    cases hl : st.columns.filter fun p => decide (p.1.component = c ∧ p.1.var = v) with
    | nil => rw [hl] at hne; exact absurd rfl hne
    | cons p rest =>
      have hp : p ∈ st.columns.filter fun p => decide (p.1.component = c ∧ p.1.var = v) := by rw [hl]; simp
      rw [List.mem_filter] at hp
      obtain ⟨hp, hcv⟩ := hp
      simp only [decide_eq_true_eq] at hcv
      obtain ⟨n, hn', hk⟩ := hmem p.1 p.2 hp
      obtain ⟨a, b, -, -⟩ := mem_instances.1 hn'
      exact ⟨n.comp, a, by rw [← hcv.1, ← hk]; rfl, n.var, b, by rw [← hcv.2, ← hk]; rfl⟩

/-- the study of `ProblemExamples` meets the hypotheses; its unit has a generation over two hours -/
example : study0.NetworkOk ∧ study0.buildProblem = .ok built0 ∧ 0 < study0.T ∧ 0 < study0.scenarios ∧
    ((Output.ofColumns built0.columns fun i => .fin i).readVar "G" "g").2 = .ok (.list [.row [0, 1]]) :=
  ⟨study0_networkOk, study0_builds, by decide, by decide, by decide +kernel⟩

end Verif.Props
