import Verif.Spec.BuilderText
import Verif.Props.Tables
import Verif.Props.System
import Mathlib.Tactic.IntervalCases

/-!
# C75: the text of a scenario builder
-/

namespace Verif.Props
open Verif

/-! ## Whole numbers -/

theorem isBlank_iff {c : Char} : isBlank c = true ↔ c = ' ' ∨ c = '\t' := by
  unfold isBlank
  simp

theorem digit_isDigit {d : Nat} (h : d < 10) : (Char.ofNat (48 + d)).isDigit = true ∧ (Char.ofNat (48 + d)).toNat - 48 = d ∧
    isBlank (Char.ofNat (48 + d)) = false ∧ Char.ofNat (48 + d) ≠ '-' ∧ Char.ofNat (48 + d) ≠ '+' ∧ Char.ofNat (48 + d) ≠ ',' ∧
    isEol (Char.ofNat (48 + d)) = false := by
  interval_cases d <;> decide

theorem digitsFrom_append (a b : List Char) : ∀ n, digitsFrom n (a ++ b) = (digitsFrom n a).bind fun m => digitsFrom m b := by
  induction a with
  | nil => intro n; rfl
  | cons c a ih =>
    intro n
    simp only [List.cons_append, digitsFrom]
    split_ifs
    · exact ih _
    · rfl

theorem decimal_word {w : List Char} {n : Nat} (h : IsDecimal w n) : digitsFrom 0 w = some n ∧ w ≠ [] ∧
    (∀ c ∈ w, isBlank c = false ∧ c ≠ '-' ∧ c ≠ '+' ∧ c ≠ ',' ∧ isEol c = false) := by
  induction h with
  | digit d h =>
    obtain ⟨h1, h2, h3, h4, h5, h6, h7⟩ := digit_isDigit h
    refine ⟨by simp [digitsFrom, h1, h2], by simp, ?_⟩
    intro c hc
    rw [List.mem_singleton.1 hc]
    exact ⟨h3, h4, h5, h6, h7⟩
  | more hw d h ih =>
    obtain ⟨h1, h2, h3, h4, h5, h6, h7⟩ := digit_isDigit h
    refine ⟨?_, by simp, ?_⟩
    · rw [digitsFrom_append, ih.1]
      simp [digitsFrom, h1, h2]
    · intro c hc
      rcases List.mem_append.1 hc with hc | hc
      · exact ih.2.2 c hc
      · rw [List.mem_singleton.1 hc]
        exact ⟨h3, h4, h5, h6, h7⟩

theorem readDigits_decimal {w : List Char} {n : Nat} (h : IsDecimal w n) : readDigits w = some n := by
  obtain ⟨h1, h2, -⟩ := decimal_word h
  cases w with
  | nil => exact absurd rfl h2
  | cons c w => exact h1

theorem dropWhile_blanks {a : List Char} (ha : Blanks a) {c : Char} (hc : isBlank c = false) (w : List Char) :
    (a ++ c :: w).dropWhile isBlank = c :: w := by
  rw [List.dropWhile_append_of_pos (fun x hx => isBlank_iff.2 (ha x hx))]
  simp [hc]

theorem trim_word {a b w : List Char} (ha : Blanks a) (hb : Blanks b) (hw : w ≠ []) (hn : ∀ c ∈ w, isBlank c = false) :
    trim (a ++ w ++ b) = w := by
  unfold trim
  obtain ⟨c, w', rfl⟩ := List.exists_cons_of_ne_nil hw
  rw [List.append_assoc, List.cons_append, dropWhile_blanks ha (hn c (by simp))]
  obtain ⟨x, d, hx⟩ : ∃ x d, c :: w' = x ++ [d] := ⟨_, _, (List.dropLast_append_getLast hw).symm⟩
  rw [← List.cons_append, hx, List.reverse_append, List.reverse_append, List.reverse_singleton, List.singleton_append,
    dropWhile_blanks (a := b.reverse) (fun c hc => hb c (List.mem_reverse.1 hc)) (hn d (by rw [hx]; simp))]
  simp

theorem readInt_whole {w : List Char} {n : Int} (h : IsWhole w n) : readInt w = some n := by
  cases h with
  | @pos a w b n ha hb hw =>
    obtain ⟨h1, h2, h3⟩ := decimal_word hw
    unfold readInt
    rw [trim_word ha hb h2 fun c hc => (h3 c hc).1]
    obtain ⟨c, w', rfl⟩ := List.exists_cons_of_ne_nil h2
    have hc := h3 c (by simp)
    split
    · rename_i e; simp only [List.cons.injEq] at e; exact absurd e.1 hc.2.1
    · rename_i e; simp only [List.cons.injEq] at e; exact absurd e.1 hc.2.2.1
    · rw [readDigits_decimal hw]; rfl
  | @plus a w b n ha hb hw =>
    obtain ⟨h1, h2, h3⟩ := decimal_word hw
    unfold readInt
    rw [trim_word (w := '+' :: w) ha hb (by simp)]
    · simp only [readDigits_decimal hw]; rfl
    · intro c hc
      rcases List.mem_cons.1 hc with rfl | hc
      · decide
      · exact (h3 c hc).1
  | @neg a w b n ha hb hw =>
    obtain ⟨h1, h2, h3⟩ := decimal_word hw
    unfold readInt
    rw [trim_word (w := '-' :: w) ha hb (by simp)]
    · simp only [readDigits_decimal hw]; rfl
    · intro c hc
      rcases List.mem_cons.1 hc with rfl | hc
      · decide
      · exact (h3 c hc).1

theorem whole_plain {w : List Char} {n : Int} (h : IsWhole w n) : ∀ c ∈ w, c ≠ ',' ∧ isEol c = false := by
  have hbl : ∀ c, c = ' ' ∨ c = '\t' → c ≠ ',' ∧ isEol c = false := by
    rintro c (rfl | rfl) <;> decide
  cases h with
  | @pos a w b n ha hb hw =>
    obtain ⟨-, -, h3⟩ := decimal_word hw
    intro c hc
    rcases List.mem_append.1 hc with hc | hc
    · rcases List.mem_append.1 hc with hc | hc
      · exact hbl c (ha c hc)
      · exact (h3 c hc).2.2.2
    · exact hbl c (hb c hc)
  | @plus a w b n ha hb hw =>
    obtain ⟨-, -, h3⟩ := decimal_word hw
    intro c hc
    rcases List.mem_append.1 hc with hc | hc
    · rcases List.mem_append.1 hc with hc | hc
      · exact hbl c (ha c hc)
      · rcases List.mem_cons.1 hc with rfl | hc
        · decide
        · exact (h3 c hc).2.2.2
    · exact hbl c (hb c hc)
  | @neg a w b n ha hb hw =>
    obtain ⟨-, -, h3⟩ := decimal_word hw
    intro c hc
    rcases List.mem_append.1 hc with hc | hc
    · rcases List.mem_append.1 hc with hc | hc
      · exact hbl c (ha c hc)
      · rcases List.mem_cons.1 hc with rfl | hc
        · decide
        · exact (h3 c hc).2.2.2
    · exact hbl c (hb c hc)

theorem isDigit_ofNat {c : Char} (h : c.isDigit = true) : c.toNat - 48 < 10 ∧ c = Char.ofNat (48 + (c.toNat - 48)) := by
  simp only [Char.isDigit, Bool.and_eq_true, decide_eq_true_eq, ge_iff_le, UInt32.le_iff_toNat_le] at h
  obtain ⟨h1, h2⟩ := h
  have e : c.val.toNat = c.toNat := rfl
  have e1 : '0'.val.toNat = 48 := rfl
  have e2 : '9'.val.toNat = 57 := rfl
  refine ⟨by omega, ?_⟩
  rw [show 48 + (c.toNat - 48) = c.toNat by omega, Char.ofNat_toNat]

theorem digitsFrom_decimal {v : List Char} {m : Nat} (hv : IsDecimal v m) {w : List Char} : ∀ {n}, digitsFrom m w = some n → IsDecimal (v ++ w) n := by
  induction w generalizing v m with
  | nil =>
    intro n h
    cases h
    rwa [List.append_nil]
  | cons c w ih =>
    intro n h
    simp only [digitsFrom] at h
    split_ifs at h with hc
    obtain ⟨hd, he⟩ := isDigit_ofNat hc
    have := ih (hv.more (c.toNat - 48) hd) h
    rwa [← he, List.append_assoc, List.singleton_append] at this

theorem readDigits_sound {w : List Char} {n : Nat} (h : readDigits w = some n) : IsDecimal w n := by
  cases w with
  | nil => cases h
  | cons c w =>
    simp only [readDigits, digitsFrom] at h
    split_ifs at h with hc
    obtain ⟨hd, he⟩ := isDigit_ofNat hc
    have h0 : IsDecimal [c] (c.toNat - 48) := by
      have := IsDecimal.digit (c.toNat - 48) hd
      rwa [← he] at this
    simpa using digitsFrom_decimal h0 (by simpa using h)

theorem takeWhile_blanks (w : List Char) : Blanks (w.takeWhile isBlank) := by
  intro c hc
  induction w with
  | nil => cases hc
  | cons d w ih =>
    simp only [List.takeWhile_cons] at hc
    split at hc
    · rcases List.mem_cons.1 hc with rfl | hc
      · rename_i hd
        exact isBlank_iff.1 hd
      · exact ih hc
    · cases hc

theorem trim_split (w : List Char) : ∃ a b, Blanks a ∧ Blanks b ∧ w = a ++ trim w ++ b := by
  refine ⟨w.takeWhile isBlank, ((w.dropWhile isBlank).reverse.takeWhile isBlank).reverse, takeWhile_blanks _,
    fun c hc => takeWhile_blanks _ c (List.mem_reverse.1 hc), ?_⟩
  unfold trim
  rw [List.append_assoc, ← List.reverse_append, List.takeWhile_append_dropWhile, List.reverse_reverse, List.takeWhile_append_dropWhile]

theorem readInt_sound {w : List Char} {n : Int} (h : readInt w = some n) : IsWhole w n := by
  obtain ⟨a, b, ha, hb, e⟩ := trim_split w
  unfold readInt at h
  rw [e]
  split at h
  · rename_i cs ecs
    cases hk : readDigits cs with
    | none => rw [hk] at h; cases h
    | some k =>
      rw [hk] at h
      cases h
      rw [ecs]
      exact .neg ha hb (readDigits_sound hk)
  · rename_i cs ecs
    cases hk : readDigits cs with
    | none => rw [hk] at h; cases h
    | some k =>
      rw [hk] at h
      cases h
      rw [ecs]
      exact .plus ha hb (readDigits_sound hk)
  · cases hk : readDigits (trim w) with
    | none => rw [hk] at h; cases h
    | some k =>
      rw [hk] at h
      cases h
      exact .pos ha hb (readDigits_sound hk)

theorem readInt_isSome {w : List Char} : (readInt w).isSome = true ↔ ∃ n, IsWhole w n := by
  rw [Option.isSome_iff_exists]
  exact ⟨fun ⟨n, h⟩ => ⟨n, readInt_sound h⟩, fun ⟨n, h⟩ => ⟨n, readInt_whole h⟩⟩

theorem readInt_none {w : List Char} : readInt w = none ↔ ¬ ∃ n, IsWhole w n := by
  rw [← readInt_isSome, Bool.not_eq_true, Option.isSome_eq_false_iff, Option.isNone_iff_eq_none]

theorem mem_words {n : String} {ws : List String} : n.toList ∈ ws.map String.toList ↔ n ∈ ws :=
  List.mem_map_of_injective (f := String.toList) fun _ _ h => String.toList_injective h

theorem missing_iff {n : String} : n.toList ∈ missingWords ↔ n ∈ missingNames := by
  rw [show missingWords = missingNames.map String.toList from rfl, mem_words]

theorem boolWord_none {n : String} : boolWord n.toList = none ↔ n ∉ booleanNames := by
  unfold boolWord
  rw [show booleanNames = ["True", "TRUE", "true"] ++ ["False", "FALSE", "false"] from rfl, List.mem_append]
  simp only [mem_words]
  split_ifs with h1 h2
  · simp [h1]
  · simp [h2]
  · simp only [h1, h2, or_self, not_false_eq_true]

/-! ## Lines -/

/-- a line of three words -/
def ThreeWords (l : BuilderLine) (r : List (List Char)) : Prop := ∃ y s, r = [l.name.toList, y, s] ∧ IsWhole y l.year ∧ IsWhole s l.scenario

theorem lineSays_noEol {l : BuilderLine} {t : List Char} (h : LineSays l t) : ∀ c ∈ t, isEol c = false := by
  obtain ⟨y, s, rfl, hy, hs, hn⟩ := h
  intro c hc
  simp only [List.append_assoc, List.cons_append, List.mem_append, List.mem_cons] at hc
  rcases hc with hc | rfl | hc | rfl | hc
  · have := hn c hc
    simp [isEol, this.2.1, this.2.2]
  · decide
  · exact (whole_plain hy c hc).2
  · decide
  · exact (whole_plain hs c hc).2

theorem lineSays_notBlank {l : BuilderLine} {t : List Char} (h : LineSays l t) : t.all isBlank = false := by
  obtain ⟨y, s, rfl, -, -, -⟩ := h
  rw [List.all_eq_false]
  exact ⟨',', by simp, by decide⟩

theorem lineSays_words {l : BuilderLine} {t : List Char} (h : LineSays l t) : ThreeWords l (splitAll (· = ',') t) := by
  obtain ⟨y, s, rfl, hy, hs, hn⟩ := h
  refine ⟨y, s, ?_, hy, hs⟩
  rw [List.append_assoc, List.cons_append, splitAll_append (fun c hc => by simpa using (hn c hc).1) (by simp),
    splitAll_append (fun c hc => by simpa using (whole_plain hy c hc).1) (by simp),
    splitAll_none (fun c hc => by simpa using (whole_plain hs c hc).1)]

theorem blanks_all {b : List Char} (h : Blanks b) : b.all isBlank = true := List.all_eq_true.2 fun c hc => isBlank_iff.2 (h c hc)

theorem textSays_records {ls : List BuilderLine} {t : List Char} (h : TextSays ls t) : List.Forall₂ ThreeWords ls (commaRecords t) := by
  unfold commaRecords
  induction h with
  | none hb =>
    rw [splitAll_none (blanks_noEol hb)]
    simp [blanks_all hb]
  | last h =>
    rw [splitAll_none (lineSays_noEol h)]
    simpa [lineSays_notBlank h] using lineSays_words h
  | blank hb he h ih =>
    rw [splitAll_append (blanks_noEol hb) (by simp [isEol, he])]
    simpa [blanks_all hb] using ih
  | line hl he h ih =>
    rw [splitAll_append (lineSays_noEol hl) (by simp [isEol, he])]
    rw [List.filter_cons_of_pos (by simp [lineSays_notBlank hl])]
    exact .cons (lineSays_words hl) ih

/-- what a line becomes when the names are texts -/
def rawOf (l : BuilderLine) : RawLine := ⟨.text l.name.toList, .int l.year, .int l.scenario⟩

theorem appendAll_pad {ls : List BuilderLine} {rs : List (List (List Char))} (h : List.Forall₂ ThreeWords ls rs) :
    appendAll (padRecord 3) rs = .ok rs := by
  induction h with
  | nil => rfl
  | cons hl _ ih =>
    obtain ⟨y, s, rfl, -, -⟩ := hl
    simp only [appendAll, ih, padRecord, List.length_cons, List.length_nil]
    simp [ok_bind]

theorem width_three {ls : List BuilderLine} {rs : List (List (List Char))} (h : List.Forall₂ ThreeWords ls rs) :
    max ((rs.head?.map List.length).getD 3) 3 = 3 := by
  cases h with
  | nil => rfl
  | cons hl _ =>
    obtain ⟨y, s, rfl, -, -⟩ := hl
    rfl

theorem readColumn_ints {float : List Char → Option Num} {ws : List (List Char)} {ns : List Int} (h : List.Forall₂ (fun n w => IsWhole w n) ns ws) :
    readColumn float ws = ns.map .int := by
  have h1 : ws.all (fun w => (readInt w).isSome) = true := by
    rw [List.all_eq_true]
    intro w hw
    obtain ⟨n, -, hn⟩ := forall₂_mem_right h hw
    rw [readInt_whole hn]
    rfl
  unfold readColumn
  rw [if_pos h1]
  clear h1
  induction h with
  | nil => rfl
  | cons hn _ ih => simp only [List.map_cons, readInt_whole hn, Option.getD_some, ih]

theorem readColumn_texts {float : List Char → Option Num} {ws : List (List Char)} (hm : ∀ w ∈ ws, w ∉ missingWords)
    (hn : ∃ w ∈ ws, ¬ NumberWord float w) (hb : ∃ w ∈ ws, boolWord w = none) : readColumn float ws = ws.map .text := by
  unfold readColumn
  obtain ⟨w, hw, hwn⟩ := hn
  obtain ⟨v, hv, hvb⟩ := hb
  simp only [NumberWord, not_or, ← readInt_isSome, Bool.not_eq_true] at hwn
  rw [if_neg, if_neg, if_neg]
  · exact List.map_congr_left fun x hx => if_neg (hm x hx)
  · rw [List.all_eq_true]
    intro h
    have := h v hv
    simp [hm v hv, hvb] at this
  · rw [List.all_eq_true]
    intro h
    have := h w hw
    simp [hm w hw, hwn] at this
  · rw [List.all_eq_true]
    intro h
    have := h w hw
    rw [hwn.1] at this
    cases this

theorem columns_of {ls : List BuilderLine} {rs : List (List (List Char))} (h : List.Forall₂ ThreeWords ls rs) :
    (rs.map fun r => r.getD 0 []) = ls.map (fun l => l.name.toList) ∧
    List.Forall₂ (fun n w => IsWhole w n) (ls.map (·.year)) (rs.map fun r => r.getD 1 []) ∧
    List.Forall₂ (fun n w => IsWhole w n) (ls.map (·.scenario)) (rs.map fun r => r.getD 2 []) := by
  induction h with
  | nil => exact ⟨rfl, .nil, .nil⟩
  | cons hl _ ih =>
    obtain ⟨y, s, rfl, hy, hs⟩ := hl
    obtain ⟨h1, h2, h3⟩ := ih
    exact ⟨by simp only [List.map_cons, h1]; rfl, .cons hy h2, .cons hs h3⟩

theorem zip_lines (f : BuilderLine → BuilderCell) (ls : List BuilderLine) :
    (((ls.map f).zip (((ls.map (·.year)).map BuilderCell.int).zip ((ls.map (·.scenario)).map BuilderCell.int))).map
      fun c => (⟨c.1, c.2.1, c.2.2⟩ : RawLine)) = ls.map fun l => ⟨f l, .int l.year, .int l.scenario⟩ := by
  induction ls with
  | nil => rfl
  | cons l ls ih => simpa using ih

theorem parse_lines {float : List Char → Option Num} {ls : List BuilderLine} {t : List Char} (h : TextSays ls t) :
    parseScenarioBuilder float t = .ok (((readColumn float (ls.map fun l => l.name.toList)).zip
      (((ls.map (·.year)).map BuilderCell.int).zip ((ls.map (·.scenario)).map BuilderCell.int))).map fun c => ⟨c.1, c.2.1, c.2.2⟩) := by
  have hr := textSays_records h
  obtain ⟨h1, h2, h3⟩ := columns_of hr
  unfold parseScenarioBuilder
  simp only [width_three hr, appendAll_pad hr, ok_bind, Nat.sub_self, Nat.zero_add, h1, readColumn_ints h2, readColumn_ints h3]

/-- **C75 (partial), reading.** The text of a scenario builder is read as its lines, however its numbers are spaced and whatever lines are left
blank, if no group has a name that stands for a missing value, and the groups are not all numbers or all booleans. -/
theorem c75_read_partial {float : List Char → Option Num} {ls : List BuilderLine} {t : List Char} (h : TextSays ls t)
    (hm : ∀ l ∈ ls, l.name ∉ missingNames) (hn : ∃ l ∈ ls, ¬ NumberWord float l.name.toList)
    (hb : ∃ l ∈ ls, l.name ∉ booleanNames) : parseScenarioBuilder float t = .ok (ls.map rawOf) := by
  obtain ⟨l, hl, hn⟩ := hn
  obtain ⟨l', hl', hb⟩ := hb
  rw [parse_lines h, readColumn_texts, List.map_map]
  · exact congrArg _ (zip_lines _ ls)
  · intro w hw
    obtain ⟨l, hl, rfl⟩ := List.mem_map.1 hw
    exact fun h' => hm l hl (missing_iff.1 h')
  · exact ⟨_, List.mem_map_of_mem hl, hn⟩
  · exact ⟨_, List.mem_map_of_mem hl', boolWord_none.2 hb⟩

/-! ## Groups -/

/-- years and scenarios as cells -/
def rawYears (z : Scenarization) : List (BuilderCell × BuilderCell) := z.map fun e => (.int e.1, .int e.2)

/-- groups as cells -/
def rawDict (d : Dict String Scenarization) : List (BuilderCell × List (BuilderCell × BuilderCell)) :=
  d.map fun e => (.text e.1.toList, rawYears e.2)

theorem same_int (a b : Int) : BuilderCell.same (.int a) (.int b) = decide (a = b) := by
  simp [BuilderCell.same]

theorem same_text (a b : String) : BuilderCell.same (.text a.toList) (.text b.toList) = decide (a = b) := by
  simp [BuilderCell.same, String.toList_inj]

theorem rawFind_years (z : Scenarization) (y : Int) : rawFind (rawYears z) (.int y) = (Dict.get? z y).map .int := by
  induction z with
  | nil => rfl
  | cons e z ih =>
    obtain ⟨k, v⟩ := e
    simp only [rawYears, List.map_cons, rawFind, same_int, Dict.get?, decide_eq_true_eq] at ih ⊢
    split_ifs
    · rfl
    · exact ih

theorem rawFind_dict (d : Dict String Scenarization) (g : String) : rawFind (rawDict d) (.text g.toList) = (d.get? g).map rawYears := by
  induction d with
  | nil => rfl
  | cons e z ih =>
    obtain ⟨k, v⟩ := e
    simp only [rawDict, List.map_cons, rawFind, same_text, Dict.get?, decide_eq_true_eq] at ih ⊢
    split_ifs
    · rfl
    · exact ih

theorem rawSet_years (z : Scenarization) (y s : Int) : rawSet (rawYears z) (.int y) (.int s) = rawYears (Dict.set z y s) := by
  induction z with
  | nil => rfl
  | cons e z ih =>
    obtain ⟨k, v⟩ := e
    simp only [rawYears, List.map_cons, rawSet, same_int, Dict.set, decide_eq_true_eq] at ih ⊢
    split_ifs
    · rfl
    · simp [ih]

theorem rawSet_dict (d : Dict String Scenarization) (g : String) (z : Scenarization) :
    rawSet (rawDict d) (.text g.toList) (rawYears z) = rawDict (d.set g z) := by
  induction d with
  | nil => rfl
  | cons e d ih =>
    obtain ⟨k, v⟩ := e
    simp only [rawDict, List.map_cons, rawSet, same_text, Dict.set, decide_eq_true_eq] at ih ⊢
    split_ifs
    · rfl
    · simp [ih]

theorem rawGroups_lines (ls : List BuilderLine) : ∀ out, rawGroups (ls.map rawOf) (rawDict out) =
    (resolveScenarizationLoop ls out).map rawDict := by
  induction ls with
  | nil => intro out; rfl
  | cons l ls ih =>
    intro out
    simp only [List.map_cons, rawGroups, resolveScenarizationLoop]
    rw [show (rawOf l).name = .text l.name.toList from rfl, rawFind_dict]
    cases hg : out.get? l.name with
    | none =>
      simp only [Option.map_none]
      rw [show [((rawOf l).year, (rawOf l).scenario)] = rawYears [(l.year, l.scenario)] from rfl, rawSet_dict, ih]
    | some z =>
      simp only [Option.map_some]
      rw [show (rawOf l).year = .int l.year from rfl, rawFind_years, show (rawOf l).scenario = .int l.scenario from rfl]
      unfold Scenarization.addYear Dict.contains
      cases hy : Dict.get? z l.year with
      | none =>
        simp only [Option.map_none, Option.isSome_none, Bool.false_eq_true, if_false, ok_bind]
        rw [rawSet_years, rawSet_dict, ih]
      | some s => rfl

/-- **C75 (partial).** With such a text, each year of a group has the scenario of its line, and there are no others; a text with two lines for the
same group and year is refused. -/
theorem c75_scenario_partial {float : List Char → Option Num} {ls : List BuilderLine} {t : List Char} (h : TextSays ls t)
    (hm : ∀ l ∈ ls, l.name ∉ missingNames) (hn : ∃ l ∈ ls, ¬ NumberWord float l.name.toList)
    (hb : ∃ l ∈ ls, l.name ∉ booleanNames) (g : String) (y : Int) :
    ((ls.map fun l => (l.name, l.year)).Nodup → ∀ s, textScenario float t g y = .ok s ↔ ⟨g, y, s⟩ ∈ ls) ∧
    (¬ (ls.map fun l => (l.name, l.year)).Nodup → ∃ m, textScenario float t g y = .error (.valueError m)) := by
  obtain ⟨c1, c2, c3⟩ := c26_builder ls
  have hraw : rawGroups (ls.map rawOf) [] = (resolveScenarization ls).map rawDict := rawGroups_lines ls []
  unfold textScenario
  rw [c75_read_partial h hm hn hb, ok_bind, hraw]
  constructor
  · intro hd s
    obtain ⟨zs, hz⟩ := c1.2 hd
    rw [← (c3 zs hz).2 g y s, hz]
    simp only [Except.map, ok_bind, rawFind_dict]
    cases hg : zs.get? g with
    | none => simp
    | some z =>
      simp only [Option.map_some, Option.bind_some, rawFind_years]
      cases hy : Dict.get? z y with
      | none => simp
      | some s' => simp
  · intro hd
    cases hr : resolveScenarization ls with
    | ok zs => exact absurd (c1.1 ⟨zs, hr⟩) hd
    | error x =>
      obtain ⟨m, rfl⟩ := c2 x hr
      exact ⟨m, rfl⟩

/-! ## Other texts -/

theorem rawFind_name {β} {d : List (BuilderCell × β)} {g : List Char} {v : β} (h : rawFind d (.text g) = some v) : ∃ v, (.text g, v) ∈ d := by
  induction d with
  | nil => cases h
  | cons e d ih =>
    obtain ⟨k, w⟩ := e
    simp only [rawFind] at h
    split_ifs at h with hk
    · have : k = .text g := by
        cases k with
        | float v => cases v <;> simp [BuilderCell.same] at hk
        | _ => simpa [BuilderCell.same] using hk
      exact ⟨w, by simp [this]⟩
    · obtain ⟨v, hv⟩ := ih h
      exact ⟨v, List.mem_cons_of_mem _ hv⟩

theorem rawSet_names {β} {d : List (BuilderCell × β)} {k : BuilderCell} {v : β} {x : BuilderCell × β} (h : x ∈ rawSet d k v) :
    x.1 = k ∨ ∃ y ∈ d, y.1 = x.1 := by
  induction d with
  | nil => left; rw [List.mem_singleton.1 h]
  | cons e d ih =>
    obtain ⟨k', w⟩ := e
    simp only [rawSet] at h
    split_ifs at h
    · rcases List.mem_cons.1 h with rfl | h
      · exact .inr ⟨(k', w), by simp, rfl⟩
      · exact .inr ⟨x, by simp [h], rfl⟩
    · rcases List.mem_cons.1 h with rfl | h
      · exact .inr ⟨(k', w), by simp, rfl⟩
      · rcases ih h with h | ⟨y, hy, e⟩
        · exact .inl h
        · exact .inr ⟨y, by simp [hy], e⟩

theorem rawGroups_names : ∀ (rs : List RawLine) (out zs : List (BuilderCell × List (BuilderCell × BuilderCell))), rawGroups rs out = .ok zs →
    ∀ x ∈ zs, (∃ y ∈ out, y.1 = x.1) ∨ ∃ r ∈ rs, r.name = x.1 := by
  intro rs
  induction rs with
  | nil => intro out zs h x hx; cases h; exact .inl ⟨x, hx, rfl⟩
  | cons r rs ih =>
    intro out zs h x hx
    have step : ∀ v, rawGroups rs (rawSet out r.name v) = .ok zs → (∃ y ∈ out, y.1 = x.1) ∨ ∃ q ∈ r :: rs, q.name = x.1 := by
      intro v hv
      rcases ih _ _ hv x hx with ⟨y, hy, e⟩ | ⟨q, hq, e⟩
      · rcases rawSet_names hy with h | ⟨y', hy', e'⟩
        · exact .inr ⟨r, by simp, h.symm.trans e⟩
        · exact .inl ⟨y', hy', e'.trans e⟩
      · exact .inr ⟨q, by simp [hq], e⟩
    simp only [rawGroups] at h
    split at h
    · split at h
      · cases h
      · exact step _ h
    · exact step _ h

/-- the words of a column of a text -/
def columnWords (text : List Char) (j : Nat) : List (List Char) :=
  let rs := commaRecords text
  rs.map fun r => r.getD (max ((rs.head?.map List.length).getD 3) 3 - 3 + j) []

theorem getD_pad (r : List (List Char)) (n k : Nat) : (r ++ List.replicate n []).getD k [] = r.getD k [] := by
  simp only [List.getD_eq_getElem?_getD]
  by_cases h : k < r.length
  · rw [List.getElem?_append_left h]
  · rw [List.getElem?_append_right (by omega), List.getElem?_eq_none (by omega : r.length ≤ k)]
    by_cases h2 : k - r.length < n
    · simp [h2]
    · rw [List.getElem?_eq_none (by simpa using h2)]

theorem pad_column {width : Nat} {rs rows : List (List (List Char))} (h : appendAll (padRecord width) rs = .ok rows) (k : Nat) :
    (rows.map fun r => r.getD k []) = rs.map fun r => r.getD k [] := by
  induction rs generalizing rows with
  | nil => cases h; rfl
  | cons r rs ih =>
    simp only [appendAll, bind_ok_iff, Except.ok.injEq] at h
    obtain ⟨x, hx, xs, hxs, rfl⟩ := h
    unfold padRecord at hx
    split_ifs at hx
    cases hx
    simp only [List.map_cons, ih hxs, getD_pad]

theorem parse_columns {float : List Char → Option Num} {t : List Char} {rows : List RawLine} (h : parseScenarioBuilder float t = .ok rows) :
    rows = ((readColumn float (columnWords t 0)).zip ((readColumn float (columnWords t 1)).zip (readColumn float (columnWords t 2)))).map
      fun c => ⟨c.1, c.2.1, c.2.2⟩ := by
  unfold parseScenarioBuilder at h
  simp only [bind_ok_iff, Except.ok.injEq] at h
  obtain ⟨rs, hrs, rfl⟩ := h
  simp only [pad_column hrs, columnWords]

theorem scenario_name {float : List Char → Option Num} {t : List Char} {g : String} {y s : Int} (h : textScenario float t g y = .ok s) :
    .text g.toList ∈ readColumn float (columnWords t 0) := by
  unfold textScenario at h
  simp only [bind_ok_iff] at h
  obtain ⟨rows, hr, zs, hz, h⟩ := h
  cases hf : rawFind zs (.text g.toList) with
  | none => rw [hf] at h; cases h
  | some z =>
    obtain ⟨v, hv⟩ := rawFind_name hf
    rcases rawGroups_names _ _ _ hz _ hv with ⟨y, hy, -⟩ | ⟨r, hr', e⟩
    · cases hy
    · rw [parse_columns hr] at hr'
      obtain ⟨c, hc, rfl⟩ := List.mem_map.1 hr'
      have e' : c.1 = .text g.toList := e
      rw [← e']
      exact (List.of_mem_zip hc).1

theorem text_column {float : List Char → Option Num} {ws : List (List Char)} {w : List Char} (h : .text w ∈ readColumn float ws) :
    w ∈ ws ∧ w ∉ missingWords ∧ ∃ v ∈ ws, v ∉ missingWords ∧ ¬ NumberWord float v := by
  unfold readColumn at h
  split_ifs at h with h1 h2 h3
  · simp at h
  · obtain ⟨v, -, e⟩ := List.mem_map.1 h
    split_ifs at e
    split at e <;> cases e
  · obtain ⟨v, -, e⟩ := List.mem_map.1 h
    split_ifs at e
  · obtain ⟨v, hv, e⟩ := List.mem_map.1 h
    split_ifs at e with hm
    cases e
    refine ⟨hv, hm, ?_⟩
    by_contra hc
    push Not at hc
    apply h2
    rw [List.all_eq_true]
    intro x hx
    by_cases hxm : x ∈ missingWords
    · simp [hxm]
    · rcases hc x hx hxm with h | h
      · simp [readInt_isSome.2 h]
      · simp [h]

/-- **C75 is violated for numbers.** If the names of all groups are numbers, no group has any scenario: studies that use them fail. -/
theorem c75_number_names (float : List Char → Option Num) (t : List Char) (hn : ∀ w ∈ columnWords t 0, NumberWord float w) (g : String) (y s : Int) :
    textScenario float t g y ≠ .ok s := by
  intro h
  obtain ⟨-, -, v, hv, -, hv'⟩ := text_column (scenario_name h)
  exact hv' (hn v hv)

/-- **C75 is violated for some names.** A group whose name stands for a missing value (`NA`, `null`, `None`...) has no scenario, whatever the
text. -/
theorem c75_missing_names (float : List Char → Option Num) (t : List Char) (g : String) (hg : g ∈ missingNames) (y s : Int) :
    textScenario float t g y ≠ .ok s := by
  intro h
  exact (text_column (scenario_name h)).2.1 (missing_iff.2 hg)

theorem text_column_bool {float : List Char → Option Num} {ws : List (List Char)} {w : List Char} (h : .text w ∈ readColumn float ws) :
    ∃ v ∈ ws, v ∉ missingWords ∧ boolWord v = none := by
  unfold readColumn at h
  split_ifs at h with h1 h2 h3
  · simp at h
  · obtain ⟨v, -, e⟩ := List.mem_map.1 h
    split_ifs at e
    split at e <;> cases e
  · obtain ⟨v, -, e⟩ := List.mem_map.1 h
    split_ifs at e
  · by_contra hc
    push Not at hc
    apply h3
    rw [List.all_eq_true]
    intro x hx
    by_cases hxm : x ∈ missingWords
    · simp [hxm]
    · simp [Option.isSome_iff_ne_none, hc x hx hxm]

/-- **C75 is violated for booleans.** If the names of all groups are `true` or `false` (or stand for missing values), no group has any scenario. -/
theorem c75_boolean_names (float : List Char → Option Num) (t : List Char)
    (hn : ∀ w ∈ columnWords t 0, String.ofList w ∈ booleanNames ∨ String.ofList w ∈ missingNames) (g : String) (y s : Int) :
    textScenario float t g y ≠ .ok s := by
  intro h
  obtain ⟨v, hv, hm, hb⟩ := text_column_bool (scenario_name h)
  rcases hn v hv with h | h
  · exact boolWord_none.1 (by rwa [String.toList_ofList]) h
  · exact hm (by rw [← String.toList_ofList (l := v)]; exact missing_iff.2 h)

theorem rawSet_new {β} {d : List (BuilderCell × β)} {k : BuilderCell} (h : rawFind d k = none) (v : β) : rawSet d k v = d ++ [(k, v)] := by
  induction d with
  | nil => rfl
  | cons e d ih =>
    obtain ⟨k', w⟩ := e
    simp only [rawFind] at h
    split_ifs at h with hk
    simp only [rawSet, if_neg hk, ih h, List.cons_append]

theorem rawSet_mem {β} {d : List (BuilderCell × β)} {k : BuilderCell} {v : β} {x : BuilderCell × β} (h : x ∈ rawSet d k v) : x ∈ d ∨ x.2 = v := by
  induction d with
  | nil => right; rw [List.mem_singleton.1 h]
  | cons e d ih =>
    obtain ⟨k', w⟩ := e
    simp only [rawSet] at h
    split_ifs at h
    · rcases List.mem_cons.1 h with rfl | h
      · exact .inr rfl
      · exact .inl (by simp [h])
    · rcases List.mem_cons.1 h with rfl | h
      · exact .inl (by simp)
      · rcases ih h with h | h
        · exact .inl (by simp [h])
        · exact .inr h

theorem rawFind_mem {β} {d : List (BuilderCell × β)} {k : BuilderCell} {v : β} (h : rawFind d k = some v) : ∃ k', k'.same k = true ∧ (k', v) ∈ d := by
  induction d with
  | nil => cases h
  | cons e d ih =>
    obtain ⟨k', w⟩ := e
    simp only [rawFind] at h
    split_ifs at h with hk
    · cases h; exact ⟨k', hk, by simp⟩
    · obtain ⟨k'', h1, h2⟩ := ih h
      exact ⟨k'', h1, List.mem_cons_of_mem _ h2⟩

theorem rawGroups_years {P : BuilderCell × BuilderCell → Prop} : ∀ (rs : List RawLine) (out zs : List (BuilderCell × List (BuilderCell × BuilderCell))),
    (∀ r ∈ rs, P (r.year, r.scenario)) → (∀ x ∈ out, ∀ p ∈ x.2, P p) → rawGroups rs out = .ok zs → ∀ x ∈ zs, ∀ p ∈ x.2, P p := by
  intro rs
  induction rs with
  | nil => intro out zs _ ho h; cases h; exact ho
  | cons r rs ih =>
    intro out zs hr ho h
    simp only [rawGroups] at h
    split at h
    · rename_i z hz
      split at h
      · cases h
      · rename_i hy
        refine ih _ _ (fun q hq => hr q (by simp [hq])) ?_ h
        intro x hx p hp
        rcases rawSet_mem hx with hx | hx
        · exact ho x hx p hp
        · rw [hx, rawSet_new hy] at hp
          rcases List.mem_append.1 hp with hp | hp
          · obtain ⟨k, -, hk⟩ := rawFind_mem hz
            exact ho _ hk p hp
          · rw [List.mem_singleton.1 hp]; exact hr r (by simp)
    · refine ih _ _ (fun q hq => hr q (by simp [hq])) ?_ h
      intro x hx p hp
      rcases rawSet_mem hx with hx | hx
      · exact ho x hx p hp
      · rw [hx] at hp
        rw [List.mem_singleton.1 hp]
        exact hr r (by simp)

theorem int_column {float : List Char → Option Num} {ws : List (List Char)} {n : Int} (h : .int n ∈ readColumn float ws) :
    ∀ w ∈ ws, (readInt w).isSome = true := by
  unfold readColumn at h
  split_ifs at h with h1 h2 h3
  · exact fun w hw => List.all_eq_true.1 h1 w hw
  · obtain ⟨v, -, e⟩ := List.mem_map.1 h
    split_ifs at e
    split at e <;> cases e
  · obtain ⟨v, -, e⟩ := List.mem_map.1 h
    split_ifs at e
  · obtain ⟨v, -, e⟩ := List.mem_map.1 h
    split_ifs at e

theorem float_column {float : List Char → Option Num} {ws : List (List Char)} {x : Num} (h : .float x ∈ readColumn float ws) :
    ∀ w ∈ ws, w ∈ missingWords ∨ NumberWord float w := by
  unfold readColumn at h
  split_ifs at h with h1 h2 h3
  · obtain ⟨v, -, e⟩ := List.mem_map.1 h
    cases e
  · intro w hw
    have := List.all_eq_true.1 h2 w hw
    simp only [Bool.or_eq_true, decide_eq_true_eq] at this
    rcases this with (h | h) | h
    · exact .inl h
    · exact .inr (.inl (readInt_isSome.1 h))
    · exact .inr (.inr h)
  · obtain ⟨v, -, e⟩ := List.mem_map.1 h
    split_ifs at e
  · obtain ⟨v, -, e⟩ := List.mem_map.1 h
    split_ifs at e

/-- **C75 is violated for single faults.** Whatever the text: if one line of it has a year that is not a number, or a scenario that is not a
whole number (also if it is left out), no group has any scenario, although the text is read without error. -/
theorem c75_one_line (float : List Char → Option Num) (t : List Char)
    (hf : (∃ w ∈ columnWords t 1, String.ofList w ∉ missingNames ∧ ¬ NumberWord float w) ∨ ∃ w ∈ columnWords t 2, ¬ ∃ n, IsWhole w n) (g : String) (y s : Int) :
    textScenario float t g y ≠ .ok s := by
  intro h
  unfold textScenario at h
  simp only [bind_ok_iff] at h
  obtain ⟨rows, hr, zs, hz, h⟩ := h
  cases hfind : rawFind zs (.text g.toList) with
  | none => rw [hfind] at h; cases h
  | some z =>
    rw [hfind] at h
    simp only at h
    cases hy : rawFind z (.int y) with
    | none => rw [hy] at h; cases h
    | some c =>
      rw [hy] at h
      obtain ⟨k, -, hk⟩ := rawFind_mem hfind
      obtain ⟨k', hk', hm⟩ := rawFind_mem hy
      have hP := rawGroups_years (P := fun p => p.1 ∈ readColumn float (columnWords t 1) ∧ p.2 ∈ readColumn float (columnWords t 2)) rows [] zs (by
        intro r hr'
        rw [parse_columns hr] at hr'
        obtain ⟨c, hc, rfl⟩ := List.mem_map.1 hr'
        have := (List.of_mem_zip hc).2
        exact List.of_mem_zip this) (by intro x hx; cases hx) hz _ hk _ hm
      rcases hf with ⟨w, hw, hwm, hwn⟩ | ⟨w, hw, hwn⟩
      · cases k' with
        | int n => exact hwn (.inl (readInt_isSome.1 (int_column hP.1 w hw)))
        | float v =>
          rcases float_column hP.1 w hw with h | h
          · exact hwm (missing_iff.1 (by rwa [String.toList_ofList]))
          · exact hwn h
        | _ => simp [BuilderCell.same] at hk'
      · cases c with
        | int n =>
          have := int_column hP.2 w hw
          exact hwn (readInt_isSome.1 this)
        | _ => cases h

/-- **C75 is violated for additional columns.** If each line has a fourth word (a remark, or nothing after a third comma), no group has any scenario. -/
theorem c75_fourth (float : List Char → Option Num) (t : List Char) (hl : ∀ r ∈ commaRecords t, ∃ g y s x, r = [g, y, s, x] ∧ ∃ n, IsWhole y n)
    (g : String) (y s : Int) : textScenario float t g y ≠ .ok s := by
  refine c75_number_names float t ?_ g y s
  intro w hw
  unfold columnWords at hw
  obtain ⟨r, hr, rfl⟩ := List.mem_map.1 hw
  have hwidth : max (((commaRecords t).head?.map List.length).getD 3) 3 - 3 = 1 := by
    cases hc : commaRecords t with
    | nil => rw [hc] at hr; cases hr
    | cons q qs =>
      obtain ⟨g, y, s, x, rfl, -⟩ := hl q (by simp [hc])
      rfl
  obtain ⟨g, y, s, x, rfl, hy⟩ := hl r hr
  rw [hwidth]
  exact .inl hy

theorem appendAll_error {α β : Type} {f : α → R β} {l : List α} {e : Err} (he : ∀ x ∈ l, ∀ e', f x = .error e' → e' = e) (h : ∃ x ∈ l, f x = .error e) :
    appendAll f l = .error e := by
  induction l with
  | nil => obtain ⟨x, hx, -⟩ := h; cases hx
  | cons a l ih =>
    simp only [appendAll]
    cases ha : f a with
    | error e' => rw [he a (by simp) e' ha]; rfl
    | ok b =>
      obtain ⟨x, hx, hxe⟩ := h
      rcases List.mem_cons.1 hx with rfl | hx
      · rw [ha] at hxe; cases hxe
      · rw [ok_bind, ih (fun x hx => he x (by simp [hx])) ⟨x, hx, hxe⟩]
        rfl

/-- **C75, refusal.** A text in which a line has more words than the first one and than three is refused. -/
theorem c75_long_line (float : List Char → Option Num) (t : List Char) (r : List (List Char)) (hr : r ∈ commaRecords t) (h3 : 3 < r.length)
    (h1 : ∀ q, (commaRecords t).head? = some q → q.length < r.length) : parseScenarioBuilder float t = .error (.exception "ParserError") := by
  unfold parseScenarioBuilder
  simp only
  rw [appendAll_error (e := .exception "ParserError")]
  · rfl
  · intro x _ e' h
    unfold padRecord at h
    split_ifs at h
    cases h
    rfl
  · refine ⟨r, hr, if_pos ?_⟩
    cases hc : (commaRecords t).head? with
    | none => simpa using h3
    | some q => simpa [h3] using h1 q hc

/-! ## Cases -/

/-- no other numbers -/
def noFloat (_ : List Char) : Option Num := none

/-- `load` and `cost`, years 0 and 1 -/
def demoBuilder : List BuilderLine := [⟨"load", 0, 0⟩, ⟨"load", 1, 12⟩, ⟨"cost", 0, -1⟩]

theorem whole_0 : IsWhole " 0".toList 0 := .pos (a := [' ']) (w := ['0']) (b := []) (by simp [Blanks]) (by simp [Blanks]) (.digit 0 (by decide))
theorem whole_1 : IsWhole "1 ".toList 1 := .pos (a := []) (w := ['1']) (b := [' ']) (by simp [Blanks]) (by simp [Blanks]) (.digit 1 (by decide))
theorem whole_12 : IsWhole "12".toList 12 :=
  .pos (a := []) (w := ['1', '2']) (b := []) (by simp [Blanks]) (by simp [Blanks]) (.more (w := ['1']) (.digit 1 (by decide)) 2 (by decide))
theorem whole_neg : IsWhole "-1".toList (-1) := .neg (a := []) (w := ['1']) (b := []) (by simp [Blanks]) (by simp [Blanks]) (.digit 1 (by decide))

theorem demo_says : TextSays demoBuilder "load, 0, 0\r\n\nload,1 ,12\ncost, 0,-1".toList := by
  refine .line (t := "load, 0, 0".toList) ⟨" 0".toList, " 0".toList, rfl, whole_0, whole_0, by decide⟩ (e := '\r') (.inr rfl)
    (.blank (b := []) (by simp [Blanks]) (e := '\n') (.inl rfl) (.blank (b := []) (by simp [Blanks]) (e := '\n') (.inl rfl)
      (.line (t := "load,1 ,12".toList) ⟨"1 ".toList, "12".toList, rfl, whole_1, whole_12, by decide⟩ (e := '\n') (.inl rfl)
        (.last (t := "cost, 0,-1".toList) ⟨" 0".toList, "-1".toList, rfl, whole_0, whole_neg, by decide⟩))))

/-- `c75_read_partial`, `c75_scenario_partial` -/
example : textScenario noFloat "load, 0, 0\r\n\nload,1 ,12\ncost, 0,-1".toList "load" 1 = .ok 12 :=
  ((c75_scenario_partial demo_says (by decide) ⟨⟨"load", 0, 0⟩, by decide, by
      rintro (h | h)
      · exact readInt_none.1 (by decide) h
      · cases h⟩
    ⟨⟨"load", 0, 0⟩, by decide, by decide⟩ "load" 1).1 (by decide) 12).2 (by decide)

/-- `c75_number_names`: the groups are `1` and `2` -/
example (s : Int) : textScenario noFloat "1,0,0\n2,0,0".toList "1" 0 ≠ .ok s :=
  c75_number_names _ _ (fun w hw => .inl (readInt_isSome.1
    ((by decide +kernel : ∀ w ∈ columnWords "1,0,0\n2,0,0".toList 0, (readInt w).isSome = true) w hw))) _ _ _

/-- `c75_missing_names` -/
example (s : Int) : textScenario noFloat "NA,0,0\nload,0,0".toList "NA" 0 ≠ .ok s := c75_missing_names _ _ _ (by decide) _ _

/-- `c75_boolean_names` -/
example (s : Int) : textScenario noFloat "true,0,0\nfalse,0,0".toList "true" 0 ≠ .ok s :=
  c75_boolean_names _ _ (by decide +kernel) _ _ _

/-- `c75_one_line`: a line with the names of the columns -/
example (s : Int) : textScenario noFloat "name,year,scenario\nload,0,0".toList "load" 0 ≠ .ok s :=
  c75_one_line _ _ (.inr ⟨"scenario".toList, by decide +kernel, readInt_none.1 (by decide +kernel)⟩) _ _ _

/-- `c75_one_line`: a scenario is left out in another group -/
example (s : Int) : textScenario noFloat "load,0,0\ncost,0".toList "load" 0 ≠ .ok s :=
  c75_one_line _ _ (.inr ⟨[], by decide +kernel, readInt_none.1 (by decide +kernel)⟩) _ _ _

/-- `c75_fourth` -/
example (s : Int) : textScenario noFloat "load,0,0,\nload,1,0,".toList "load" 0 ≠ .ok s :=
  c75_fourth _ _ (by
    rw [show commaRecords "load,0,0,\nload,1,0,".toList =
      [["load".toList, "0".toList, "0".toList, []], ["load".toList, "1".toList, "0".toList, []]] by decide +kernel]
    intro r hr
    rcases List.mem_cons.1 hr with rfl | hr
    · exact ⟨_, _, _, _, rfl, readInt_isSome.1 (by decide)⟩
    · rw [List.mem_singleton.1 hr]
      exact ⟨_, _, _, _, rfl, readInt_isSome.1 (by decide)⟩) _ _ _

/-- `c75_long_line` -/
example : parseScenarioBuilder noFloat "load,0,0\nload,1,0,x".toList = .error (.exception "ParserError") :=
  c75_long_line _ _ ["load".toList, "1".toList, "0".toList, "x".toList] (by decide +kernel) (by decide) (by
    intro q hq
    rw [show (commaRecords "load,0,0\nload,1,0,x".toList).head? = some ["load".toList, "0".toList, "0".toList] by decide +kernel] at hq
    cases hq
    decide)

end Verif.Props
