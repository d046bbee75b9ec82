import Verif.Spec.Tables
import Verif.Lemmas.Basic

/-!
# Properties of tables as texts: C74
-/

namespace Verif.Props

/-! ## Splitting -/

theorem splitAll_none {sep : Char → Bool} {l : List Char} (h : ∀ c ∈ l, sep c = false) : splitAll sep l = [l] := by
  induction l with
  | nil => rfl
  | cons c cs ih =>
    simp only [splitAll, h c List.mem_cons_self, Bool.false_eq_true, if_false, ih fun x hx => h x (List.mem_cons_of_mem _ hx)]

theorem splitAll_ne_nil (sep : Char → Bool) (l : List Char) : splitAll sep l ≠ [] := by
  cases l with
  | nil => simp [splitAll]
  | cons c cs =>
    unfold splitAll
    split_ifs
    · simp
    · split <;> simp

theorem splitAll_append {sep : Char → Bool} {l : List Char} (h : ∀ c ∈ l, sep c = false) {e : Char} (he : sep e = true) (t : List Char) :
    splitAll sep (l ++ e :: t) = l :: splitAll sep t := by
  induction l with
  | nil => simp [splitAll, he]
  | cons c cs ih =>
    simp only [List.cons_append, splitAll, h c List.mem_cons_self, Bool.false_eq_true, if_false,
      ih fun x hx => h x (List.mem_cons_of_mem _ hx)]

theorem splitAll_blank {sep : Char → Bool} {b : List Char} (h : ∀ c ∈ b, sep c = true) (l : List Char) :
    (splitAll sep (b ++ l)).filter (fun w => !w.isEmpty) = (splitAll sep l).filter (fun w => !w.isEmpty) := by
  induction b with
  | nil => rfl
  | cons c cs ih =>
    simp only [List.cons_append, splitAll, h c List.mem_cons_self, if_true]
    simp [ih fun x hx => h x (List.mem_cons_of_mem _ hx)]

theorem blank_iff {c : Char} : isBlank c = true ↔ c = ' ' ∨ c = '\t' := by simp [isBlank]

theorem eol_iff {c : Char} : isEol c = true ↔ c = '\n' ∨ c = '\r' := by simp [isEol]

theorem word_noBlank {w : List Char} (h : IsTableWord w) : ∀ c ∈ w, isBlank c = false := by
  intro c hc
  obtain ⟨h1, h2, -, -⟩ := h.2 c hc
  simp [isBlank, h1, h2]

theorem word_noEol {w : List Char} (h : IsTableWord w) : ∀ c ∈ w, isEol c = false := by
  intro c hc
  obtain ⟨-, -, h1, h2⟩ := h.2 c hc
  simp [isEol, h1, h2]

theorem blanks_noEol {b : List Char} (h : Blanks b) : ∀ c ∈ b, isEol c = false := by
  intro c hc
  rcases h c hc with rfl | rfl <;> rfl

theorem lineWords_of {ws : List (List Char)} {l : List Char} (h : LineHas ws l) : lineWords l = ws := by
  induction h with
  | blank hb =>
    rename_i b
    have := splitAll_blank (sep := isBlank) (b := b) (fun c hc => blank_iff.2 (hb c hc)) []
    rw [List.append_nil] at this
    simpa [lineWords, splitAll] using this
  | @last b w hb hw =>
    have := splitAll_blank (sep := isBlank) (b := b) (fun c hc => blank_iff.2 (hb c hc)) w
    rw [splitAll_none (word_noBlank hw)] at this
    rw [lineWords, this]
    simp [hw.1]
  | @cons b w c ws l hb hw hc _ ih =>
    have := splitAll_blank (sep := isBlank) (b := b) (fun c hc => blank_iff.2 (hb c hc)) (w ++ c :: l)
    rw [splitAll_append (word_noBlank hw) (blank_iff.2 hc)] at this
    rw [lineWords, List.append_assoc, this]
    unfold lineWords at ih
    simp [hw.1, ih]

theorem lineOf_noEol {ws : List (List Char)} {l : List Char} (h : LineHas ws l) : ∀ c ∈ l, isEol c = false := by
  induction h with
  | blank hb => exact blanks_noEol hb
  | last hb hw =>
    intro c hc
    rcases List.mem_append.1 hc with hc | hc
    · exact blanks_noEol hb c hc
    · exact word_noEol hw c hc
  | cons hb hw hs _ ih =>
    intro c hc
    rcases List.mem_append.1 hc with hc | hc
    · rcases List.mem_append.1 hc with hc | hc
      · exact blanks_noEol hb c hc
      · exact word_noEol hw c hc
    · rcases List.mem_cons.1 hc with rfl | hc
      · rcases hs with rfl | rfl <;> rfl
      · exact ih c hc

theorem records_of {rs : List (List (List Char))} {t : List Char} (h : TextHas rs t) : records t = rs := by
  induction h with
  | nothing hl =>
    rw [records, splitAll_none (lineOf_noEol hl)]
    simp [lineWords_of hl]
  | last hl hr =>
    rw [records, splitAll_none (lineOf_noEol hl)]
    simp [lineWords_of hl, hr]
  | skip hl he _ ih =>
    rw [records, splitAll_append (lineOf_noEol hl) (eol_iff.2 he)]
    unfold records at ih
    simp [lineWords_of hl, ih]
  | line hl hr he _ ih =>
    rw [records, splitAll_append (lineOf_noEol hl) (eol_iff.2 he)]
    unfold records at ih
    simp [lineWords_of hl, hr, ih]

/-! ## Reading -/

theorem wordValue_iff {N : NumberText} {w : List Char} {v : Num} : wordValue N w = .ok v ↔ WordMeans N w v := by
  unfold wordValue WordMeans emptyWord
  by_cases h : w = ['"', '"']
  · simp [h, eq_comm]
  · simp only [h, if_false, false_and, false_or]
    cases N.read w <;> simp [h]

theorem appendAll_getElem {α β : Type} {f : α → R β} : ∀ {l : List α} {r : List β}, appendAll f l = .ok r ↔
    r.length = l.length ∧ ∀ (i : Nat) a b, l[i]? = some a → r[i]? = some b → f a = .ok b := by
  intro l
  induction l with
  | nil =>
    intro r
    constructor
    · intro h; cases h; simp
    · rintro ⟨h, -⟩
      rw [List.length_nil, List.length_eq_zero_iff] at h
      subst h; rfl
  | cons a l ih =>
    intro r
    rw [appendAll_cons, bind_ok_iff]
    constructor
    · rintro ⟨b, hb, h⟩
      rw [bind_ok_iff] at h
      obtain ⟨bs, hbs, h⟩ := h
      cases h
      obtain ⟨h1, h2⟩ := ih.1 hbs
      refine ⟨by simp [h1], fun i x y hx hy => ?_⟩
      cases i with
      | zero => simp at hx hy; subst hx hy; exact hb
      | succ i => exact h2 i x y (by simpa using hx) (by simpa using hy)
    · rintro ⟨h1, h2⟩
      cases r with
      | nil => simp at h1
      | cons b bs =>
        refine ⟨b, h2 0 a b rfl rfl, ?_⟩
        rw [bind_ok_iff]
        exact ⟨bs, ih.2 ⟨by simpa using h1, fun i x y hx hy => h2 (i + 1) x y (by simpa using hx) (by simpa using hy)⟩, rfl⟩

theorem readRow_iff {N : NumberText} {w : Nat} {r : List (List Char)} {row : List Num} : readRow N w r = .ok row ↔
    r.length ≤ w ∧ row.length = w ∧ (∀ (s : Nat) x, r[s]? = some x → ∃ v, row[s]? = some v ∧ WordMeans N x v) ∧
    ∀ s, r.length ≤ s → s < w → row[s]? = some .nan := by
  unfold readRow
  by_cases hw : w < r.length
  · rw [if_pos hw]
    exact ⟨fun h => (by cases h), fun h => absurd h.1 (by omega)⟩
  rw [if_neg hw, bind_ok_iff]
  constructor
  · rintro ⟨vs, hvs, h⟩
    cases h
    obtain ⟨h1, h2⟩ := appendAll_getElem.1 hvs
    refine ⟨by omega, by simp; omega, fun s x hx => ?_, fun s hs hsw => ?_⟩
    · have hs : s < vs.length := by rw [h1]; exact (List.getElem?_eq_some_iff.1 hx).1
      refine ⟨vs[s], by rw [List.getElem?_append_left hs]; simp [hs], wordValue_iff.1 (h2 s x _ hx (by simp [hs]))⟩
    · rw [List.getElem?_append_right (by omega), List.getElem?_replicate, if_pos (by omega)]
  · rintro ⟨h1, h2, h3, h4⟩
    refine ⟨row.take r.length, appendAll_getElem.2 ⟨by simp; omega, fun i a b ha hb => ?_⟩, ?_⟩
    · obtain ⟨v, hv, hm⟩ := h3 i a ha
      have hi : i < r.length := (List.getElem?_eq_some_iff.1 ha).1
      rw [List.getElem?_take_of_lt hi, hv] at hb
      cases hb
      exact wordValue_iff.2 hm
    · congr 1
      apply List.ext_getElem?
      intro i
      by_cases hi : i < r.length
      · rw [List.getElem?_append_left (by simp; omega), List.getElem?_take_of_lt hi]
      · rw [List.getElem?_append_right (by simp; omega), List.getElem?_replicate]
        by_cases hiw : i < w
        · rw [h4 i (by omega) hiw, if_pos (by simp; omega)]
        · rw [if_neg (by simp; omega), List.getElem?_eq_none (by omega)]

/-- **C74, what a text means.** For every text, however its words are spaced and whatever lines are left blank: reading it gives the table
that has the numbers of its words at their places, and fails when there is no such table (a word that is not a number, a line longer than
the first one, or no word at all). -/
theorem c74_read (N : NumberText) {recs : List (List (List Char))} {text : List Char} (h : TextHas recs text) (f : Frame) :
    readCsv N text = .ok f ↔ TableOf N recs f := by
  unfold readCsv
  rw [records_of h]
  cases recs with
  | nil =>
    refine ⟨fun h => (by cases h), fun h => ?_⟩
    obtain ⟨r, rs, h, -⟩ := h.width
    cases h
  | cons r rs =>
    simp only
    rw [bind_ok_iff]
    constructor
    · rintro ⟨rows, hrows, h⟩
      cases h
      obtain ⟨h1, h2⟩ := appendAll_getElem.1 hrows
      exact ⟨⟨r, rs, rfl, rfl⟩, h1, fun i x row hx hrow => readRow_iff.1 (h2 i x row hx hrow)⟩
    · rintro ⟨⟨r', rs', he, hw⟩, hl, hr⟩
      cases he
      refine ⟨f.rows, appendAll_getElem.2 ⟨hl, fun i x row hx hrow => ?_⟩, ?_⟩
      · rw [← hw]; exact readRow_iff.2 (hr i x row hx hrow)
      · rw [← hw]

theorem exists_lineHas (l : List Char) (h : ∀ c ∈ l, isEol c = false) : ∃ ws, LineHas ws l := by
  induction l with
  | nil => exact ⟨[], .blank (by simp [Blanks])⟩
  | cons c l ih =>
    obtain ⟨ws, hws⟩ := ih fun x hx => h x (List.mem_cons_of_mem _ hx)
    by_cases hc : c = ' ' ∨ c = '\t'
    · have hcons : ∀ {b : List Char}, Blanks b → Blanks (c :: b) := fun hb x hx => by
        rcases List.mem_cons.1 hx with rfl | hx
        · exact hc
        · exact hb x hx
      cases hws with
      | blank hb => exact ⟨_, .blank (hcons hb)⟩
      | @last b w hb hw => exact ⟨_, .last (b := c :: b) (hcons hb) hw⟩
      | @cons b w d ws l hb hw hd hl => exact ⟨_, .cons (b := c :: b) (hcons hb) hw hd hl⟩
    · have hce : isEol c = false := h c List.mem_cons_self
      have hcw : c ≠ ' ' ∧ c ≠ '\t' ∧ c ≠ '\n' ∧ c ≠ '\r' := by
        simp only [isEol, Bool.or_eq_false_iff, decide_eq_false_iff_not] at hce
        push Not at hc
        exact ⟨hc.1, hc.2, hce.1, hce.2⟩
      have hnil : Blanks [] := by simp [Blanks]
      have hsing : IsTableWord [c] := ⟨by simp, by simpa using hcw⟩
      have hext : ∀ {w : List Char}, IsTableWord w → IsTableWord (c :: w) := fun hw => ⟨by simp, fun x hx => by
        rcases List.mem_cons.1 hx with rfl | hx
        · exact hcw
        · exact hw.2 x hx⟩
      cases hws with
      | @blank b hb =>
        cases l with
        | nil => exact ⟨[[c]], .last hnil hsing⟩
        | cons d l =>
          exact ⟨[[c]], .cons (b := []) (w := [c]) hnil hsing (hb d List.mem_cons_self)
            (.blank fun x hx => hb x (List.mem_cons_of_mem _ hx))⟩
      | @last b w hb hw =>
        cases b with
        | nil => exact ⟨[c :: w], .last (b := []) hnil (hext hw)⟩
        | cons d b =>
          exact ⟨[[c], w], .cons (b := []) (w := [c]) (l := b ++ w) hnil hsing (hb d List.mem_cons_self)
            (.last (fun x hx => hb x (List.mem_cons_of_mem _ hx)) hw)⟩
      | @cons b w e ws l hb hw he hl =>
        cases b with
        | nil => exact ⟨(c :: w) :: ws, .cons (b := []) hnil (hext hw) he hl⟩
        | cons d b =>
          exact ⟨[c] :: w :: ws, .cons (b := []) (w := [c]) (l := b ++ w ++ e :: l) hnil hsing (hb d List.mem_cons_self)
            (.cons (fun x hx => hb x (List.mem_cons_of_mem _ hx)) hw he hl)⟩

/-- **C74, every text is laid out in exactly one way**: it has lines of words, which are determined by the text. -/
theorem c74_every_text (text : List Char) : ∃! recs, TextHas recs text := by
  suffices h : ∃ recs, TextHas recs text by
    obtain ⟨recs, h⟩ := h
    exact ⟨recs, h, fun r hr => (records_of hr).symm.trans (records_of h)⟩
  suffices h : ∀ n (text : List Char), text.length ≤ n → ∃ recs, TextHas recs text from h _ text le_rfl
  intro n
  induction n with
  | zero =>
    intro text h
    have : text = [] := by simpa using h
    exact ⟨[], .nothing (.blank (by simp [this, Blanks]))⟩
  | succ n ih =>
    intro text h
    by_cases he : ∀ c ∈ text, isEol c = false
    · obtain ⟨ws, hws⟩ := exists_lineHas text he
      by_cases hn : ws = []
      · exact ⟨[], .nothing (hn ▸ hws)⟩
      · exact ⟨[ws], .last hws hn⟩
    · push Not at he
      obtain ⟨c, hc, hce⟩ := he
      obtain ⟨l, e, t, rfl, hl, hee⟩ : ∃ l e t, text = l ++ e :: t ∧ (∀ x ∈ l, isEol x = false) ∧ isEol e = true := by
        clear ih h
        induction text with
        | nil => cases hc
        | cons d ds ihd =>
          by_cases hd : isEol d = true
          · exact ⟨[], d, ds, rfl, by simp, hd⟩
          · rcases List.mem_cons.1 hc with rfl | hc
            · exact absurd (by simpa using hce) hd
            · obtain ⟨l, e, t, rfl, h1, h2⟩ := ihd hc
              refine ⟨d :: l, e, t, rfl, fun x hx => ?_, h2⟩
              rcases List.mem_cons.1 hx with rfl | hx
              · simpa using hd
              · exact h1 x hx
      obtain ⟨recs, hr⟩ := ih t (by simp at h; omega)
      obtain ⟨ws, hws⟩ := exists_lineHas l hl
      by_cases hn : ws = []
      · exact ⟨recs, .skip (hn ▸ hws) (eol_iff.1 hee) hr⟩
      · exact ⟨ws :: recs, .line hws hn (eol_iff.1 hee) hr⟩

/-- **C74, the file of a series.** The series `name` is read from `name.txt`, in the directory unless the name begins with a slash.  Reading gives the
table of the text of this file; it fails when there is no such file, which is told from a text that is not a table. -/
theorem c74_file (N : NumberText) (texts : String → Option (List Char)) (dir name : String) : ∃ path : String,
    path.toList = (if name.toList.head? = some '/' then [] else dir.toList ++ ['/']) ++ name.toList ++ ['.', 't', 'x', 't'] ∧
    (∀ f, loadText N texts dir name = .ok f ↔ ∃ text recs, texts path = some text ∧ TextHas recs text ∧ TableOf N recs f) ∧
    (loadText N texts dir name = .error (.exception "FileNotFoundError") ↔ texts path = none) := by
  refine ⟨joinDir dir (name ++ ".txt"), ?_, fun f => ?_, ?_⟩
  · have hh : (name ++ ".txt").toList.head? = some '/' ↔ name.toList.head? = some '/' := by
      rw [String.toList_append]
      cases name.toList <;> simp
    unfold joinDir
    simp only [hh]
    split <;> simp [String.toList_append]
  · unfold loadText readFile
    cases ht : texts (joinDir dir (name ++ ".txt")) with
    | none => simp
    | some t =>
      obtain ⟨recs, hr, -⟩ := c74_every_text t
      have key := c74_read N hr f
      simp only [Option.some.injEq]
      constructor
      · intro h
        refine ⟨t, recs, rfl, hr, key.1 ?_⟩
        cases hc : readCsv N t with
        | error e => simp [hc] at h
        | ok g => simpa [hc] using h
      · rintro ⟨t', recs', rfl, hr', hf⟩
        rw [(c74_read N hr' f).2 hf]
  · unfold loadText readFile
    cases ht : texts (joinDir dir (name ++ ".txt")) with
    | none => simp
    | some t => cases hc : readCsv N t <;> simp [hc]

/-! ## Writing -/

theorem cellText_of {N : NumberText} {v : Num} (h : v ≠ .nan) : cellText N v = N.print v := by
  cases v <;> first | rfl | exact absurd rfl h

/-- a line with tabulations has the numbers of the line as its words -/
theorem lineOf_row {N : NumberText} (hN : N.Faithful) : ∀ row : List Num,
    LineHas ((numbersOf row).map N.print) (joinWords '\t' (row.map (cellText N))) := by
  have hnil : Blanks [] := by simp [Blanks]
  intro row
  induction row with
  | nil => exact .blank hnil
  | cons v row ih =>
    cases row with
    | nil =>
      by_cases hv : v = .nan
      · subst hv; exact .blank hnil
      · simp only [numbersOf, List.filter_cons, hv, ne_eq, not_false_eq_true, decide_true, if_true, List.filter_nil, List.map_cons, List.map_nil,
          joinWords, cellText_of hv]
        exact .last (b := []) hnil (hN.word v hv).1
    | cons u row =>
      have hj : joinWords '\t' ((v :: u :: row).map (cellText N)) = cellText N v ++ '\t' :: joinWords '\t' ((u :: row).map (cellText N)) := rfl
      rw [hj]
      by_cases hv : v = .nan
      · subst hv
        have hn : numbersOf (.nan :: u :: row) = numbersOf (u :: row) := by simp [numbersOf]
        rw [hn]
        have hb : ∀ {b : List Char}, Blanks b → Blanks ('\t' :: b) := fun hb x hx => by
          rcases List.mem_cons.1 hx with rfl | hx
          · exact .inr rfl
          · exact hb x hx
        change LineHas _ ('\t' :: joinWords '\t' ((u :: row).map (cellText N)))
        generalize (numbersOf (u :: row)).map N.print = ws at ih ⊢
        generalize joinWords '\t' ((u :: row).map (cellText N)) = l at ih ⊢
        cases ih with
        | blank h => exact .blank (hb h)
        | @last b w h hw => exact .last (b := '\t' :: b) (hb h) hw
        | @cons b w c ws l h hw hc hl => exact .cons (b := '\t' :: b) (hb h) hw hc hl
      · have hn : numbersOf (v :: u :: row) = v :: numbersOf (u :: row) := by
          unfold numbersOf
          rw [List.filter_cons_of_pos (by simp [hv])]
        rw [hn, cellText_of hv]
        exact .cons (b := []) hnil (hN.word v hv).1 (.inr rfl) ih

theorem textOf_eol {eol : List Char} (he : IsLinesep eol) {r : List (List Char)} {l : List Char} (hl : LineHas r l)
    {rs : List (List (List Char))} {t : List Char} (ht : TextHas rs t) :
    TextHas (if r = [] then rs else r :: rs) (l ++ eol ++ t) := by
  have hnil : LineHas [] [] := .blank (by simp [Blanks])
  rcases he with rfl | rfl
  · rw [List.append_assoc]
    split_ifs with h
    · subst h; exact .skip hl (.inl rfl) ht
    · exact .line hl h (.inl rfl) ht
  · rw [List.append_assoc]
    have ht' : TextHas rs ('\n' :: t) := .skip (l := []) hnil (.inl rfl) ht
    split_ifs with h
    · subst h; exact .skip hl (.inr rfl) ht'
    · exact .line hl h (.inr rfl) ht'

/-- the words of a written line -/
def rowWords (N : NumberText) (row : List Num) : List (List Char) := if row = [.nan] then [['"', '"']] else (numbersOf row).map N.print

theorem lineOf_text {N : NumberText} (hN : N.Faithful) {sep : Char} {row : List Num} (hs : sep = '\t' ∨ row.length = 1) :
    LineHas (rowWords N row) (rowText N sep row) := by
  have hnil : Blanks [] := by simp [Blanks]
  unfold rowWords rowText
  split_ifs with h
  · exact .last (b := []) hnil ⟨by simp, by simp⟩
  · rcases hs with rfl | hs
    · exact lineOf_row hN row
    · obtain ⟨v, rfl⟩ := List.length_eq_one_iff.1 hs
      exact lineOf_row hN [v]

theorem textOf_csv {N : NumberText} (hN : N.Faithful) {sep : Char} {eol : List Char} (he : IsLinesep eol) {rows : List (List Num)}
    (hs : sep = '\t' ∨ ∀ row ∈ rows, row.length = 1) :
    TextHas ((rows.map (rowWords N)).filter fun r => !r.isEmpty) (rows.flatMap fun row => rowText N sep row ++ eol) := by
  induction rows with
  | nil => exact .nothing (.blank (by simp [Blanks]))
  | cons row rows ih =>
    have hl := lineOf_text hN (sep := sep) (row := row) (hs.imp id fun h => h row List.mem_cons_self)
    have := textOf_eol he hl (ih (hs.imp id fun h r hr => h r (List.mem_cons_of_mem _ hr)))
    rw [List.flatMap_cons, List.map_cons, List.filter_cons]
    convert this using 1
    by_cases h : rowWords N row = [] <;> simp [h]

theorem rowWords_length_one {N : NumberText} {row : List Num} (h : row.length = 1) : (rowWords N row).length = 1 := by
  obtain ⟨v, rfl⟩ := List.length_eq_one_iff.1 h
  unfold rowWords
  by_cases hv : v = .nan
  · simp [hv]
  · simp [hv, numbersOf]

theorem wordMeans_print {N : NumberText} (hN : N.Faithful) {v : Num} (hv : v ≠ .nan) : WordMeans N (N.print v) v :=
  .inr ⟨(hN.word v hv).2, hN.back v hv⟩

/-- **C74, what is written is read back.** A table without `nan`, or with a single column, that a converter writes (with tabulations, or
with commas if it has one column) is read back as it is.  For other tables see `c74_iff`. -/
theorem c74_written_read_partial {N : NumberText} (hN : N.Faithful) {sep : Char} {eol : List Char} (he : IsLinesep eol) {f : Frame}
    (hf : f.Writable) (hs : sep = '\t' ∨ f.width = 1) : readCsv N (csvText N sep eol f) = .ok f := by
  obtain ⟨⟨hne, hw, hr⟩, hnan⟩ := hf
  have ht := textOf_csv hN he (sep := sep) (rows := f.rows) (hs.imp id fun h row hrow => (hr row hrow).trans h)
  have hlen : ∀ row ∈ f.rows, (rowWords N row).length = f.width := by
    intro row hrow
    rcases hnan with h | h
    · rw [rowWords_length_one ((hr row hrow).trans h), h]
    · unfold rowWords
      rw [if_neg (fun hc => h row hrow .nan (by simp [hc]) rfl), List.length_map, numbersOf,
        List.filter_eq_self.2 (by simpa using h row hrow), hr row hrow]
  have hfilter : ((f.rows.map (rowWords N)).filter fun r => !r.isEmpty) = f.rows.map (rowWords N) := by
    rw [List.filter_eq_self]
    intro r hr'
    obtain ⟨row, hrow, rfl⟩ := List.mem_map.1 hr'
    have := hlen row hrow
    cases h : rowWords N row with
    | nil => rw [h] at this; simp at this; omega
    | cons => rfl
  rw [hfilter] at ht
  refine (c74_read N ht f).2 ⟨?_, by simp, fun h r row hr' hrow => ?_⟩
  · cases hrows : f.rows with
    | nil => exact absurd hrows hne
    | cons row rows => exact ⟨rowWords N row, rows.map (rowWords N), rfl, (hlen row (by simp [hrows])).symm⟩
  · rw [List.getElem?_map, hrow] at hr'
    cases hr'
    have hmem := List.mem_of_getElem? hrow
    refine ⟨(hlen row hmem).le, hr row hmem, fun s w hsw => ?_, fun s hs1 hs2 => absurd (hlen row hmem) (by omega)⟩
    unfold rowWords at hsw
    split_ifs at hsw with hc
    · subst hc
      cases s with
      | zero => simp at hsw; subst hsw; exact ⟨.nan, rfl, .inl ⟨rfl, rfl⟩⟩
      | succ s => simp at hsw
    · have hno : ∀ v ∈ row, v ≠ .nan := by
        rcases hnan with h1 | h1
        · obtain ⟨v, rfl⟩ := List.length_eq_one_iff.1 ((hr row hmem).trans h1)
          intro u hu
          rw [List.mem_singleton] at hu
          subst hu
          exact fun hv => hc (by rw [hv])
        · exact h1 row hmem
      rw [numbersOf, List.filter_eq_self.2 (by simpa using hno), List.getElem?_map] at hsw
      cases hv : row[s]? with
      | none => rw [hv] at hsw; cases hsw
      | some v =>
        rw [hv] at hsw
        cases hsw
        exact ⟨v, rfl, wordMeans_print hN (hno v (List.mem_of_getElem? hv))⟩

theorem wordMeans_print_iff {N : NumberText} (hN : N.Faithful) {v x : Num} (hv : v ≠ .nan) : WordMeans N (N.print v) x ↔ x = v := by
  refine ⟨?_, fun h => by rw [h]; exact wordMeans_print hN hv⟩
  rintro (⟨h, -⟩ | ⟨-, h⟩)
  · exact absurd h (hN.word v hv).2
  · rw [hN.back v hv] at h
    exact (Option.some.inj h).symm

theorem tableOf_print {N : NumberText} (hN : N.Faithful) {L : List (List Num)} (hL : ∀ l ∈ L, ∀ v ∈ l, v ≠ .nan) (g : Frame) :
    TableOf N (L.map fun l => l.map N.print) g ↔ (∃ l ls, L = l :: ls ∧ g.width = l.length) ∧ (∀ l ∈ L, l.length ≤ g.width) ∧
      g.rows = L.map fun l => l ++ List.replicate (g.width - l.length) .nan := by
  constructor
  · rintro ⟨⟨r, rs, h1, h2⟩, hl, hr⟩
    rw [List.length_map] at hl
    have key : ∀ (h : Nat) l row, L[h]? = some l → g.rows[h]? = some row → l.length ≤ g.width ∧
        row = l ++ List.replicate (g.width - l.length) .nan := by
      intro h l row hh hrow
      obtain ⟨k1, k2, k3, k4⟩ := hr h (l.map N.print) row (by simp [hh]) hrow
      rw [List.length_map] at k1 k4
      refine ⟨k1, List.ext_getElem? fun s => ?_⟩
      by_cases hs : s < l.length
      · obtain ⟨v, hv, hm⟩ := k3 s (N.print l[s]) (by simp [hs])
        rw [(wordMeans_print_iff hN (hL l (List.mem_of_getElem? hh) _ (List.getElem_mem hs))).1 hm] at hv
        rw [hv, List.getElem?_append_left hs]
        simp [hs]
      · rw [List.getElem?_append_right (by omega), List.getElem?_replicate]
        by_cases hw : s < g.width
        · rw [k4 s (by omega) hw, if_pos (by omega)]
        · rw [List.getElem?_eq_none (by omega), if_neg (by omega)]
    refine ⟨?_, fun l hl' => ?_, List.ext_getElem? fun h => ?_⟩
    · cases L with
      | nil => cases h1
      | cons l ls => cases h1; exact ⟨l, ls, rfl, by simpa using h2⟩
    · obtain ⟨h, hh⟩ := List.mem_iff_getElem?.1 hl'
      have hlt : h < g.rows.length := hl ▸ (List.getElem?_eq_some_iff.1 hh).1
      exact (key h l _ hh (List.getElem?_eq_getElem hlt)).1
    · rw [List.getElem?_map]
      cases hh : L[h]? with
      | none => rw [List.getElem?_eq_none (by rw [hl]; exact List.getElem?_eq_none_iff.1 hh)]; rfl
      | some l =>
        have hlt : h < g.rows.length := hl ▸ (List.getElem?_eq_some_iff.1 hh).1
        rw [List.getElem?_eq_getElem hlt, (key h l _ hh (List.getElem?_eq_getElem hlt)).2]
        rfl
  · rintro ⟨⟨l, ls, rfl, hw⟩, hle, hrows⟩
    refine ⟨⟨l.map N.print, ls.map fun l => l.map N.print, rfl, by simpa using hw⟩, by simp [hrows], fun h r row hr hrow => ?_⟩
    rw [List.getElem?_map] at hr
    cases hh : (l :: ls)[h]? with
    | none => rw [hh] at hr; cases hr
    | some m =>
      rw [hh] at hr
      cases hr
      rw [hrows, List.getElem?_map, hh] at hrow
      cases hrow
      have hm := List.mem_of_getElem? hh
      have := hle m hm
      refine ⟨by simpa using this, by simp; omega, fun s w hsw => ?_, fun s h1 h2 => ?_⟩
      · rw [List.getElem?_map] at hsw
        cases hv : m[s]? with
        | none => rw [hv] at hsw; cases hsw
        | some v =>
          rw [hv] at hsw
          cases hsw
          exact ⟨v, by rw [List.getElem?_append_left (List.getElem?_eq_some_iff.1 hv).1, hv],
            wordMeans_print hN (hL m hm v (List.mem_of_getElem? hv))⟩
      · rw [List.length_map] at h1
        rw [List.getElem?_append_right h1, List.getElem?_replicate, if_pos (by omega)]

/-- **C74, what becomes of `nan`.** A table with several columns is written with tabulations, and read with any blanks as separators.  What
is read has, for each line that has a number, its numbers one after the other from the first column on: a number that follows a `nan`
is read for another scenario, and a line without number is skipped, so that all later lines are read for another hour.  Reading fails when a
line has more numbers than the first one, or when there is no number at all. -/
theorem c74_nan {N : NumberText} (hN : N.Faithful) {eol : List Char} (he : IsLinesep eol) {f : Frame} (hr : f.Regular) (hw : 2 ≤ f.width)
    (g : Frame) : let L := (f.rows.map numbersOf).filter (· ≠ [])
    readCsv N (csvText N '\t' eol f) = .ok g ↔ (∃ l ls, L = l :: ls ∧ g.width = l.length) ∧ (∀ l ∈ L, l.length ≤ g.width) ∧
      g.rows = L.map fun l => l ++ List.replicate (g.width - l.length) .nan := by
  intro L
  have ht := textOf_csv hN he (sep := '\t') (rows := f.rows) (.inl rfl)
  have hwords : ((f.rows.map (rowWords N)).filter fun r => !r.isEmpty) = L.map fun l => l.map N.print := by
    have : f.rows.map (rowWords N) = (f.rows.map numbersOf).map fun l => l.map N.print := by
      rw [List.map_map]
      refine List.map_congr_left fun row hrow => ?_
      unfold rowWords
      rw [if_neg]
      · rfl
      · intro h
        have := hr.rect row hrow
        rw [h] at this
        simp at this
        omega
    rw [this, List.filter_map]
    congr 1
    refine List.filter_congr fun l _ => ?_
    cases l <;> simp
  rw [hwords] at ht
  rw [csvText, c74_read N ht g]
  refine tableOf_print hN (fun l hl v hv => ?_) g
  obtain ⟨row, -, rfl⟩ := List.mem_map.1 (List.mem_filter.1 hl).1
  have := (List.mem_filter.1 hv).2
  simpa using this

/-- **C74, exactly which tables are read back.** With several columns: the first line has no `nan`, each line has a number, and `nan` only
after its last number. -/
theorem c74_iff {N : NumberText} (hN : N.Faithful) {eol : List Char} (he : IsLinesep eol) {f : Frame} (hr : f.Regular) (hw : 2 ≤ f.width) :
    readCsv N (csvText N '\t' eol f) = .ok f ↔ (∀ row, f.rows.head? = some row → .nan ∉ row) ∧
      ∀ row ∈ f.rows, ∃ vs k, vs ≠ [] ∧ .nan ∉ vs ∧ row = vs ++ List.replicate k .nan := by
  have hnum : ∀ (vs : List Num) (k : Nat), .nan ∉ vs → numbersOf (vs ++ List.replicate k .nan) = vs := by
    intro vs k h
    unfold numbersOf
    rw [List.filter_append, List.filter_eq_self.2 fun v hv => by simpa using fun e : v = .nan => h (e ▸ hv)]
    simp
  have hin : ∀ row : List Num, .nan ∉ numbersOf row := fun row h => by simpa using (List.mem_filter.1 h).2
  refine (c74_nan hN he hr hw f).trans ?_
  constructor
  · rintro ⟨⟨l, ls, hL, hl⟩, hle, hrows⟩
    constructor
    · intro row hrow
      rw [hrows, hL] at hrow
      simp only [List.map_cons, List.head?_cons, Option.some.injEq] at hrow
      rw [← hrow, hl]
      have : l ∈ (f.rows.map numbersOf).filter (· ≠ []) := by rw [hL]; exact List.mem_cons_self
      obtain ⟨x, -, rfl⟩ := List.mem_map.1 (List.mem_filter.1 this).1
      simpa using hin x
    · intro row hrow
      rw [hrows] at hrow
      obtain ⟨l, hl', rfl⟩ := List.mem_map.1 hrow
      obtain ⟨h1, h2⟩ := List.mem_filter.1 hl'
      obtain ⟨x, -, rfl⟩ := List.mem_map.1 h1
      exact ⟨_, _, by simpa using h2, hin x, rfl⟩
  · rintro ⟨hfirst, hall⟩
    have hL : (f.rows.map numbersOf).filter (· ≠ []) = f.rows.map numbersOf := by
      rw [List.filter_eq_self]
      intro l hl
      obtain ⟨row, hrow, rfl⟩ := List.mem_map.1 hl
      obtain ⟨vs, k, h1, h2, rfl⟩ := hall row hrow
      rw [hnum vs k h2]
      simpa using h1
    rw [hL]
    refine ⟨?_, ?_, ?_⟩
    · cases hrows : f.rows with
      | nil => exact absurd hrows hr.some
      | cons row rows =>
        refine ⟨numbersOf row, rows.map numbersOf, rfl, ?_⟩
        have := hfirst row (by rw [hrows]; rfl)
        rw [numbersOf, List.filter_eq_self.2 fun v hv => by simpa using fun e : v = .nan => this (e ▸ hv)]
        exact (hr.rect row (by rw [hrows]; exact List.mem_cons_self)).symm
    · intro l hl
      obtain ⟨row, hrow, rfl⟩ := List.mem_map.1 hl
      rw [← hr.rect row hrow]
      exact List.length_filter_le _ _
    · rw [List.map_map]
      conv_lhs => rw [← List.map_id f.rows]
      refine List.map_congr_left fun row hrow => ?_
      obtain ⟨vs, k, h1, h2, rfl⟩ := hall row hrow
      have := hr.rect _ hrow
      rw [List.length_append, List.length_replicate] at this
      simp only [id, Function.comp, hnum vs k h2]
      rw [show f.width - vs.length = k by omega]

/-- **C74 fails for hours without number**: they are skipped, and the table that is read (if any) is shorter. -/
theorem c74_hour_lost {N : NumberText} (hN : N.Faithful) {eol : List Char} (he : IsLinesep eol) {f : Frame} (hr : f.Regular) (hw : 2 ≤ f.width)
    {h : Nat} {row : List Num} (hh : f.rows[h]? = some row) (hn : ∀ v ∈ row, v = .nan) {g : Frame}
    (hg : readCsv N (csvText N '\t' eol f) = .ok g) : g.rows.length < f.rows.length := by
  rw [((c74_nan hN he hr hw g).1 hg).2.2, List.length_map]
  refine lt_of_lt_of_eq ?_ (List.length_map (as := f.rows) numbersOf)
  refine lt_of_le_of_ne (List.length_filter_le _ _) fun e => ?_
  have := List.filter_eq_self.1 (List.length_filter_eq_length_iff.1 e |> fun h => List.filter_eq_self.2 h) (numbersOf row)
    (List.mem_map_of_mem (List.mem_of_getElem? hh))
  have he : numbersOf row = [] := List.filter_eq_nil_iff.2 fun v hv => by simp [hn v hv]
  rw [he] at this
  simp at this

/-- **C74, empty tables** cannot be read: a series without hours gives an empty file. -/
theorem c74_empty (N : NumberText) (sep : Char) (eol : List Char) {w : Nat} : ∃ e, readCsv N (csvText N sep eol ⟨w, []⟩) = .error e :=
  ⟨_, rfl⟩

end Verif.Props
