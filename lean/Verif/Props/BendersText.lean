import Verif.Spec.BendersText
import Verif.Props.OutputText

/-! Property C100: the text of a Benders solution tells its costs and its investments. -/

namespace Verif.Props
open Verif

/-- the characters of a line, without its end -/
def bendersChars (fmt : Num → String) (label : String) (v : Num) : List Char :=
  label.toList ++ (List.replicate (30 - label.length) ' ' ++ (' ' :: ':' :: ' ' ::
    (List.replicate (12 - (fmt v).length) ' ' ++ (fmt v).toList)))

theorem bendersLine_toList (fmt : Num → String) (label : String) (v : Num) :
    (bendersLine fmt label v).toList = bendersChars fmt label v ++ ['\n'] := by
  simp [bendersLine, alignLeft, alignRight, blanks, bendersChars]

theorem bendersChars_newline {fmt : Num → String} (hf : FloatFormat fmt) {label : String} (hl : '\n' ∉ label.toList) (v : Num) :
    '\n' ∉ bendersChars fmt label v := by
  have := fmt_chars hf (.inr rfl : '\n' = '(' ∨ _) v
  simp [bendersChars, hl, this, List.mem_replicate]

theorem bendersChars_unique {fmt : Num → String} (hf : FloatFormat fmt) {a b : String} (ha : LabelName a) (hb : LabelName b) {v w : Num}
    (h : bendersChars fmt a v = bendersChars fmt b w) : a = b ∧ v = w := by
  have hno : ∀ v, ∀ d ∈ (fmt v).toList.reverse, d ≠ ' ' := by
    intro v d hd e
    have := hf.chars v d (by simpa using hd)
    rw [e] at this; simp at this
  have hr := congrArg List.reverse h
  simp only [bendersChars, List.reverse_append, List.reverse_cons, List.append_assoc, List.reverse_replicate, List.cons_append,
    List.nil_append] at hr
  have hstart : ∀ (n : Nat) (x : List Char) (c : Char) (r : List Char), List.replicate n ' ' ++ (' ' :: x) = c :: r → ¬ c ≠ ' ' := by
    intro n x c r e
    cases n with
    | zero => simp at e; simp [← e.1]
    | succ n => simp [List.replicate_succ] at e; simp [← e.1]
  obtain ⟨h1, h2⟩ := span_of (p := fun d : Char => d ≠ ' ') (hno v) (hno w) (hstart _ _) (hstart _ _) hr
  have hv : v = w := hf.injective _ _ (String.toList_inj.1 (List.reverse_injective h1))
  subst hv
  refine ⟨?_, rfl⟩
  have h3 := List.append_cancel_left h2
  simp only [List.cons.injEq, true_and] at h3
  have hend : ∀ {s : String}, LabelName s → ∀ c r, s.toList.reverse = c :: r → ¬ c = ' ' := by
    rintro s ⟨-, hs⟩ c r e rfl
    refine hs r.reverse ?_
    have := congrArg List.reverse e
    simpa using this
  obtain ⟨-, h4⟩ := span_of (p := fun d : Char => d = ' ') (by simp [List.mem_replicate]) (by simp [List.mem_replicate]) (hend ha) (hend hb) h3
  exact String.toList_inj.1 (List.reverse_injective h4)

/-- the lines of the candidates -/
theorem addCandidates_lines (fmt : Num → String) (cs : List (String × Num)) (s : String) :
    (addCandidates fmt cs s).toList = s.toList ++ linesText (cs.map fun c => bendersChars fmt c.1 c.2) := by
  induction cs generalizing s with
  | nil => simp [addCandidates, linesText]
  | cons c cs ih =>
    rw [addCandidates, ih]
    simp [bendersLine_toList, linesText]

/-- all lines -/
theorem bendersText_lines {fmt : Num → String} {b : BendersData} {s : String} (h : b.text fmt = .ok s) : ∃ x y z cs,
    b.overallCost = some x ∧ b.investmentCost = some y ∧ b.operationalCost = some z ∧ b.candidates = some cs ∧
    s.toList = linesText ("Benders' solution:".toList :: bendersChars fmt "Overall cost" x :: bendersChars fmt "Investment cost" y ::
      bendersChars fmt "Operational cost" z :: List.replicate 45 '-' :: cs.map fun c => bendersChars fmt c.1 c.2) := by
  simp only [BendersData.text, bind_ok_iff, Except.ok.injEq] at h
  obtain ⟨x, hx, y, hy, z, hz, cs, hc, rfl⟩ := h
  have he : ∀ {α : Type} {k : String} {o : Option α} {v : α}, bendersEntry k o = .ok v → o = some v := by
    intro α k o v h
    cases o with
    | none => cases h
    | some w => cases h; rfl
  refine ⟨x, y, z, cs, he hx, he hy, he hz, he hc, ?_⟩
  rw [addCandidates_lines]
  simp only [String.toList_append, bendersLine_toList, linesText, List.flatMap_cons, List.append_assoc, String.toList_ofList]
  rfl

/-- **C100**: when both can be written, two solutions with such names have the same text exactly when they have the same costs, and the same
investments for the same candidates in the same order. -/
theorem c100_same_text_partial (fmt : Num → String) (hf : FloatFormat fmt) (a b : BendersData) (ha : a.Plain) (hb : b.Plain) (s t : String)
    (hs : a.text fmt = .ok s) (ht : b.text fmt = .ok t) :
    s = t ↔ a.overallCost = b.overallCost ∧ a.investmentCost = b.investmentCost ∧ a.operationalCost = b.operationalCost ∧
      a.candidates = b.candidates := by
  obtain ⟨x, y, z, cs, e1, e2, e3, e4, hl⟩ := bendersText_lines hs
  obtain ⟨x', y', z', cs', e1', e2', e3', e4', hl'⟩ := bendersText_lines ht
  have ha := ha cs e4
  have hb := hb cs' e4'
  have lab : LabelName "Overall cost" ∧ LabelName "Investment cost" ∧ LabelName "Operational cost" := by
    have : ∀ s : String, '\n' ∉ s.toList → s.toList.getLast? ≠ some ' ' → LabelName s := by
      intro s h1 h2
      refine ⟨h1, fun r e => h2 ?_⟩
      rw [e]; simp
    exact ⟨this _ (by decide) (by decide), this _ (by decide) (by decide), this _ (by decide) (by decide)⟩
  constructor
  · rintro rfl
    rw [hl] at hl'
    have nl : ∀ (x y z : Num) (cs : Dict String Num), (∀ c ∈ cs, LabelName c.1) → ∀ l ∈ "Benders' solution:".toList ::
        bendersChars fmt "Overall cost" x :: bendersChars fmt "Investment cost" y :: bendersChars fmt "Operational cost" z ::
          List.replicate 45 '-' :: cs.map fun c => bendersChars fmt c.1 c.2, '\n' ∉ l := by
      intro x y z cs hc l hl
      simp only [List.mem_cons, List.mem_map] at hl
      rcases hl with rfl | rfl | rfl | rfl | rfl | ⟨c, hcm, rfl⟩
      · decide
      · exact bendersChars_newline hf lab.1.1 x
      · exact bendersChars_newline hf lab.2.1.1 y
      · exact bendersChars_newline hf lab.2.2.1 z
      · decide
      · exact bendersChars_newline hf (hc c hcm).1 c.2
    have := linesText_unique (nl x y z cs ha) (nl x' y' z' cs' hb) hl'
    simp only [List.cons.injEq, true_and] at this
    obtain ⟨h1, h2, h3, h4⟩ := this
    rw [e1, e2, e3, e4, e1', e2', e3', e4', (bendersChars_unique hf lab.1 lab.1 h1).2, (bendersChars_unique hf lab.2.1 lab.2.1 h2).2,
      (bendersChars_unique hf lab.2.2 lab.2.2 h3).2]
    refine ⟨rfl, rfl, rfl, congrArg some ?_⟩
    clear e4 e4' hl hl' nl
    induction cs generalizing cs' with
    | nil => cases cs' with
      | nil => rfl
      | cons c cs' => simp at h4
    | cons c cs ih => cases cs' with
      | nil => simp at h4
      | cons c' cs' =>
        simp only [List.map_cons, List.cons.injEq] at h4
        obtain ⟨h5, h6⟩ := bendersChars_unique hf (ha c (by simp)) (hb c' (by simp)) h4.1
        rw [ih cs' (fun d hd => ha d (by simp [hd])) (fun d hd => hb d (by simp [hd])) h4.2, Prod.ext h5 h6]
  · rintro ⟨h1, h2, h3, h4⟩
    have : a.text fmt = b.text fmt := by simp only [BendersData.text, h1, h2, h3, h4]
    rw [hs, ht] at this
    exact Except.ok.inj this

/-- **C100**, contents: the text shows each cost under its name, and the investment of each candidate, even under names that are longer than
the column. -/
theorem c100_shown (fmt : Num → String) (b : BendersData) (s : String) (hs : b.text fmt = .ok s) :
    (∀ x, b.overallCost = some x → ShowsLine s "Overall cost" (fmt x)) ∧
    (∀ x, b.investmentCost = some x → ShowsLine s "Investment cost" (fmt x)) ∧
    (∀ x, b.operationalCost = some x → ShowsLine s "Operational cost" (fmt x)) ∧
    ∀ cs, b.candidates = some cs → ∀ c ∈ cs, ShowsLine s c.1 (fmt c.2) := by
  obtain ⟨x, y, z, cs, e1, e2, e3, e4, hl⟩ := bendersText_lines hs
  have key : ∀ (before : List (List Char)) (label : String) (v : Num) (after : List (List Char)), before ≠ [] →
      s.toList = linesText (before ++ bendersChars fmt label v :: after) → ShowsLine s label (fmt v) := by
    intro before label v after hne h
    obtain ⟨init, l0, rfl⟩ := (List.eq_nil_or_concat before).resolve_left hne
    refine ⟨String.ofList (linesText init ++ l0), String.ofList (linesText after), 30 - label.length, 12 - (fmt v).length, ?_, by omega,
      by omega⟩
    rw [h]
    simp [linesText, bendersChars]
  refine ⟨fun w hw => ?_, fun w hw => ?_, fun w hw => ?_, fun ds hd c hc => ?_⟩
  · rw [e1] at hw; cases hw
    exact key ["Benders' solution:".toList] _ _ _ (by simp) hl
  · rw [e2] at hw; cases hw
    exact key ["Benders' solution:".toList, _] _ _ _ (by simp) hl
  · rw [e3] at hw; cases hw
    exact key ["Benders' solution:".toList, _, _] _ _ _ (by simp) hl
  · rw [e4] at hd; cases hd
    obtain ⟨p, q, rfl⟩ := List.append_of_mem hc
    refine key ("Benders' solution:".toList :: bendersChars fmt "Overall cost" x :: bendersChars fmt "Investment cost" y ::
      bendersChars fmt "Operational cost" z :: List.replicate 45 '-' :: p.map fun c => bendersChars fmt c.1 c.2) _ _
      (q.map fun c => bendersChars fmt c.1 c.2) (by simp) ?_
    rw [hl]
    simp

/-- **C100**, acceptance: a solution can be written exactly when its three costs and its investments are there. -/
theorem c100_accepted (fmt : Num → String) (b : BendersData) : (∃ s, b.text fmt = .ok s) ↔
    b.overallCost ≠ none ∧ b.investmentCost ≠ none ∧ b.operationalCost ≠ none ∧ b.candidates ≠ none := by
  constructor
  · rintro ⟨s, hs⟩
    obtain ⟨x, y, z, cs, e1, e2, e3, e4, -⟩ := bendersText_lines hs
    simp [e1, e2, e3, e4]
  · rintro ⟨h1, h2, h3, h4⟩
    obtain ⟨x, e1⟩ := Option.ne_none_iff_exists'.1 h1
    obtain ⟨y, e2⟩ := Option.ne_none_iff_exists'.1 h2
    obtain ⟨z, e3⟩ := Option.ne_none_iff_exists'.1 h3
    obtain ⟨cs, e4⟩ := Option.ne_none_iff_exists'.1 h4
    exact ⟨_, by simp only [BendersData.text, e1, e2, e3, e4, bendersEntry, ok_bind]; rfl⟩

end Verif.Props
