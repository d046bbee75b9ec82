import Verif.Lemmas.Grammar
import Verif.Lemmas.Lex

/-!
# C43: parsed expressions follow the grammar

The full statement would be: for every text, `parse_expression` returns the expression `e` exactly when the text is made of
tokens that the grammar reads as `e`, and raises `AntaresParseException` otherwise.  `c43_parse_partial` proves it for texts
made of tokens without `)[`; it fails for the other ones: `c43_unrecognised_ignored` (characters that start no token are
skipped) and `c43_postfix_none` (an index after a parenthesis gives `None` in place of an expression).
-/

namespace Verif.Props

/-- the parser on tokens gives what the grammar reads -/
theorem parseTokens_reads {ids ts e} (np : NoPostfix ts) :
    (∃ pt, parseTokens ts = some pt ∧ visitPT ids pt = .ok (.node e)) ↔ Reads ids .comparison ts e := by
  constructor
  · rintro ⟨pt, hp, hv⟩
    obtain ⟨pre, hpre, -, h⟩ := big_sound (ids := ids) ((parseTokens_iff _ _).1 hp) np (by omega)
    obtain ⟨e', he, hr⟩ := h _ hv
    cases he
    rw [List.append_nil] at hpre
    rw [hpre]
    exact hr
  · intro h
    obtain ⟨pt, hv, hl⟩ := reads_compl h np
    have := hl.whole (q := 0) (rest := []) rfl (Nat.zero_le _) (Nat.zero_le _) (.inr rfl)
    rw [List.append_nil] at this
    exact ⟨pt, (parseTokens_iff _ _).2 this, hv⟩

/-- C43 (part: texts made of tokens, without `)[`).  The expression is the one that the grammar reads, which has the usual
precedences and reads operators from left to right; any other text is rejected with a parse error. -/
theorem c43_parse_partial {text : String} {ts : List Tok} (hs : Spells text.toList ts) (np : NoPostfix ts) (ids : Identifiers) :
    (∀ e, parseExpression text ids = .ok (.node e) ↔ Reads ids .comparison ts e) ∧
    ((¬ ∃ e, Reads ids .comparison ts e) → parseExpression text ids = .error .parseException) := by
  have h := @parseTokens_reads ids ts
  rw [← lex_spells hs] at h np ⊢
  unfold parseExpression
  constructor
  · intro e
    rw [← h np]
    cases parseTokens (lex text) with
    | none => simp
    | some pt => simp
  · intro hn
    cases hp : parseTokens (lex text) with
    | none => rfl
    | some pt =>
      simp only
      cases hv : visitPT ids pt with
      | error err => rw [visit_error ids pt err hv]
      | ok v =>
        obtain ⟨pre, hpre, -, hr⟩ := big_sound (ids := ids) ((parseTokens_iff _ _).1 hp) np (by omega)
        obtain ⟨e, rfl, hr⟩ := hr _ hv
        rw [List.append_nil] at hpre
        exact absurd ⟨e, by rw [hpre]; exact hr⟩ hn

/-- A text is cut in tokens in one way. -/
theorem c43_tokens_unique {cs : List Char} {ts ts' : List Tok} (h : Spells cs ts) (h' : Spells cs ts') : ts = ts' :=
  (lexAux_spells h _ le_rfl).symm.trans (lexAux_spells h' _ le_rfl)

/-- The grammar is not ambiguous: one list of tokens has one reading. -/
theorem c43_unambiguous {ids : Identifiers} {ts : List Tok} {e e' : Expr} (np : NoPostfix ts) (h : Reads ids .comparison ts e)
    (h' : Reads ids .comparison ts e') : e = e' := by
  obtain ⟨pt, h1, h2⟩ := (parseTokens_reads np).2 h
  obtain ⟨pt', h1', h2'⟩ := (parseTokens_reads np).2 h'
  rw [h1] at h1'
  cases h1'
  rw [h2] at h2'
  cases h2'
  rfl

/-- For every text, even with characters that start no token, errors are parse errors. -/
theorem c43_errors {text : String} {ids : Identifiers} {err : Err} (h : parseExpression text ids = .error err) :
    err = .parseException := by
  unfold parseExpression at h
  split at h
  · cases h; rfl
  · exact visit_error _ _ _ h

/-- Identifiers that are neither variables nor parameters are rejected, wherever they occur as operand. -/
theorem c43_known_names {ids : Identifiers} {n : String} {e : Expr} (h : Reads ids .comparison [.id n] e) :
    (n ∈ ids.variables_ ∧ e = .var n) ∨ (n ∉ ids.variables_ ∧ n ∈ ids.parameters ∧ e = .par n) := by
  have np : NoPostfix [Tok.id n] := by
    intro hi
    have := hi.length_le
    simp at this
  obtain ⟨pt, h1, h2⟩ := (parseTokens_reads np).2 h
  have hp : parseTokens [Tok.id n] = some (.ident n) := rfl
  rw [hp] at h1
  cases h1
  simp only [visitPT, bind_ok_iff] at h2
  obtain ⟨e', h3, h4⟩ := h2
  cases h4
  cases convert_named.1 h3 with
  | variable_ hn => exact .inl ⟨hn, rfl⟩
  | parameter hn hn' => exact .inr ⟨hn, hn', rfl⟩

/-! ### Where it fails -/

/-- characters that start no token, nor `<` or `>`: no white space, digit, letter nor sign -/
def unrecognised (c : Char) : Bool :=
  !([' ', '\t', '\r', '\n'].contains c) && !("0123456789".toList.contains c) &&
    !("abcdefghijklmnopqrstuvwxyzABCDEFGHIJKLMNOPQRSTUVWXYZ_".toList.contains c) && !("-()/*+,[]=.<>".toList.contains c)

theorem isWsC_iff (c : Char) : c ∈ [' ', '\t', '\r', '\n'] ↔ isWsC c = true := by simp [isWsC, or_assoc]

/-- The code does not reject characters that start no token: it skips them. -/
theorem c43_unrecognised_ignored {c : Char} (h : unrecognised c = true) (cs : List Char) (ids : Identifiers) :
    parseExpression (String.ofList (c :: cs)) ids = parseExpression (String.ofList cs) ids := by
  simp only [unrecognised, Bool.and_eq_true, Bool.not_eq_true', List.contains_eq_mem, decide_eq_false_iff_not] at h
  obtain ⟨⟨⟨h1, h2⟩, h3⟩, h4⟩ := h
  have h1 := fun z => h1 ((isWsC_iff c).2 z)
  have h2 := fun z => h2 ((isDigit_iff c).2 z)
  have h3 := fun z => h3 ((isLetter_iff c).2 z)
  have hl : lexOne c cs = (none, cs) := by
    unfold lexOne
    rw [if_neg h1, if_neg h2, if_neg h3]
    split <;> first | rfl | exact absurd (by decide) h4
  unfold parseExpression lex
  simp only [String.toList_ofList, List.length_cons, lexAux, hl]

/-- texts made of tokens have no such character -/
theorem spells_recognised {cs ts} (h : Spells cs ts) : ∀ c ∈ cs, unrecognised c = false := by
  have hd : ∀ c, Tok.isDigit c → unrecognised c = false := by
    intro c hc
    unfold unrecognised
    rw [show "0123456789".toList.contains c = true from List.contains_iff_mem.2 hc]
    simp
  have hl : ∀ c, Tok.isLetter c → unrecognised c = false := by
    intro c hc
    unfold unrecognised
    rw [show "abcdefghijklmnopqrstuvwxyzABCDEFGHIJKLMNOPQRSTUVWXYZ_".toList.contains c = true from List.contains_iff_mem.2 hc]
    simp
  induction h with
  | nil => simp
  | @space c cs ts hc _ ih =>
    intro d hdm
    rcases List.mem_cons.1 hdm with rfl | hdm
    · have : ∀ c ∈ [' ', '\t', '\r', '\n'], unrecognised c = false := by decide
      exact this _ hc
    · exact ih d hdm
  | @token t cs ts hv _ _ ih =>
    intro d hdm'
    rcases List.mem_append.1 hdm' with hdm | hdm
    · clear hdm'
      cases t with
      | num ip fp =>
        obtain ⟨-, h1, h2⟩ := hv
        cases fp with
        | nil => exact hd d (h1 d hdm)
        | cons f fs =>
          rcases List.mem_append.1 (show d ∈ ip ++ '.' :: f :: fs from hdm) with h | h
          · exact hd d (h1 d h)
          · rcases List.mem_cons.1 h with rfl | h
            · decide
            · exact hd d (h2 d h)
      | id n =>
        obtain ⟨-, c, ds, hn, hc, hds⟩ := hv
        have hdm : d ∈ n.toList := hdm
        rw [hn] at hdm
        rcases List.mem_cons.1 hdm with rfl | h
        · exact hl _ hc
        · exact (hds d h).elim (hl d) (hd d)
      | cmp c => cases c <;> (revert hdm; revert d; decide)
      | _ => revert hdm; revert d; decide
    · exact ih d hdm

/-- Violation: `x != 50%` is accepted, and read as `x = 50`. -/
theorem c43_bad_text_accepted :
    parseExpression "x != 50%" ⟨["x"], []⟩ = .ok (.node (.cmp (.var "x") (.lit (.fin 50)) .eq)) ∧
    ¬ ∃ ts, Spells "x != 50%".toList ts := by
  constructor
  · have h : parseTokens (lex "x != 50%") = some (.cmp .eq (.ident "x") (.num ['5', '0'] [])) := by decide +kernel
    have hd : decimalVal ['5', '0'] [] = 50 := by
      rw [decimalVal_eq]
      simp [decimal, Nat.ofDigits]
    unfold parseExpression
    rw [h]
    simp only [visitPT, hd]
    rfl
  · rintro ⟨ts, h⟩
    have := spells_recognised h '!' (by decide)
    revert this
    decide

/-- Violation: a time shift or index of a parenthesised expression, which the grammar allows, gives `None`. -/
theorem c43_postfix_none {ids : Identifiers} {ts s : List Tok} {e k : Expr} {text : String} (h : Reads ids .comparison ts e)
    (hs : Reads ids .shift s k ∨ Reads ids .comparison s k) (np : NoPostfix ts) (np' : NoPostfix s)
    (hl : Spells text.toList (.lpar :: ts ++ .rpar :: .lbrack :: s ++ [.rbrack])) :
    parseExpression text ids = .ok .none := by
  obtain ⟨pt, hv, hp⟩ := reads_compl h np
  unfold parseExpression
  rw [lex_spells hl]
  have hb : ∀ r, Big (.expr 0) (ts ++ .rpar :: r) pt (.rpar :: r) := fun r => hp.whole rfl (Nat.zero_le _) (Nat.zero_le _) (.inr rfl)
  rcases hs with hs | hs
  · obtain ⟨ps, vs, ⟨s', rfl⟩, hps⟩ := reads_compl hs np'
    have := (parseTokens_iff _ _).2 (Big.expr (p := 0) (Big.shiftExpr (hb _) (hps [.rbrack] rfl)) (.loopStop (.inr rfl)))
    simp only [List.cons_append, List.append_assoc] at this ⊢
    rw [show s'.append [Tok.rbrack] = s' ++ [Tok.rbrack] from rfl] at this
    rw [this]
    unfold Vis at *
    simp only [visitPT, hv, vs]
    rfl
  · obtain ⟨ps, vs, hps⟩ := reads_compl hs np'
    have h1 : Big (.expr 0) (s ++ [.rbrack]) ps [.rbrack] := hps.whole rfl (Nat.zero_le _) (Nat.zero_le _) (.inr rfl)
    have := (parseTokens_iff _ _).2 (Big.expr (p := 0) (Big.indexExpr (hb _) (fun x hx => by rw [hx] at h1; exact h1.not_time) h1) (.loopStop (.inr rfl)))
    simp only [List.cons_append, List.append_assoc] at this ⊢
    rw [this]
    unfold Vis at *
    simp only [visitPT, hv, vs]
    rfl

/-- the numbers of the examples -/
theorem decimal_digit (c : Char) : decimalVal [c] [] = (c.toNat - '0'.toNat : ℕ) := by
  rw [decimalVal_eq]
  simp [decimal]

/-- Violation: in time shifts, `4/2*3` just after `t` is read as `4/(2*3)`; elsewhere it is read from left to right. -/
theorem c43_shift_not_left_assoc :
    parseExpression "x[t+4/2*3]" ⟨["x"], []⟩ =
      .ok (.node (.shift (.var "x") (.div (.lit (.fin 4)) (.mul (.lit (.fin 2)) (.lit (.fin 3)))))) ∧
    parseExpression "4/2*3" ⟨["x"], []⟩ = .ok (.node (.mul (.div (.lit (.fin 4)) (.lit (.fin 2))) (.lit (.fin 3)))) := by
  have d4 : decimalVal ['4'] [] = 4 := by rw [decimal_digit]; rfl
  have d2 : decimalVal ['2'] [] = 2 := by rw [decimal_digit]; rfl
  have d3 : decimalVal ['3'] [] = 3 := by rw [decimal_digit]; rfl
  constructor
  · have h : parseTokens (lex "x[t+4/2*3]") = some (.timeShift "x" (.shift (.shiftMuldiv .div (.signedAtom .add (.num ['4'] []))
        (.rightMuldiv .mul (.num ['2'] []) (.num ['3'] []))))) := by decide +kernel
    unfold parseExpression
    rw [h]
    simp only [visitPT, d4, d2, d3]
    rfl
  · have h : parseTokens (lex "4/2*3") = some (.muldiv .mul (.muldiv .div (.num ['4'] []) (.num ['2'] [])) (.num ['3'] [])) := by
      decide +kernel
    unfold parseExpression
    rw [h]
    simp only [visitPT, d4, d2, d3]
    rfl

/-! ### Examples -/

/-- a text, its tokens and its reading -/
example : ∃ ts, Spells "x -2* y[t-1]".toList ts ∧ NoPostfix ts ∧
    Reads ⟨["x"], ["y"]⟩ .comparison ts ((Expr.var "x").subOp ((Expr.lit (.fin (decimal ['2'] []))).mulOp
      (.shift (.par "y") (Expr.lit (.fin (decimal ['1'] []))).negOp))) := by
  have letter : ∀ c, c ∈ ['x', 'y'] → Tok.isLetter c := by unfold Tok.isLetter; decide
  have digit : ∀ c, c ∈ ['1', '2'] → Tok.isDigit c := by unfold Tok.isDigit; decide
  have hid : ∀ n c, n ∉ keywords → n.toList = [c] → c ∈ ['x', 'y'] → (Tok.id n).Valid := fun n c h1 h2 h3 =>
    ⟨h1, c, [], h2, letter c h3, by simp⟩
  have hnum : ∀ c, c ∈ ['1', '2'] → (Tok.num [c] []).Valid := fun c h => ⟨by simp, by simpa using digit c h, by simp⟩
  have nword : ∀ c r, c ∈ [' ', '[', '-'] → ¬ ∃ d r', c :: r = d :: r' ∧ (Tok.isLetter d ∨ Tok.isDigit d) := by
    rintro c r h ⟨d, r', he, hd⟩
    cases he
    have : ∀ c ∈ [' ', '[', '-'], ¬ (Tok.isLetter c ∨ Tok.isDigit c) := by unfold Tok.isLetter Tok.isDigit; decide
    exact this c h hd
  have nnum : ∀ ip c r, c ∈ ['*', ']'] → ¬ Tok.Continues (.num ip []) (c :: r) := by
    rintro ip c r h (⟨d, r', he, hd⟩ | ⟨d, r', he, hd⟩)
    · cases he
      have : ∀ c ∈ ['*', ']'], ¬ Tok.isDigit c := by unfold Tok.isDigit; decide
      exact this c h hd
    · cases he
      revert h
      decide
  refine ⟨[.id "x", .minus, .num ['2'] [], .star, .id "y", .lbrack, .time, .minus, .num ['1'] [], .rbrack], ?_, ?_, ?_⟩
  · refine Spells.token (t := .id "x") (hid _ 'x' (by decide) rfl (by decide)) (nword ' ' _ (by decide)) ?_
    refine Spells.space (by decide) ?_
    refine Spells.token (t := .minus) trivial (fun h => h) ?_
    refine Spells.token (t := .num ['2'] []) (hnum _ (by decide)) (nnum _ _ _ (by decide)) ?_
    refine Spells.token (t := .star) trivial (fun h => h) ?_
    refine Spells.space (by decide) ?_
    refine Spells.token (t := .id "y") (hid _ 'y' (by decide) rfl (by decide)) (nword '[' _ (by decide)) ?_
    refine Spells.token (t := .lbrack) trivial (fun h => h) ?_
    refine Spells.token (t := .time) trivial (nword '-' _ (by decide)) ?_
    refine Spells.token (t := .minus) trivial (fun h => h) ?_
    refine Spells.token (t := .num ['1'] []) (hnum _ (by decide)) (nnum _ _ _ (by decide)) ?_
    refine Spells.token (t := .rbrack) trivial (fun h => h) ?_
    exact .nil
  · unfold NoPostfix
    decide
  · refine .ofSum (.sub (l := [_]) (.ofProduct (.ofUnary (.ofPrimary (.ofAtom (.identifier (.variable_ (by decide))))))) ?_)
    refine .mul (l := [_]) (.ofUnary (.ofPrimary (.ofAtom .number))) (.ofPrimary ?_)
    have h := Reads.timeShift (ids := ⟨["x"], ["y"]⟩) (.parameter (n := "y") (by decide) (by decide))
      (.later (.ofSigned (.negative (.factorAtom (.number (ip := ['1']) (fp := []))))))
    exact h

/-- an index after a parenthesis -/
example : parseExpression "(x+y)[t-1]" ⟨["x"], ["y"]⟩ = .ok .none := by
  have h : parseTokens (lex "(x+y)[t-1]") = some (.timeShiftExpr (.addsub .add (.ident "x") (.ident "y"))
      (.shift (.signedAtom .sub (.num ['1'] [])))) := by decide +kernel
  unfold parseExpression
  rw [h]
  rfl

/-- rejected texts: unknown names, unfinished expressions and unknown functions -/
example : parseExpression "x + z" ⟨["x"], ["y"]⟩ = .error .parseException ∧ parseExpression "x +" ⟨["x"], ["y"]⟩ = .error .parseException ∧
    parseExpression "log(x)" ⟨["x"], ["y"]⟩ = .error .parseException := ⟨rfl, rfl, rfl⟩

example : unrecognised '!' = true ∧ unrecognised '%' = true ∧ unrecognised '^' = true ∧ unrecognised 'é' = true := by decide

end Verif.Props
