import Verif.Lemmas.PrintBad
import Verif.Props.Parsing

/-!
# C68: printed expressions

The full statement would be: the text of an expression, read again as an expression, has the value of the expression, and expressions with
the same text have the same value.  `c68_print_partial` and `c68_comparison_partial` prove it for arithmetic and inequalities;
`c68_unreadable`, `c68_scenario_misread`, `c68_component_misread` and `c68_sum_connections` say what happens otherwise, and `c68_small_number`
and `c68_empty_sum` why numbers have to be plain and sums not empty.
-/

namespace Verif.Props

open Verif Expr

theorem print_tokens {str : Num → String} {e : Expr} (hw : Written str e) : Spells (printExpr str e).toList (printToks str e) := by
  have := print_spells str e hw [] [] ends_nil .nil
  simpa using this

/-- **C68 (partial).** The text of an arithmetic expression, read again, is an expression of the same value, whatever the values of the
names.  Numbers and names have to be plain.  Missing: time operators, scenario operators, sums over connections, names of components and
equalities. -/
theorem c68_print_partial (str : Num → String) (ids : Identifiers) (e : Expr) (hw : Written str e) (ha : Arithmetic ids e) :
    ∃ e', parseExpression (printExpr str e) ids = .ok (.node e') ∧ SameValue e' e := by
  obtain ⟨r, hr, hv⟩ := print_reads str e hw ha
  exact ⟨r, ((c43_parse_partial (print_tokens hw) (print_noPostfix hw) ids).1 r).2 (.ofSum (.ofProduct (.ofUnary hr))), hv.1⟩

/-- **C68 (partial), comparisons.** The text of `a <= b` or `a >= b` reads as the same comparison of expressions of the same values. -/
theorem c68_comparison_partial (str : Num → String) (ids : Identifiers) (a b : Expr) (c : Cmp) (hc : c ≠ .eq) (hwa : Written str a)
    (hwb : Written str b) (ha : Arithmetic ids a) (hb : Arithmetic ids b) :
    ∃ a' b', parseExpression (printExpr str (.cmp a b c)) ids = .ok (.node (.cmp a' b' c)) ∧ SameValue a' a ∧ SameValue b' b := by
  have hw : Written str (.cmp a b c) := by
    intro x hx
    simp only [subs, List.mem_cons, List.mem_append] at hx
    rcases hx with rfl | hx | hx
    · trivial
    · exact hwa x hx
    · exact hwb x hx
  obtain ⟨r, hr, hv⟩ := print_reads str a hwa ha
  obtain ⟨r', hr', hv'⟩ := print_reads str b hwb hb
  refine ⟨r, r', ((c43_parse_partial (print_tokens hw) (print_noPostfix hw) ids).1 _).2 ?_, hv.1, hv'.1⟩
  have ht : printToks str (.cmp a b c) = printToks str a ++ .cmp c :: printToks str b := by
    cases c
    case eq => exact absurd rfl hc
    all_goals rw [printToks]
  rw [ht]
  exact .compare (.ofSum (.ofProduct (.ofUnary hr))) (.ofProduct (.ofUnary hr'))

/-- **C68.** Arithmetic expressions with the same text have the same value. -/
theorem c68_determined (str : Num → String) (ids : Identifiers) (a b : Expr) (hwa : Written str a) (hwb : Written str b)
    (ha : Arithmetic ids a) (hb : Arithmetic ids b) (h : printExpr str a = printExpr str b) : SameValue a b := by
  obtain ⟨x, hx, h1⟩ := c68_print_partial str ids a hwa ha
  obtain ⟨y, hy, h2⟩ := c68_print_partial str ids b hwb hb
  rw [h, hy] at hx
  cases hx
  exact ⟨fun p => (h1.1 p).symm.trans (h2.1 p), fun M t s => (h1.2 M t s).symm.trans (h2.2 M t s)⟩

/-! ### Where it fails -/

/-- **C68** is violated for time operators and equalities: the text of an expression that contains one, at any depth, is refused, whatever
names are known. -/
theorem c68_unreadable (str : Num → String) (ids : Identifiers) (e : Expr) (hw : Written str e) (x : Expr) (hx : x ∈ e.subs)
    (ht : TimeOrEquality x) : parseExpression (printExpr str e) ids = .error .parseException := by
  refine (c43_parse_partial (print_tokens hw) (print_noPostfix hw) ids).2 ?_
  rintro ⟨r, hr⟩
  exact (print_bad str e x hx ht).not_read hr

/-- **C68** is violated for scenario operators: the text of the expectation or of the variance of a variable or parameter reads as a field
of a port. -/
theorem c68_scenario_misread (str : Num → String) (ids : Identifiers) (n : String) (hn : IsName n) (op : ScenOp) :
    let word := match op with | .expectation => "Expectation" | .variance => "Variance" | .base => "ScenarioOperator"
    parseExpression (printExpr str (.scen (.var n) op)) ids = .ok (.node (.portField n word)) ∧
    parseExpression (printExpr str (.scen (.par n) op)) ids = .ok (.node (.portField n word)) := by
  intro word
  have hword : word = op.printed := by cases op <;> rfl
  rw [hword]
  have hw : ∀ y, y = .var n ∨ y = .par n → Written str (.scen y op) := by
    rintro y (rfl | rfl) x hx <;> simp only [subs, List.mem_cons, List.not_mem_nil, or_false] at hx <;> rcases hx with rfl | rfl <;>
      first | exact hn | trivial
  have hr : Reads ids .comparison [.lpar, .id n, .dot, .id op.printed, .rpar] (.portField n op.printed) :=
    .ofSum (.ofProduct (.ofUnary (.ofPrimary (.paren (.ofSum (.ofProduct (.ofUnary (.ofPrimary .portField))))))))
  exact ⟨((c43_parse_partial (print_tokens (hw _ (.inl rfl))) (print_noPostfix (hw _ (.inl rfl))) ids).1 _).2 hr,
    ((c43_parse_partial (print_tokens (hw _ (.inr rfl))) (print_noPostfix (hw _ (.inr rfl))) ids).1 _).2 hr⟩

/-- **C68** is violated for variables and parameters of components, which have the text of a field of a port and read as one. -/
theorem c68_component_misread (str : Num → String) (ids : Identifiers) (c n : String) (hc : IsName c) (hn : IsName n) (e : Expr)
    (he : e = .cvar c n ∨ e = .cpar c n ∨ ∃ ti si, e = .pvar c n ti si ∨ e = .ppar c n ti si) :
    printExpr str e = printExpr str (.portField c n) ∧ parseExpression (printExpr str e) ids = .ok (.node (.portField c n)) := by
  have hw : Written str (.portField c n) := by
    intro x hx
    simp only [subs, List.mem_cons, List.not_mem_nil, or_false] at hx
    subst hx
    exact ⟨hc, hn⟩
  have ht : printExpr str e = printExpr str (.portField c n) := by
    rcases he with rfl | rfl | ⟨ti, si, rfl | rfl⟩ <;> rfl
  refine ⟨ht, ?_⟩
  rw [ht]
  exact ((c43_parse_partial (print_tokens hw) (print_noPostfix hw) ids).1 _).2 (.ofSum (.ofProduct (.ofUnary (.ofPrimary .portField))))

/-- **C68** is violated for sums over connections: the text is refused. -/
theorem c68_sum_connections (str : Num → String) (ids : Identifiers) (p f : String) (hp : IsName p) (hf : IsName f) (a : PortAgg) :
    parseExpression (printExpr str (.agg (.portField p f) a)) ids = .error .parseException := by
  have hw : Written str (.agg (.portField p f) a) := by
    intro x hx
    simp only [subs, List.mem_cons, List.not_mem_nil, or_false] at hx
    rcases hx with rfl | rfl
    · trivial
    · exact ⟨hp, hf⟩
  have hl : lex (printExpr str (.agg (.portField p f) a)) = [.lpar, .id p, .dot, .id f, .dot, .id a.printed, .rpar] :=
    lex_spells (print_tokens hw)
  unfold parseExpression
  rw [hl]
  rfl

/-- **C68** is violated for the empty sum, whose text is empty. -/
theorem c68_empty_sum (str : Num → String) (ids : Identifiers) : parseExpression (printExpr str (.add [])) ids = .error .parseException := rfl

/-- **C68** is violated for numbers that Python writes with an exponent, like `1e-05`, and for infinity, which reads as a name. -/
theorem c68_small_number (str : Num → String) (ids : Identifiers) (h1 : str (.fin (1 / 100000)) = "1e-05") (h2 : str .pinf = "inf") :
    parseExpression (printExpr str (.lit (.fin (1 / 100000)))) ids = .error .parseException ∧
    ("inf" ∉ ids.variables_ → "inf" ∉ ids.parameters → parseExpression (printExpr str (.lit .pinf)) ids = .error .parseException) ∧
    ("inf" ∈ ids.variables_ → parseExpression (printExpr str (.lit .pinf)) ids = .ok (.node (.var "inf"))) := by
  rw [printExpr, printExpr, h1, h2]
  refine ⟨rfl, fun hv hp => ?_, fun hv => ?_⟩
  · have : parseTokens (lex "inf") = some (.ident "inf") := by decide +kernel
    simp only [parseExpression, this, visitPT, convertIdentifier, hv, hp, if_false]
    rfl
  · have : parseTokens (lex "inf") = some (.ident "inf") := by decide +kernel
    simp only [parseExpression, this, visitPT, convertIdentifier, hv, if_true]
    rfl

/-! ### Examples -/

/-- the texts of some numbers -/
def demoStr (v : Num) : String :=
  if v = .fin 5 then "5.0" else if v = .fin (-3) then "-3.0" else if v = .fin (1 / 4) then "0.25" else "nan"

/-- `5 * x + p * -3 - (q - 0.25) / x` -/
def demoPrinted : Expr :=
  .add [.mul (.lit (.fin 5)) (.var "x"), .mul (.par "p") (.lit (.fin (-3))),
    .neg (.div (.add [.portField "q" "f", .neg (.lit (.fin (1 / 4)))]) (.var "x"))]

example : printExpr demoStr demoPrinted = "((5.0 * x) + (p * -3.0) - ((q.f - 0.25) / x))" := by decide +kernel

theorem demo_plain_numbers : PlainNumber (demoStr (.fin 5)) (.fin 5) ∧ PlainNumber (demoStr (.fin (-3))) (.fin (-3)) ∧
    PlainNumber (demoStr (.fin (1 / 4))) (.fin (1 / 4)) := by
  have d : ∀ c ∈ "0123456789".toList, Tok.isDigit c := fun c h => h
  refine ⟨⟨['5'], ['0'], ⟨by simp, ?_, ?_⟩, .inl ⟨by decide +kernel, ?_⟩⟩, ⟨['3'], ['0'], ⟨by simp, ?_, ?_⟩, .inr ⟨by decide +kernel, ?_⟩⟩,
    ⟨['0'], ['2', '5'], ⟨by simp, ?_, ?_⟩, .inl ⟨by decide +kernel, ?_⟩⟩⟩
  all_goals first
    | (intro c hc; exact d c (by revert c; decide))
    | (simp [decimal, Nat.ofDigits]; norm_num)

theorem demo_name (n : String) (h : n ∈ ["x", "p", "q", "f"]) : IsName n := by
  have l : ∀ c ∈ "xpqf".toList, Tok.isLetter c := by unfold Tok.isLetter; decide
  simp only [List.mem_cons, List.not_mem_nil, or_false] at h
  rcases h with rfl | rfl | rfl | rfl <;> exact ⟨by decide, _, [], rfl, l _ (by decide), by simp⟩

theorem demoPrinted_ok : Written demoStr demoPrinted ∧ Arithmetic ⟨["x"], ["p"]⟩ demoPrinted := by
  obtain ⟨h1, h2, h3⟩ := demo_plain_numbers
  constructor <;> intro x hx <;>
    simp only [demoPrinted, subs, subsList, List.mem_cons, List.mem_append, List.not_mem_nil, or_false, false_or] at hx <;>
    casesm* _ ∨ _ <;> subst_vars <;>
    first
      | trivial
      | exact h1
      | exact h2
      | exact h3
      | exact demo_name _ (by simp)
      | exact ⟨demo_name _ (by simp), demo_name _ (by simp)⟩
      | (simp [ArithmeticNode]; done)

example : ∃ e', parseExpression "((5.0 * x) + (p * -3.0) - ((q.f - 0.25) / x))" ⟨["x"], ["p"]⟩ = .ok (.node e') ∧ SameValue e' demoPrinted := by
  have := c68_print_partial demoStr ⟨["x"], ["p"]⟩ demoPrinted demoPrinted_ok.1 demoPrinted_ok.2
  have h : printExpr demoStr demoPrinted = "((5.0 * x) + (p * -3.0) - ((q.f - 0.25) / x))" := by decide +kernel
  rwa [h] at this

/-- a time operator below a sum -/
example : parseExpression "(x + (x.shift(5.0)))" ⟨["x"], ["p"]⟩ = .error .parseException := by
  have hw : Written demoStr (.add [.var "x", .shift (.var "x") (.lit (.fin 5))]) := by
    intro x hx
    simp only [subs, subsList, List.mem_cons, List.mem_append, List.not_mem_nil, or_false, false_or] at hx
    casesm* _ ∨ _ <;> subst_vars <;> first | trivial | exact demo_plain_numbers.1 | exact demo_name _ (by simp)
  have := c68_unreadable demoStr ⟨["x"], ["p"]⟩ _ hw (.shift (.var "x") (.lit (.fin 5))) (by simp [subs, subsList]) trivial
  have h : printExpr demoStr (.add [.var "x", .shift (.var "x") (.lit (.fin 5))]) = "(x + (x.shift(5.0)))" := by decide +kernel
  rwa [h] at this

end Verif.Props
