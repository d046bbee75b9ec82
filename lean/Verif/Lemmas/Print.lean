import Verif.Spec.Print
import Verif.Lemmas.Lex
import Verif.Lemmas.Eval
import Verif.Lemmas.Meaning

/-! Helper lemmas on printed expressions: the tokens of their texts, and what the grammar reads. -/

namespace Verif

open Expr

mutual
/-- the tokens of the text of an expression -/
def printToks (str : Num → String) : Expr → List Tok
  | .lit v => lex (str v)
  | .neg e => .minus :: .lpar :: (printToks str e ++ [.rpar])
  | .add [] => []
  | .add (e :: es) => .lpar :: (printToks str e ++ operandToks str es ++ [.rpar])
  | .mul l r => .lpar :: (printToks str l ++ .star :: printToks str r ++ [.rpar])
  | .div l r => .lpar :: (printToks str l ++ .slash :: printToks str r ++ [.rpar])
  | .cmp l r .le => printToks str l ++ .cmp .le :: printToks str r
  | .cmp l r .ge => printToks str l ++ .cmp .ge :: printToks str r
  | .cmp l r .eq => printToks str l ++ .cmp .eq :: .cmp .eq :: printToks str r
  | .var n => [.id n]
  | .par n => [.id n]
  | .cvar c n => [.id c, .dot, .id n]
  | .cpar c n => [.id c, .dot, .id n]
  | .pvar c n _ _ => [.id c, .dot, .id n]
  | .ppar c n _ _ => [.id c, .dot, .id n]
  | .shift e k => .lpar :: (printToks str e ++ .dot :: .id "shift" :: .lpar :: printToks str k ++ [.rpar, .rpar])
  | .evalT e k => .lpar :: (printToks str e ++ .dot :: .id "eval" :: .lpar :: printToks str k ++ [.rpar, .rpar])
  | .tsum e a b => .lpar :: (printToks str e ++ .dot :: .id "time_sum" :: .lpar :: printToks str a ++ .comma :: printToks str b ++
      [.rpar, .rpar])
  | .allsum e => .lpar :: (printToks str e ++ [.dot, .id "time_sum", .lpar, .rpar, .rpar])
  | .scen e op => .lpar :: (printToks str e ++ [.dot, .id op.printed, .rpar])
  | .portField p f => [.id p, .dot, .id f]
  | .agg e a => .lpar :: (printToks str e ++ [.dot, .id a.printed, .rpar])
def operandToks (str : Num → String) : List Expr → List Tok
  | [] => []
  | .neg o :: es => .minus :: (printToks str o ++ operandToks str es)
  | e :: es => .plus :: (printToks str e ++ operandToks str es)
end

/-- a text that does not make a word or a number longer -/
def Ends (cs : List Char) : Prop := ∀ c r, cs = c :: r → ¬ Tok.isLetter c ∧ ¬ Tok.isDigit c ∧ (c = '.' → ∀ d r', r = d :: r' → ¬ Tok.isDigit d)

theorem ends_nil : Ends [] := fun _ _ h => by cases h

theorem ends_cons {c : Char} {cs : List Char} (h : isWordC c = false) (h' : c ≠ '.') : Ends (c :: cs) := by
  intro d r e
  cases e
  have := mt (isWord_iff c).1 (by simp [h])
  exact ⟨fun x => this (.inl x), fun x => this (.inr x), fun x => absurd x h'⟩

theorem ends_dot {c : Char} {cs : List Char} (h : isDigitC c = false) : Ends ('.' :: c :: cs) := by
  intro d r e
  cases e
  refine ⟨fun x => ?_, fun x => ?_, fun _ d r' e x => ?_⟩
  · rw [isLetter_iff] at x; revert x; decide
  · rw [isDigit_iff] at x; revert x; decide
  · cases e
    rw [isDigit_iff, h] at x
    cases x

theorem spells_sym {t : Tok} {c : Char} {cs : List Char} {ts : List Tok} (ht : t.text = [c]) (hv : t.Valid) (hc : ∀ cs, ¬ t.Continues cs)
    (h : Spells cs ts) : Spells (c :: cs) (t :: ts) := by
  have := Spells.token hv (hc cs) h
  rwa [ht] at this

theorem spells_lpar {cs ts} (h : Spells cs ts) : Spells ('(' :: cs) (.lpar :: ts) := spells_sym rfl trivial (fun _ x => x) h
theorem spells_rpar {cs ts} (h : Spells cs ts) : Spells (')' :: cs) (.rpar :: ts) := spells_sym rfl trivial (fun _ x => x) h
theorem spells_minus {cs ts} (h : Spells cs ts) : Spells ('-' :: cs) (.minus :: ts) := spells_sym rfl trivial (fun _ x => x) h
theorem spells_plus {cs ts} (h : Spells cs ts) : Spells ('+' :: cs) (.plus :: ts) := spells_sym rfl trivial (fun _ x => x) h
theorem spells_star {cs ts} (h : Spells cs ts) : Spells ('*' :: cs) (.star :: ts) := spells_sym rfl trivial (fun _ x => x) h
theorem spells_slash {cs ts} (h : Spells cs ts) : Spells ('/' :: cs) (.slash :: ts) := spells_sym rfl trivial (fun _ x => x) h
theorem spells_comma {cs ts} (h : Spells cs ts) : Spells (',' :: cs) (.comma :: ts) := spells_sym rfl trivial (fun _ x => x) h
theorem spells_eq {cs ts} (h : Spells cs ts) : Spells ('=' :: cs) (.cmp .eq :: ts) := spells_sym rfl trivial (fun _ x => x) h
theorem spells_le {cs ts} (h : Spells cs ts) : Spells ('<' :: '=' :: cs) (.cmp .le :: ts) := Spells.token (t := .cmp .le) trivial (fun x => x) h
theorem spells_ge {cs ts} (h : Spells cs ts) : Spells ('>' :: '=' :: cs) (.cmp .ge :: ts) := Spells.token (t := .cmp .ge) trivial (fun x => x) h
theorem spells_ws {cs ts} (h : Spells cs ts) : Spells (' ' :: cs) ts := .space (by simp) h

theorem spells_name {n : String} {cs ts} (hn : IsName n) (he : Ends cs) (h : Spells cs ts) : Spells (n.toList ++ cs) (.id n :: ts) := by
  refine Spells.token (t := .id n) hn ?_ h
  rintro ⟨c, r, e, hc⟩
  obtain ⟨h1, h2, -⟩ := he c r e
  exact hc.elim h1 h2

theorem spells_dot_name {n : String} {cs ts} (hn : IsName n) (he : Ends cs) (h : Spells cs ts) :
    Spells ('.' :: (n.toList ++ cs)) (.dot :: .id n :: ts) := by
  refine Spells.token (t := .dot) trivial ?_ (spells_name hn he h)
  rintro ⟨r, e⟩
  obtain ⟨-, c, ds, hn, hc, -⟩ := hn
  rw [hn] at e
  cases e
  rw [isLetter_iff] at hc
  revert hc
  decide

theorem ends_dot_name {n : String} {cs} (hn : IsName n) : Ends ('.' :: (n.toList ++ cs)) := by
  obtain ⟨-, c, ds, hn, hc, -⟩ := hn
  rw [hn]
  exact ends_dot (letter_not ((isLetter_iff c).1 hc)).2

theorem spells_digits {ip fp : List Char} {cs ts} (hv : (Tok.num ip fp).Valid) (he : Ends cs) (h : Spells cs ts) :
    Spells ((Tok.num ip fp).text ++ cs) (.num ip fp :: ts) := by
  refine Spells.token hv ?_ h
  cases fp with
  | nil =>
    rintro (⟨c, r, e, hc⟩ | ⟨c, r, e, hc⟩)
    · exact (he c r e).2.1 hc
    · exact (he _ _ e).2.2 rfl c r rfl hc
  | cons f fs =>
    rintro ⟨c, r, e, hc⟩
    exact (he c r e).2.1 hc

theorem plain_spells {text : String} {v : Num} (hp : PlainNumber text v) {cs ts} (he : Ends cs) (h : Spells cs ts) :
    Spells (text.toList ++ cs) (lex text ++ ts) := by
  obtain ⟨ip, fp, hv, ⟨ht, -⟩ | ⟨ht, -⟩⟩ := hp
  · have h0 := spells_digits hv ends_nil .nil
    rw [List.append_nil, ← ht] at h0
    rw [lex_spells h0, ht]
    exact spells_digits hv he h
  · have h0 := spells_minus (spells_digits hv ends_nil .nil)
    rw [List.append_nil, ← ht] at h0
    rw [lex_spells h0, ht]
    exact spells_minus (spells_digits hv he h)

theorem Written.sub {str : Num → String} {e x : Expr} (h : Written str e) (hx : ∀ y ∈ x.subs, y ∈ e.subs) : Written str x :=
  fun y hy => h y (hx y hy)

theorem isName_words : IsName "shift" ∧ IsName "eval" ∧ IsName "time_sum" ∧ (∀ op : ScenOp, IsName op.printed) ∧ ∀ a : PortAgg, IsName a.printed := by
  have key : ∀ n : String, n ∉ keywords → (∃ c cs, n.toList = c :: cs ∧ isCharC c = true ∧ ∀ d ∈ cs, isWordC d = true) → IsName n := by
    rintro n hk ⟨c, cs, h1, h2, h3⟩
    exact ⟨hk, c, cs, h1, (isLetter_iff c).2 h2, fun d hd => (isWord_iff d).2 (h3 d hd)⟩
  refine ⟨key _ (by decide) ⟨_, _, rfl, by decide, by decide⟩, key _ (by decide) ⟨_, _, rfl, by decide, by decide⟩,
    key _ (by decide) ⟨_, _, rfl, by decide, by decide⟩, ?_, ?_⟩
  · intro op
    cases op <;> exact key _ (by decide) ⟨_, _, rfl, by decide, by decide⟩
  · intro op
    cases op <;> exact key _ (by decide) ⟨_, _, rfl, by decide, by decide⟩

theorem toList_lits : "-(".toList = ['-', '('] ∧ "(".toList = ['('] ∧ ")".toList = [')'] ∧ " * ".toList = [' ', '*', ' '] ∧
    " / ".toList = [' ', '/', ' '] ∧ " ".toList = [' '] ∧ ".".toList = ['.'] ∧ ".shift(".toList = '.' :: ("shift".toList ++ ['(']) ∧
    "))".toList = [')', ')'] ∧ ".eval(".toList = '.' :: ("eval".toList ++ ['(']) ∧ ".time_sum(".toList = '.' :: ("time_sum".toList ++ ['(']) ∧
    ", ".toList = [',', ' '] ∧ ".time_sum())".toList = '.' :: ("time_sum".toList ++ ['(', ')', ')']) ∧ " - ".toList = [' ', '-', ' '] ∧
    " + ".toList = [' ', '+', ' '] ∧ "".toList = [] := by
  decide

theorem ends_operands (str : Num → String) (es : List Expr) {cs : List Char} (h : Ends cs) : Ends ((printOperands str es).toList ++ cs) := by
  obtain ⟨-, -, -, -, -, -, -, -, -, -, -, -, -, l1, l2, l3⟩ := toList_lits
  cases es with
  | nil => simpa [printOperands, l3] using h
  | cons e es =>
    cases e <;> simp only [printOperands, String.toList_append, l1, l2, List.cons_append, List.nil_append] <;>
      exact ends_cons (by decide) (by decide)

mutual
/-- the text of an expression is made of its tokens -/
theorem print_spells (str : Num → String) : ∀ e : Expr, Written str e → ∀ cs ts, Ends cs → Spells cs ts →
    Spells ((printExpr str e).toList ++ cs) (printToks str e ++ ts)
  | .lit v, hw, cs, ts, he, h => by
    rw [printExpr, printToks]
    exact plain_spells (hw _ (mem_subs_self _)) he h
  | .var n, hw, cs, ts, he, h => spells_name (hw _ (mem_subs_self _)) he h
  | .par n, hw, cs, ts, he, h => spells_name (hw _ (mem_subs_self _)) he h
  | .cvar c n, hw, cs, ts, he, h => by
    have hn := hw _ (mem_subs_self _)
    simp only [printExpr, printToks, String.toList_append, toList_lits, List.append_assoc, List.cons_append, List.nil_append]
    exact spells_name hn.1 (ends_dot_name hn.2) (spells_dot_name hn.2 he h)
  | .cpar c n, hw, cs, ts, he, h => by
    have hn := hw _ (mem_subs_self _)
    simp only [printExpr, printToks, String.toList_append, toList_lits, List.append_assoc, List.cons_append, List.nil_append]
    exact spells_name hn.1 (ends_dot_name hn.2) (spells_dot_name hn.2 he h)
  | .pvar c n _ _, hw, cs, ts, he, h => by
    have hn := hw _ (mem_subs_self _)
    simp only [printExpr, printToks, String.toList_append, toList_lits, List.append_assoc, List.cons_append, List.nil_append]
    exact spells_name hn.1 (ends_dot_name hn.2) (spells_dot_name hn.2 he h)
  | .ppar c n _ _, hw, cs, ts, he, h => by
    have hn := hw _ (mem_subs_self _)
    simp only [printExpr, printToks, String.toList_append, toList_lits, List.append_assoc, List.cons_append, List.nil_append]
    exact spells_name hn.1 (ends_dot_name hn.2) (spells_dot_name hn.2 he h)
  | .portField c n, hw, cs, ts, he, h => by
    have hn := hw _ (mem_subs_self _)
    simp only [printExpr, printToks, String.toList_append, toList_lits, List.append_assoc, List.cons_append, List.nil_append]
    exact spells_name hn.1 (ends_dot_name hn.2) (spells_dot_name hn.2 he h)
  | .neg e, hw, cs, ts, he, h => by
    simp only [printExpr, printToks, String.toList_append, toList_lits, List.append_assoc, List.cons_append, List.nil_append]
    exact spells_minus (spells_lpar (print_spells str e (hw.sub fun y hy => by simp [subs, hy]) _ _ (ends_cons (by decide) (by decide))
      (spells_rpar h)))
  | .add [], hw, cs, ts, he, h => by
    simp only [printExpr, printToks, toList_lits, List.nil_append]
    exact h
  | .add (e :: es), hw, cs, ts, he, h => by
    simp only [printExpr, printToks, String.toList_append, toList_lits, List.append_assoc, List.cons_append, List.nil_append]
    refine spells_lpar (print_spells str e (hw.sub fun y hy => by simp [subs, subsList, hy]) _ _ (ends_operands _ _ (ends_cons (by decide) (by decide))) ?_)
    exact operands_spells str es (fun x hx => hw.sub fun y hy => mem_subs_add.2 (.inr ⟨x, by simp [hx], hy⟩)) _ _
      (ends_cons (by decide) (by decide)) (spells_rpar h)
  | .mul l r, hw, cs, ts, he, h => by
    simp only [printExpr, printToks, String.toList_append, toList_lits, List.append_assoc, List.cons_append, List.nil_append]
    exact spells_lpar (print_spells str l (hw.sub fun y hy => by simp [subs, hy]) _ _ (ends_cons (by decide) (by decide))
      (spells_ws (spells_star (spells_ws (print_spells str r (hw.sub fun y hy => by simp [subs, hy]) _ _ (ends_cons (by decide) (by decide))
        (spells_rpar h))))))
  | .div l r, hw, cs, ts, he, h => by
    simp only [printExpr, printToks, String.toList_append, toList_lits, List.append_assoc, List.cons_append, List.nil_append]
    exact spells_lpar (print_spells str l (hw.sub fun y hy => by simp [subs, hy]) _ _ (ends_cons (by decide) (by decide))
      (spells_ws (spells_slash (spells_ws (print_spells str r (hw.sub fun y hy => by simp [subs, hy]) _ _ (ends_cons (by decide) (by decide))
        (spells_rpar h))))))
  | .cmp l r c, hw, cs, ts, he, h => by
    have hl := print_spells str l (hw.sub fun y hy => by simp [subs, hy])
    have hr := print_spells str r (hw.sub fun y hy => by simp [subs, hy]) _ _ he h
    have l1 : "<=".toList = ['<', '='] ∧ "==".toList = ['=', '='] ∧ ">=".toList = ['>', '='] := by decide
    cases c <;> simp only [printExpr, printToks, Cmp.printed, String.toList_append, toList_lits, l1, List.append_assoc, List.cons_append,
      List.nil_append] <;> refine hl _ _ (ends_cons (by decide) (by decide)) (spells_ws ?_)
    · exact spells_le (spells_ws hr)
    · exact spells_eq (spells_eq (spells_ws hr))
    · exact spells_ge (spells_ws hr)
  | .shift e k, hw, cs, ts, he, h => by
    simp only [printExpr, printToks, String.toList_append, toList_lits, List.append_assoc, List.cons_append, List.nil_append]
    refine spells_lpar (print_spells str e (hw.sub fun y hy => by simp [subs, hy]) _ _ (ends_dot_name isName_words.1) ?_)
    refine spells_dot_name isName_words.1 (ends_cons (by decide) (by decide)) (spells_lpar ?_)
    exact print_spells str k (hw.sub fun y hy => by simp [subs, hy]) _ _ (ends_cons (by decide) (by decide)) (spells_rpar (spells_rpar h))
  | .evalT e k, hw, cs, ts, he, h => by
    simp only [printExpr, printToks, String.toList_append, toList_lits, List.append_assoc, List.cons_append, List.nil_append]
    refine spells_lpar (print_spells str e (hw.sub fun y hy => by simp [subs, hy]) _ _ (ends_dot_name isName_words.2.1) ?_)
    refine spells_dot_name isName_words.2.1 (ends_cons (by decide) (by decide)) (spells_lpar ?_)
    exact print_spells str k (hw.sub fun y hy => by simp [subs, hy]) _ _ (ends_cons (by decide) (by decide)) (spells_rpar (spells_rpar h))
  | .tsum e a b, hw, cs, ts, he, h => by
    simp only [printExpr, printToks, String.toList_append, toList_lits, List.append_assoc, List.cons_append, List.nil_append]
    refine spells_lpar (print_spells str e (hw.sub fun y hy => by simp [subs, hy]) _ _ (ends_dot_name isName_words.2.2.1) ?_)
    refine spells_dot_name isName_words.2.2.1 (ends_cons (by decide) (by decide)) (spells_lpar ?_)
    refine print_spells str a (hw.sub fun y hy => by simp [subs, hy]) _ _ (ends_cons (by decide) (by decide)) (spells_comma (spells_ws ?_))
    exact print_spells str b (hw.sub fun y hy => by simp [subs, hy]) _ _ (ends_cons (by decide) (by decide)) (spells_rpar (spells_rpar h))
  | .allsum e, hw, cs, ts, he, h => by
    simp only [printExpr, printToks, String.toList_append, toList_lits, List.append_assoc, List.cons_append, List.nil_append]
    refine spells_lpar (print_spells str e (hw.sub fun y hy => by simp [subs, hy]) _ _ (ends_dot_name isName_words.2.2.1) ?_)
    exact spells_dot_name isName_words.2.2.1 (ends_cons (by decide) (by decide)) (spells_lpar (spells_rpar (spells_rpar h)))
  | .scen e op, hw, cs, ts, he, h => by
    simp only [printExpr, printToks, String.toList_append, toList_lits, List.append_assoc, List.cons_append, List.nil_append]
    refine spells_lpar (print_spells str e (hw.sub fun y hy => by simp [subs, hy]) _ _ (ends_dot_name (isName_words.2.2.2.1 op)) ?_)
    exact spells_dot_name (isName_words.2.2.2.1 op) (ends_cons (by decide) (by decide)) (spells_rpar h)
  | .agg e a, hw, cs, ts, he, h => by
    simp only [printExpr, printToks, String.toList_append, toList_lits, List.append_assoc, List.cons_append, List.nil_append]
    refine spells_lpar (print_spells str e (hw.sub fun y hy => by simp [subs, hy]) _ _ (ends_dot_name (isName_words.2.2.2.2 a)) ?_)
    exact spells_dot_name (isName_words.2.2.2.2 a) (ends_cons (by decide) (by decide)) (spells_rpar h)
theorem operands_spells (str : Num → String) : ∀ es : List Expr, (∀ e ∈ es, Written str e) → ∀ cs ts, Ends cs → Spells cs ts →
    Spells ((printOperands str es).toList ++ cs) (operandToks str es ++ ts)
  | [], _, cs, ts, _, h => by simpa [printOperands, operandToks, toList_lits] using h
  | e :: es, hw, cs, ts, he, h => by
    have hes := operands_spells str es (fun x hx => hw x (by simp [hx])) cs ts he h
    have hend := ends_operands str es he
    cases e
    case neg o =>
      simp only [printOperands, operandToks, String.toList_append, toList_lits, List.append_assoc, List.cons_append, List.nil_append]
      exact spells_ws (spells_minus (spells_ws (print_spells str o ((hw (.neg o) (by simp)).sub fun y hy => by simp [subs, hy]) _ _ hend hes)))
    all_goals
      simp only [printOperands, operandToks, String.toList_append, toList_lits, List.append_assoc, List.cons_append, List.nil_append]
      exact spells_ws (spells_plus (spells_ws (print_spells str _ (hw _ (by simp)) _ _ hend hes)))
end

/-! ## What the grammar reads -/

/-- what is read has the value of the expression, and is not an empty sum -/
def PrintedAs (a b : Expr) : Prop := SameValue a b ∧ a ≠ .add []

theorem Arithmetic.sub {ids : Identifiers} {e x : Expr} (h : Arithmetic ids e) (hx : ∀ y ∈ x.subs, y ∈ e.subs) : Arithmetic ids x :=
  fun y hy => h y (hx y hy)

theorem plain_reads {ids : Identifiers} {text : String} {v : Num} (hp : PlainNumber text v) :
    ∃ e, Reads ids .unary (lex text) e ∧ PrintedAs e (.lit v) := by
  obtain ⟨ip, fp, hv, ⟨ht, rfl⟩ | ⟨ht, rfl⟩⟩ := hp
  · have h0 := spells_digits hv ends_nil .nil
    rw [List.append_nil, ← ht] at h0
    rw [lex_spells h0]
    exact ⟨_, .ofPrimary (.ofAtom .number), ⟨fun _ => rfl, fun _ _ _ => rfl⟩, by simp⟩
  · have h0 := spells_minus (spells_digits hv ends_nil .nil)
    rw [List.append_nil, ← ht] at h0
    rw [lex_spells h0]
    refine ⟨_, .neg (.ofPrimary (.ofAtom .number)), ⟨fun _ => ?_, fun _ _ _ => ?_⟩, by simp [negOp]⟩
    · simp [negOp, evaluate, ok_bind]
    · simp [negOp, mden]

/-- one more operand -/
theorem PrintedAs.plus {a b x y : Expr} (h : PrintedAs a x) (h' : PrintedAs b y) :
    (∀ p, evaluate p (a.addOp b) = (do let u ← evaluate p x; let w ← evaluate p y; .ok (u + w))) ∧
    (∀ M t s, mden M (a.addOp b) t s = mden M x t s + mden M y t s) ∧ a.addOp b ≠ .add [] := by
  refine ⟨fun p => ?_, fun M t s => ?_, addOp_ne_nil h.2⟩
  · rw [evaluate_addOp p h.2 h'.2, h.1.1 p, h'.1.1 p]
  · rw [mden_addOp, h.1.2, h'.1.2]

theorem PrintedAs.minus {a b x y : Expr} (h : PrintedAs a x) (h' : PrintedAs b y) :
    (∀ p, evaluate p (a.subOp b) = (do let u ← evaluate p x; let w ← evaluate p y; .ok (u - w))) ∧
    (∀ M t s, mden M (a.subOp b) t s = mden M x t s - mden M y t s) ∧ a.subOp b ≠ .add [] := by
  refine ⟨fun p => ?_, fun M t s => ?_, ?_⟩
  · rw [evaluate_subOp p h.2 h'.2, h.1.1 p, h'.1.1 p]
  · rw [mden_subOp, h.1.2, h'.1.2]
  · intro he
    have := operands_ne_nil h.2
    simp [Expr.subOp] at he
    exact this he.1

theorem evaluate_snoc (p : ValueProvider) (e : Expr) (es : List Expr) (x : Expr) :
    evaluate p (.add (e :: (es ++ [x]))) = (do let u ← evaluate p (.add (e :: es)); let w ← evaluate p x; .ok (u + w)) := by
  rw [evaluate_operands p (by simp), evaluate_operands p (e := .add (e :: es)) (by simp)]
  simp only [operands_add, ← List.cons_append, appendAll_append, appendAll_cons, appendAll_nil, bind_assoc', ok_bind, List.sum_append, List.sum_cons,
    List.sum_nil, add_zero]

theorem mden_snoc (M : MCtx) (e : Expr) (es : List Expr) (x : Expr) (t s : Int) :
    mden M (.add (e :: (es ++ [x]))) t s = mden M (.add (e :: es)) t s + mden M x t s := by
  rw [mden_add, mden_add, ← List.cons_append, List.map_append, List.sum_append]
  simp

/-- the operands that follow are added to what was read -/
theorem operands_read {ids : Identifiers} {str : Num → String} (e : Expr) :
    ∀ (es : List Expr), (∀ x ∈ es, (∃ y, Reads ids .unary (printToks str x) y ∧ PrintedAs y x) ∧
      ∀ o, x = .neg o → ∃ y, Reads ids .unary (printToks str o) y ∧ PrintedAs y o) →
    ∀ (done : List Expr) (ts : List Tok) (a : Expr), Reads ids .sum ts a → PrintedAs a (.add (e :: done)) →
      ∃ r, Reads ids .sum (ts ++ operandToks str es) r ∧ PrintedAs r (.add (e :: (done ++ es))) := by
  intro es
  induction es with
  | nil =>
    intro _ done ts a h1 h2
    exact ⟨a, by simpa [operandToks] using h1, by simpa using h2⟩
  | cons x es ih =>
    intro hx done ts a h1 h2
    obtain ⟨hx0, hneg⟩ := hx x (by simp)
    have hrest := ih fun y hy => hx y (by simp [hy])
    have hstep : ∃ ts' b, Reads ids .sum (ts ++ ts') b ∧ PrintedAs b (.add (e :: (done ++ [x]))) ∧
        operandToks str (x :: es) = ts' ++ operandToks str es := by
      by_cases hn : ∃ o, x = .neg o
      · obtain ⟨o, rfl⟩ := hn
        obtain ⟨y, hy, hyo⟩ := hneg o rfl
        obtain ⟨e1, e2, e3⟩ := h2.minus hyo
        refine ⟨.minus :: printToks str o, a.subOp y, .sub h1 (.ofUnary hy), ⟨⟨fun p => ?_, fun M t s => ?_⟩, e3⟩, ?_⟩
        · rw [e1, evaluate_snoc]
          simp only [evaluate, bind_assoc', ok_bind, Num.sub_eq]
        · rw [e2, mden_snoc, mden, sub_eq_add_neg]
        · simp [operandToks]
      · obtain ⟨y, hy, hyo⟩ := hx0
        obtain ⟨e1, e2, e3⟩ := h2.plus hyo
        refine ⟨.plus :: printToks str x, a.addOp y, .add h1 (.ofUnary hy), ⟨⟨fun p => ?_, fun M t s => ?_⟩, e3⟩, ?_⟩
        · rw [e1, evaluate_snoc]
        · rw [e2, mden_snoc]
        · cases x
          case neg o => exact absurd ⟨o, rfl⟩ hn
          all_goals simp [operandToks]
    obtain ⟨ts', b, hb1, hb2, hb3⟩ := hstep
    obtain ⟨r, hr1, hr2⟩ := hrest (done ++ [x]) (ts ++ ts') b hb1 hb2
    refine ⟨r, ?_, ?_⟩
    · rw [hb3, ← List.append_assoc]
      exact hr1
    · simpa using hr2

theorem Reads.enclosed {ids : Identifiers} {ts : List Tok} {e : Expr} (h : Reads ids .sum ts e) : Reads ids .unary (.lpar :: (ts ++ [.rpar])) e :=
  .ofPrimary (.paren (.ofSum h))

mutual
/-- the grammar reads the text of an arithmetic expression as an expression of the same value -/
theorem print_reads {ids : Identifiers} (str : Num → String) : ∀ e : Expr, Written str e → Arithmetic ids e →
    ∃ r, Reads ids .unary (printToks str e) r ∧ PrintedAs r e
  | .lit v, hw, _ => by rw [printToks]; exact plain_reads (hw _ (mem_subs_self _))
  | .var n, _, ha => ⟨.var n, .ofPrimary (.ofAtom (.identifier (.variable_ (ha _ (mem_subs_self _))))), ⟨fun _ => rfl, fun _ _ _ => rfl⟩, by simp⟩
  | .par n, _, ha =>
    have hn : n ∉ ids.variables_ ∧ n ∈ ids.parameters := ha _ (mem_subs_self _)
    ⟨.par n, .ofPrimary (.ofAtom (.identifier (.parameter hn.1 hn.2))), ⟨fun _ => rfl, fun _ _ _ => rfl⟩, by simp⟩
  | .portField p f, _, _ => ⟨.portField p f, .ofPrimary .portField, ⟨fun _ => rfl, fun _ _ _ => rfl⟩, by simp⟩
  | .neg e, hw, ha => by
    obtain ⟨r, hr, hv⟩ := print_reads str e (hw.sub fun y hy => by simp [subs, hy]) (ha.sub fun y hy => by simp [subs, hy])
    refine ⟨r.negOp, ?_, ⟨fun p => ?_, fun M t s => ?_⟩, by simp [negOp]⟩
    · rw [printToks]
      exact .neg (Reads.enclosed (.ofProduct (.ofUnary hr)))
    · simp only [negOp, evaluate, hv.1.1 p]
    · simp only [negOp, mden, hv.1.2]
  | .mul a b, hw, ha => by
    obtain ⟨r, hr, hv⟩ := print_reads str a (hw.sub fun y hy => by simp [subs, hy]) (ha.sub fun y hy => by simp [subs, hy])
    obtain ⟨r', hr', hv'⟩ := print_reads str b (hw.sub fun y hy => by simp [subs, hy]) (ha.sub fun y hy => by simp [subs, hy])
    refine ⟨r.mulOp r', ?_, ⟨fun p => ?_, fun M t s => ?_⟩, by simp [mulOp]⟩
    · rw [printToks]
      exact Reads.enclosed (.ofProduct (.mul (.ofUnary hr) hr'))
    · simp only [mulOp, evaluate, hv.1.1 p, hv'.1.1 p]
    · simp only [mulOp, mden, hv.1.2, hv'.1.2]
  | .div a b, hw, ha => by
    obtain ⟨r, hr, hv⟩ := print_reads str a (hw.sub fun y hy => by simp [subs, hy]) (ha.sub fun y hy => by simp [subs, hy])
    obtain ⟨r', hr', hv'⟩ := print_reads str b (hw.sub fun y hy => by simp [subs, hy]) (ha.sub fun y hy => by simp [subs, hy])
    refine ⟨r.divOp r', ?_, ⟨fun p => ?_, fun M t s => ?_⟩, by simp [divOp]⟩
    · rw [printToks]
      exact Reads.enclosed (.ofProduct (.div (.ofUnary hr) hr'))
    · simp only [divOp, evaluate, hv.1.1 p, hv'.1.1 p]
    · simp only [divOp, mden, hv.1.2, hv'.1.2]
  | .add [], _, ha => absurd rfl (ha _ (mem_subs_self _))
  | .add (e :: es), hw, ha => by
    obtain ⟨r, hr, hv⟩ := print_reads str e (hw.sub fun y hy => by simp [subs, subsList, hy]) (ha.sub fun y hy => by simp [subs, subsList, hy])
    have hes := operands_reads str es (fun x hx => hw.sub fun y hy => mem_subs_add.2 (.inr ⟨x, by simp [hx], hy⟩))
      (fun x hx => ha.sub fun y hy => mem_subs_add.2 (.inr ⟨x, by simp [hx], hy⟩))
    have h1 : PrintedAs r (.add (e :: [])) := by
      refine ⟨⟨fun p => ?_, fun M t s => ?_⟩, hv.2⟩
      · rw [hv.1.1, evaluate_operands p (e := .add [e]) (by simp)]
        simp only [operands_add, appendAll_cons, appendAll_nil, bind_assoc', ok_bind, List.sum_cons, List.sum_nil, add_zero]
        cases evaluate p e <;> rfl
      · rw [hv.1.2, mden_add]
        simp
    obtain ⟨q, hq, hqv⟩ := operands_read e es hes [] _ r (.ofProduct (.ofUnary hr)) h1
    refine ⟨q, ?_, by simpa using hqv⟩
    rw [printToks]
    exact Reads.enclosed hq
  | .cvar .., _, ha => absurd (ha _ (mem_subs_self _)) (fun h => h)
  | .cpar .., _, ha => absurd (ha _ (mem_subs_self _)) (fun h => h)
  | .pvar .., _, ha => absurd (ha _ (mem_subs_self _)) (fun h => h)
  | .ppar .., _, ha => absurd (ha _ (mem_subs_self _)) (fun h => h)
  | .cmp .., _, ha => absurd (ha _ (mem_subs_self _)) (fun h => h)
  | .shift .., _, ha => absurd (ha _ (mem_subs_self _)) (fun h => h)
  | .evalT .., _, ha => absurd (ha _ (mem_subs_self _)) (fun h => h)
  | .tsum .., _, ha => absurd (ha _ (mem_subs_self _)) (fun h => h)
  | .allsum _, _, ha => absurd (ha _ (mem_subs_self _)) (fun h => h)
  | .scen .., _, ha => absurd (ha _ (mem_subs_self _)) (fun h => h)
  | .agg .., _, ha => absurd (ha _ (mem_subs_self _)) (fun h => h)
theorem operands_reads {ids : Identifiers} (str : Num → String) : ∀ es : List Expr, (∀ x ∈ es, Written str x) → (∀ x ∈ es, Arithmetic ids x) →
    ∀ x ∈ es, (∃ y, Reads ids .unary (printToks str x) y ∧ PrintedAs y x) ∧
      ∀ o, x = .neg o → ∃ y, Reads ids .unary (printToks str o) y ∧ PrintedAs y o
  | [], _, _ => fun x hx => by cases hx
  | e :: es, hw, ha => by
    intro x hx
    rcases List.mem_cons.1 hx with h | h
    · rw [h]
      refine ⟨print_reads str e (hw _ (by simp)) (ha _ (by simp)), ?_⟩
      match e, hw e (by simp), ha e (by simp) with
      | .neg o, hw', ha' =>
        intro o' ho
        cases ho
        exact print_reads str o (hw'.sub fun y hy => by simp [subs, hy]) (ha'.sub fun y hy => by simp [subs, hy])
      | .lit _, _, _ | .var _, _, _ | .par _, _, _ | .cvar .., _, _ | .cpar .., _, _ | .pvar .., _, _ | .ppar .., _, _ | .portField .., _, _
      | .add _, _, _ | .mul .., _, _ | .div .., _, _ | .cmp .., _, _ | .shift .., _, _ | .evalT .., _, _ | .tsum .., _, _ | .allsum _, _, _
      | .scen .., _, _ | .agg .., _, _ => intro o ho; cases ho
    · exact operands_reads str es (fun y hy => hw y (by simp [hy])) (fun y hy => ha y (by simp [hy])) x h
end

end Verif
