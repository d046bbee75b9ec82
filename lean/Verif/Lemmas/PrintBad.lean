import Verif.Lemmas.Print

/-! Helper lemmas: tokens that never follow each other in what the grammar reads. -/

namespace Verif

open Expr

/-- the second token may follow the first one -/
def Adj : Tok → Tok → Prop
  | .cmp _, .cmp _ => False
  | .id n, .lpar => n = "expec"
  | .rpar, .dot => False
  | .num _ _, .dot => False
  | _, _ => True

def isCmpTok : Tok → Bool
  | .cmp _ => true
  | _ => false

/-- what is read starts and ends with tokens that are not comparisons, and tokens may follow each other -/
def WellRead (ts : List Tok) : Prop :=
  List.IsChain Adj ts ∧ (∀ x ∈ ts.head?, isCmpTok x = false) ∧ (∀ x ∈ ts.getLast?, isCmpTok x = false)

theorem adj_right {a b : Tok} (hb : ∀ c, b ≠ .cmp c) (hb' : b ≠ .lpar) (hb'' : b ≠ .dot) : Adj a b := by
  cases a <;> cases b <;> simp_all [Adj]

theorem adj_left {a b : Tok} (ha : ∀ c, a ≠ .cmp c) (ha' : ∀ n, a ≠ .id n) (ha'' : a ≠ .rpar) (ha3 : ∀ x y, a ≠ .num x y) : Adj a b := by
  cases a <;> cases b <;> simp_all [Adj]

theorem adj_cmp {a : Tok} {c : Cmp} (h : isCmpTok a = false) : Adj a (.cmp c) := by
  cases a <;> simp_all [Adj, isCmpTok]

theorem cmp_adj {a : Tok} {c : Cmp} (h : isCmpTok a = false) : Adj (.cmp c) a := by
  cases a <;> simp_all [Adj, isCmpTok]

/-- an operator between two parts -/
theorem WellRead.op {l r : List Tok} {o : Tok} (hl : WellRead l) (hr : WellRead r) (h1 : ∀ x, isCmpTok x = false → Adj x o)
    (h2 : ∀ x, isCmpTok x = false → Adj o x) (h3 : l ≠ []) (h4 : r ≠ []) : WellRead (l ++ o :: r) := by
  refine ⟨List.isChain_append.2 ⟨hl.1, ?_, ?_⟩, ?_, ?_⟩
  · rw [List.isChain_cons]
    exact ⟨fun y hy => h2 y (hr.2.1 y hy), hr.1⟩
  · intro x hx y hy
    simp only [List.head?_cons, Option.mem_def, Option.some.injEq] at hy
    subst hy
    exact h1 x (hl.2.2 x hx)
  · intro x hx
    rw [List.head?_append_of_ne_nil _ h3] at hx
    exact hl.2.1 x hx
  · intro x hx
    rw [List.getLast?_append_of_ne_nil _ (by simp), List.getLast?_cons_of_ne_nil h4] at hx
    exact hr.2.2 x hx

/-- a token before -/
theorem WellRead.before {o : Tok} {r : List Tok} (hr : WellRead r) (ho : isCmpTok o = false) (h2 : ∀ x, isCmpTok x = false → Adj o x)
    (h4 : r ≠ []) : WellRead (o :: r) := by
  refine ⟨?_, ?_, ?_⟩
  · rw [List.isChain_cons]
    exact ⟨fun y hy => h2 y (hr.2.1 y hy), hr.1⟩
  · simp [ho]
  · intro x hx
    rw [List.getLast?_cons_of_ne_nil h4] at hx
    exact hr.2.2 x hx

/-- a token after -/
theorem WellRead.after {o : Tok} {l : List Tok} (hl : WellRead l) (ho : isCmpTok o = false) (h2 : ∀ x, isCmpTok x = false → Adj x o)
    (h4 : l ≠ []) : WellRead (l ++ [o]) := by
  refine ⟨List.isChain_append.2 ⟨hl.1, List.isChain_singleton _, ?_⟩, ?_, ?_⟩
  · intro x hx y hy
    simp only [List.head?_cons, Option.mem_def, Option.some.injEq] at hy
    subst hy
    exact h2 x (hl.2.2 x hx)
  · intro x hx
    rw [List.head?_append_of_ne_nil _ h4] at hx
    exact hl.2.1 x hx
  · simp [ho]

theorem wellRead_single {t : Tok} (h : isCmpTok t = false) : WellRead [t] := ⟨List.isChain_singleton _, by simp [h], by simp [h]⟩

macro "adjr" : tactic => `(tactic| (intro x _; exact adj_right (by simp) (by simp) (by simp)))
macro "adjl" : tactic => `(tactic| (intro x _; exact adj_left (by simp) (by simp) (by simp) (by simp)))

theorem reads_wellRead {ids lvl ts e} (h : Reads ids lvl ts e) : WellRead ts ∧ ts ≠ [] := by
  induction h with
  | ofSum _ ih | ofProduct _ ih | ofUnary _ ih | ofPrimary _ ih | ofAtom _ ih | ofSigned _ ih | ofFactor _ ih | factorAtom _ ih => exact ih
  | compare _ _ i1 i2 => exact ⟨i1.1.op i2.1 (fun _ h => adj_cmp h) (fun _ h => cmp_adj h) i1.2 i2.2, by simp⟩
  | add _ _ i1 i2 | sub _ _ i1 i2 | mul _ _ i1 i2 | div _ _ i1 i2 | signedMul _ _ i1 i2 | signedDiv _ _ i1 i2 | amountAdd _ _ i1 i2
  | amountSub _ _ i1 i2 | termMul _ _ i1 i2 | termDiv _ _ i1 i2 => exact ⟨i1.1.op i2.1 (by adjr) (by adjl) i1.2 i2.2, by simp⟩
  | neg _ ih | positive _ ih | negative _ ih | later _ ih => exact ⟨ih.1.before rfl (by adjl) ih.2, by simp⟩
  | number | identifier _ | now => exact ⟨wellRead_single rfl, by simp⟩
  | portField => exact ⟨⟨by simp [Adj], by simp [isCmpTok], by simp [isCmpTok]⟩, by simp⟩
  | paren _ ih | factorParen _ ih =>
    exact ⟨(ih.1.before rfl (by adjl) ih.2).after rfl (by adjr) (by simp), by simp⟩
  | allSum _ ih =>
    exact ⟨((ih.1.before (o := .lpar) rfl (by adjl) ih.2).before (o := .sum) rfl (by adjl) (by simp)).after rfl (by adjr) (by simp), by simp⟩
  | timeSum _ _ _ i1 i2 i3 =>
    refine ⟨WellRead.after ?_ rfl (by adjr) (by simp), by simp⟩
    refine WellRead.op ?_ i3.1 (by adjr) (by adjl) (by simp) i3.2
    exact WellRead.op ((i1.1.before (o := .lpar) rfl (by adjl) i1.2).before (o := .sum) rfl (by adjl) (by simp)) i2.1 (by adjr) (by adjl) (by simp) i2.2
  | portSum => exact ⟨⟨by simp [Adj], by simp [isCmpTok], by simp [isCmpTok]⟩, by simp⟩
  | expectation _ ih =>
    refine ⟨WellRead.after ?_ rfl (by adjr) (by simp), by simp⟩
    have h1 := ih.1.before (o := .lpar) rfl (by adjl) ih.2
    refine ⟨?_, by simp [isCmpTok], ?_⟩
    · rw [List.isChain_cons]
      refine ⟨fun y hy => ?_, h1.1⟩
      simp only [List.head?_cons, Option.mem_def, Option.some.injEq] at hy
      subst hy
      rfl
    · rw [List.getLast?_cons_of_ne_nil (by simp)]
      exact h1.2.2
  | timeShift _ _ ih | timeIndex _ _ ih =>
    refine ⟨WellRead.after ?_ rfl (by adjr) (by simp), by simp⟩
    have h1 := ih.1.before (o := .lbrack) rfl (by adjl) ih.2
    refine ⟨?_, by simp [isCmpTok], ?_⟩
    · rw [List.isChain_cons]
      refine ⟨fun y hy => ?_, h1.1⟩
      simp only [List.head?_cons, Option.mem_def, Option.some.injEq] at hy
      subst hy
      trivial
    · rw [List.getLast?_cons_of_ne_nil (by simp)]
      exact h1.2.2
  | timeShiftExpr _ _ i1 i2 | timeIndexExpr _ _ i1 i2 =>
    refine ⟨WellRead.after ?_ rfl (by adjr) (by simp), by simp⟩
    have h1 := ((i1.1.before (o := .lpar) rfl (by adjl) i1.2).after (o := .rpar) rfl (by adjr) (by simp)).op (o := .lbrack) i2.1 (by adjr)
      (by adjl) (by simp) i2.2
    simpa using h1

/-- two tokens of the text that never follow each other in what the grammar reads -/
def BadPair (ts : List Tok) : Prop := ∃ a b, ¬ Adj a b ∧ [a, b] <:+: ts

theorem BadPair.not_read {ids lvl ts e} (hb : BadPair ts) : ¬ Reads ids lvl ts e := by
  intro h
  obtain ⟨a, b, hab, hi⟩ := hb
  have := (reads_wellRead h).1.1.infix hi
  rw [List.isChain_pair] at this
  exact hab this

theorem BadPair.of_infix {a b : List Tok} (h : BadPair a) (hi : a <:+: b) : BadPair b := by
  obtain ⟨x, y, h1, h2⟩ := h
  exact ⟨x, y, h1, h2.trans hi⟩

theorem BadPair.cons {t : Tok} {a : List Tok} (h : BadPair a) : BadPair (t :: a) := h.of_infix (List.suffix_cons t a).isInfix
theorem BadPair.left {a b : List Tok} (h : BadPair a) : BadPair (a ++ b) := h.of_infix (List.prefix_append a b).isInfix
theorem BadPair.right {a b : List Tok} (h : BadPair b) : BadPair (a ++ b) := h.of_infix (List.suffix_append a b).isInfix

theorem call_bad {n : String} (hn : n ≠ "expec") (b : List Tok) : BadPair (.id n :: .lpar :: b) :=
  ⟨.id n, .lpar, by simpa [Adj] using hn, ⟨[], b, by simp⟩⟩

theorem equality_bad (b : List Tok) : BadPair (.cmp .eq :: .cmp .eq :: b) :=
  ⟨.cmp .eq, .cmp .eq, by simp [Adj], ⟨[], b, by simp⟩⟩

mutual
/-- the text of an expression with a time operator or an equality has two such tokens -/
theorem print_bad (str : Num → String) : ∀ e x : Expr, x ∈ e.subs → TimeOrEquality x → BadPair (printToks str e)
  | .shift e k, _, _, _ => by
    simp only [printToks, List.cons_append, List.append_assoc]
    exact .cons (.right (.cons (call_bad (by decide) _)))
  | .evalT e k, _, _, _ => by
    simp only [printToks, List.cons_append, List.append_assoc]
    exact .cons (.right (.cons (call_bad (by decide) _)))
  | .tsum e a b, _, _, _ => by
    simp only [printToks, List.cons_append, List.append_assoc]
    exact .cons (.right (.cons (call_bad (by decide) _)))
  | .allsum e, _, _, _ => by
    simp only [printToks]
    exact .cons (.right (.cons (call_bad (by decide) _)))
  | .cmp a b c, x, hx, ht => by
    simp only [subs, List.mem_cons, List.mem_append] at hx
    cases c
    case eq => simp only [printToks]; exact .right (equality_bad _)
    all_goals
      rcases hx with rfl | hx | hx
      · exact ht.elim
      · simp only [printToks]; exact .left (print_bad str a x hx ht)
      · simp only [printToks]; exact .right (.cons (print_bad str b x hx ht))
  | .neg e, x, hx, ht => by
    simp only [subs, List.mem_cons] at hx
    rcases hx with rfl | hx
    · exact ht.elim
    · simp only [printToks]; exact .cons (.cons (.left (print_bad str e x hx ht)))
  | .scen e _, x, hx, ht => by
    simp only [subs, List.mem_cons] at hx
    rcases hx with rfl | hx
    · exact ht.elim
    · simp only [printToks]; exact .cons (.left (print_bad str e x hx ht))
  | .agg e _, x, hx, ht => by
    simp only [subs, List.mem_cons] at hx
    rcases hx with rfl | hx
    · exact ht.elim
    · simp only [printToks]; exact .cons (.left (print_bad str e x hx ht))
  | .mul a b, x, hx, ht => by
    simp only [subs, List.mem_cons, List.mem_append] at hx
    rcases hx with rfl | hx | hx
    · exact ht.elim
    · simp only [printToks]; exact .cons (.left (.left (print_bad str a x hx ht)))
    · simp only [printToks]; exact .cons (.left (.right (.cons (print_bad str b x hx ht))))
  | .div a b, x, hx, ht => by
    simp only [subs, List.mem_cons, List.mem_append] at hx
    rcases hx with rfl | hx | hx
    · exact ht.elim
    · simp only [printToks]; exact .cons (.left (.left (print_bad str a x hx ht)))
    · simp only [printToks]; exact .cons (.left (.right (.cons (print_bad str b x hx ht))))
  | .add [], x, hx, ht => by
    simp only [subs, subsList, List.mem_cons, List.not_mem_nil, or_false] at hx
    subst hx
    exact ht.elim
  | .add (e :: es), x, hx, ht => by
    simp only [subs, subsList, List.mem_cons, List.mem_append] at hx
    rcases hx with rfl | hx | hx
    · exact ht.elim
    · simp only [printToks]; exact .cons (.left (.left (print_bad str e x hx ht)))
    · simp only [printToks]; exact .cons (.left (.right (operands_bad str es x hx ht)))
  | .lit _, x, hx, ht => by simp only [subs, List.mem_cons, List.not_mem_nil, or_false] at hx; subst hx; exact ht.elim
  | .var _, x, hx, ht => by simp only [subs, List.mem_cons, List.not_mem_nil, or_false] at hx; subst hx; exact ht.elim
  | .par _, x, hx, ht => by simp only [subs, List.mem_cons, List.not_mem_nil, or_false] at hx; subst hx; exact ht.elim
  | .cvar .., x, hx, ht => by simp only [subs, List.mem_cons, List.not_mem_nil, or_false] at hx; subst hx; exact ht.elim
  | .cpar .., x, hx, ht => by simp only [subs, List.mem_cons, List.not_mem_nil, or_false] at hx; subst hx; exact ht.elim
  | .pvar .., x, hx, ht => by simp only [subs, List.mem_cons, List.not_mem_nil, or_false] at hx; subst hx; exact ht.elim
  | .ppar .., x, hx, ht => by simp only [subs, List.mem_cons, List.not_mem_nil, or_false] at hx; subst hx; exact ht.elim
  | .portField .., x, hx, ht => by simp only [subs, List.mem_cons, List.not_mem_nil, or_false] at hx; subst hx; exact ht.elim
theorem operands_bad (str : Num → String) : ∀ (es : List Expr) (x : Expr), x ∈ subsList es → TimeOrEquality x → BadPair (operandToks str es)
  | [], x, hx, _ => by simp [subsList] at hx
  | e :: es, x, hx, ht => by
    simp only [subsList, List.mem_append] at hx
    rcases hx with hx | hx
    · match e, hx with
      | .neg o, hx =>
        simp only [subs, List.mem_cons] at hx
        rcases hx with rfl | hx
        · exact ht.elim
        · simp only [operandToks]; exact .cons (.left (print_bad str o x hx ht))
      | .lit _, hx | .var _, hx | .par _, hx | .cvar .., hx | .cpar .., hx | .pvar .., hx | .ppar .., hx | .portField .., hx
      | .add _, hx | .mul .., hx | .div .., hx | .cmp .., hx | .shift .., hx | .evalT .., hx | .tsum .., hx | .allsum _, hx
      | .scen .., hx | .agg .., hx => simp only [operandToks]; exact .cons (.left (print_bad str _ x hx ht))
    · have := operands_bad str es x hx ht
      cases e <;> simp only [operandToks] <;> exact .cons (.right this)
end

mutual
/-- texts of expressions have no brackets -/
theorem print_noPostfix_aux {str : Num → String} : ∀ e : Expr, Written str e → ∀ t ∈ printToks str e, t ≠ .lbrack
  | .lit v, hw => by
    obtain ⟨ip, fp, hv, ⟨ht, -⟩ | ⟨ht, -⟩⟩ := hw _ (mem_subs_self _)
    · have h0 := spells_digits hv ends_nil .nil
      rw [List.append_nil, ← ht] at h0
      rw [printToks, lex_spells h0]
      simp
    · have h0 := spells_minus (spells_digits hv ends_nil .nil)
      rw [List.append_nil, ← ht] at h0
      rw [printToks, lex_spells h0]
      simp
  | .var _, _ => by simp [printToks]
  | .par _, _ => by simp [printToks]
  | .cvar .., _ => by simp [printToks]
  | .cpar .., _ => by simp [printToks]
  | .pvar .., _ => by simp [printToks]
  | .ppar .., _ => by simp [printToks]
  | .portField .., _ => by simp [printToks]
  | .neg e, hw => by
    have h1 := print_noPostfix_aux e (hw.sub fun y hy => by simp [subs, hy])
    simpa [printToks, or_imp, forall_and] using h1
  | .allsum e, hw => by
    have h1 := print_noPostfix_aux e (hw.sub fun y hy => by simp [subs, hy])
    simpa [printToks, or_imp, forall_and] using h1
  | .scen e _, hw => by
    have h1 := print_noPostfix_aux e (hw.sub fun y hy => by simp [subs, hy])
    simpa [printToks, or_imp, forall_and] using h1
  | .agg e _, hw => by
    have h1 := print_noPostfix_aux e (hw.sub fun y hy => by simp [subs, hy])
    simpa [printToks, or_imp, forall_and] using h1
  | .mul a b, hw => by
    have h1 := print_noPostfix_aux a (hw.sub fun y hy => by simp [subs, hy])
    have h2 := print_noPostfix_aux b (hw.sub fun y hy => by simp [subs, hy])
    simpa [printToks, or_imp, forall_and] using ⟨h1, h2⟩
  | .div a b, hw => by
    have h1 := print_noPostfix_aux a (hw.sub fun y hy => by simp [subs, hy])
    have h2 := print_noPostfix_aux b (hw.sub fun y hy => by simp [subs, hy])
    simpa [printToks, or_imp, forall_and] using ⟨h1, h2⟩
  | .cmp a b c, hw => by
    have h1 := print_noPostfix_aux a (hw.sub fun y hy => by simp [subs, hy])
    have h2 := print_noPostfix_aux b (hw.sub fun y hy => by simp [subs, hy])
    cases c <;> simpa [printToks, or_imp, forall_and] using ⟨h1, h2⟩
  | .shift a b, hw => by
    have h1 := print_noPostfix_aux a (hw.sub fun y hy => by simp [subs, hy])
    have h2 := print_noPostfix_aux b (hw.sub fun y hy => by simp [subs, hy])
    simpa [printToks, or_imp, forall_and] using ⟨h1, h2⟩
  | .evalT a b, hw => by
    have h1 := print_noPostfix_aux a (hw.sub fun y hy => by simp [subs, hy])
    have h2 := print_noPostfix_aux b (hw.sub fun y hy => by simp [subs, hy])
    simpa [printToks, or_imp, forall_and] using ⟨h1, h2⟩
  | .tsum a b c, hw => by
    have h1 := print_noPostfix_aux a (hw.sub fun y hy => by simp [subs, hy])
    have h2 := print_noPostfix_aux b (hw.sub fun y hy => by simp [subs, hy])
    have h3 := print_noPostfix_aux c (hw.sub fun y hy => by simp [subs, hy])
    simpa [printToks, or_imp, forall_and] using ⟨h1, h2, h3⟩
  | .add [], _ => by simp [printToks]
  | .add (e :: es), hw => by
    have h1 := print_noPostfix_aux e (hw.sub fun y hy => by simp [subs, subsList, hy])
    have h2 := operands_noPostfix_aux es (fun x hx => hw.sub fun y hy => mem_subs_add.2 (.inr ⟨x, by simp [hx], hy⟩))
    simpa [printToks, or_imp, forall_and] using ⟨h1, h2⟩
theorem operands_noPostfix_aux {str : Num → String} : ∀ es : List Expr, (∀ e ∈ es, Written str e) → ∀ t ∈ operandToks str es, t ≠ .lbrack
  | [], _ => by simp [operandToks]
  | e :: es, hw => by
    have h2 := operands_noPostfix_aux es fun x hx => hw x (by simp [hx])
    match e, hw e (by simp) with
    | .neg o, hw' =>
      have h1 := print_noPostfix_aux o (hw'.sub fun y hy => by simp [subs, hy])
      simpa [operandToks, or_imp, forall_and] using ⟨h1, h2⟩
    | .lit _, hx | .var _, hx | .par _, hx | .cvar .., hx | .cpar .., hx | .pvar .., hx | .ppar .., hx | .portField .., hx
    | .add _, hx | .mul .., hx | .div .., hx | .cmp .., hx | .shift .., hx | .evalT .., hx | .tsum .., hx | .allsum _, hx
    | .scen .., hx | .agg .., hx =>
      have h1 := print_noPostfix_aux _ hx
      simpa [operandToks, or_imp, forall_and] using ⟨h1, h2⟩
end

theorem print_noPostfix {str : Num → String} {e : Expr} (hw : Written str e) : NoPostfix (printToks str e) := by
  intro h
  exact print_noPostfix_aux e hw _ (h.subset (by simp)) rfl

end Verif
