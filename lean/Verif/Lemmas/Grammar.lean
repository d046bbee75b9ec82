import Verif.Lemmas.Parse
import Verif.Lemmas.Basic
import Mathlib.Tactic.FieldSimp

/-!
# The parser and the grammar
-/

namespace Verif

theorem digitsVal_eq (ds : List Char) : digitsVal ds = Nat.ofDigits 10 (ds.reverse.map fun c => c.toNat - '0'.toNat) := by
  unfold digitsVal
  have : ∀ (ds : List Char) (n : Nat), ds.foldl (fun n c => 10 * n + (c.toNat - '0'.toNat)) n =
      Nat.ofDigits 10 ((ds.reverse.map fun c => c.toNat - '0'.toNat) ++ [n]) := by
    intro ds
    induction ds with
    | nil => intro n; simp [Nat.ofDigits]
    | cons d ds ih =>
      intro n
      rw [List.foldl_cons, ih]
      simp only [List.reverse_cons, List.map_append, List.map_cons, List.map_nil, List.append_assoc]
      simp only [Nat.ofDigits_append, Nat.ofDigits_cons, Nat.ofDigits_nil, List.length_cons, List.length_nil]
      push_cast
      ring
  rw [this, Nat.ofDigits_append]
  simp [Nat.ofDigits]

theorem decimalVal_eq (ip fp : List Char) : decimalVal ip fp = decimal ip fp := by
  unfold decimalVal decimal
  rw [digitsVal_eq, digitsVal_eq, List.reverse_append, List.map_append, Nat.ofDigits_append]
  have h : (10 : ℚ) ^ fp.length ≠ 0 := pow_ne_zero _ (by norm_num)
  simp only [List.length_map, List.length_reverse]
  push_cast
  field_simp
  ring

namespace NoPostfix

theorem of_infix {a b : List Tok} (h : NoPostfix b) (hi : a <:+: b) : NoPostfix a := fun h' => h (h'.trans hi)
theorem tail {t : Tok} {a : List Tok} (h : NoPostfix (t :: a)) : NoPostfix a := h.of_infix (List.infix_cons (List.infix_refl a))
theorem right {a b : List Tok} (h : NoPostfix (a ++ b)) : NoPostfix b := h.of_infix (List.suffix_append a b).isInfix
theorem left {a b : List Tok} (h : NoPostfix (a ++ b)) : NoPostfix a := h.of_infix (List.prefix_append a b).isInfix

end NoPostfix

/-- the visitor gives this expression -/
def Vis (ids : Identifiers) (pt : PT) (e : Expr) : Prop := visitPT ids pt = .ok (.node e)

/-- tokens that do not change how what precedes is parsed -/
def folOk : List Tok → Bool
  | .dot :: _ | .lpar :: _ | .lbrack :: _ => false
  | _ => true

theorem folOk_dot {r x : List Tok} (h : folOk r = true) : r ≠ .dot :: x := by rintro rfl; simp [folOk] at h
theorem folOk_lpar {r x : List Tok} (h : folOk r = true) : r ≠ .lpar :: x := by rintro rfl; simp [folOk] at h
theorem folOk_lbrack {r x : List Tok} (h : folOk r = true) : r ≠ .lbrack :: x := by rintro rfl; simp [folOk] at h

theorem Big.not_time {p r e r'} (h : Big (.expr p) (.time :: r) e r') : False := by
  cases h with
  | expr h1 _ => cases h1

theorem atShift_eq (e k : Expr) : atShift e k = if isLitZero k then e else .shift e k := by
  cases k with
  | lit v =>
    cases v <;> simp [atShift, isLitZero, Num.eqb, show (0 : Num) = .fin 0 from rfl]
  | _ => rfl

theorem convert_named {ids n e} : convertIdentifier ids n = .ok e ↔ Named ids n e := by
  unfold convertIdentifier
  constructor
  · intro h
    split_ifs at h with h1 h2
    · cases h; exact .variable_ h1
    · cases h; exact .parameter h1 h2
  · rintro (h | ⟨h1, h2⟩)
    · simp [h]
    · simp [h1, h2]

/-- left operands: the loop goes on from the tree -/
def LoopFrom (k : Nat) (ts : List Tok) (pt : PT) : Prop :=
  ∀ rest, folOk rest = true → headPrec rest ≤ k → ∀ q ≤ k, ∀ x r, Big (.loop q pt) rest x r → Big (.expr q) (ts ++ rest) x r

/-- what the parser does on tokens of each level -/
def Compl (ids : Identifiers) : Lvl → List Tok → Expr → Prop
  | .comparison, ts, e => ∃ pt, Vis ids pt e ∧ LoopFrom 9 ts pt
  | .sum, ts, e => ∃ pt, Vis ids pt e ∧ LoopFrom 10 ts pt
  | .product, ts, e => ∃ pt, Vis ids pt e ∧ LoopFrom 11 ts pt
  | .unary, ts, e => ∃ pt, Vis ids pt e ∧ LoopFrom 13 ts pt
  | .primary, ts, e => ∃ pt, Vis ids pt e ∧ ∀ rest, folOk rest = true → Big .prim (ts ++ rest) pt rest
  | .atom, ts, e => ∃ pt, Vis ids pt e ∧ (∀ rest, folOk rest = true → Big .prim (ts ++ rest) pt rest) ∧
      (∀ rest, Big .rightPrim (ts ++ rest) pt rest) ∧
      ∀ t op, addOp? t = some op → ∀ rest, Big .shiftPrim (t :: ts ++ rest) (.signedAtom op pt) rest
  | .shift, ts, e => ∃ pt, Vis ids pt e ∧ (∃ s, ts = .time :: s) ∧ ∀ rest, headPrec rest = 0 → Big .shift (ts ++ rest) pt rest
  | .amount, ts, e => ∃ pt, Vis ids pt e ∧ (∃ t op s, ts = t :: s ∧ addOp? t = some op) ∧ ∀ rest, headPrec rest < 11 → ∀ x r,
      Big (.shiftLoop pt) rest x r → ∃ s r1, Big .shiftPrim (ts ++ rest) s r1 ∧ Big (.shiftLoop s) r1 x r
  | .signed, ts, e => ∃ pt, Vis ids pt e ∧ (∃ t op s, ts = t :: s ∧ addOp? t = some op) ∧ ∀ rest, Big .shiftPrim (ts ++ rest) pt rest
  | .term, ts, e => ∃ pt, Vis ids pt e ∧ ∀ rest q, q ≤ 3 → ∀ x r, Big (.rightLoop q pt) rest x r → Big (.right q) (ts ++ rest) x r
  | .factor, ts, e => ∃ pt, Vis ids pt e ∧ (∀ rest, Big .rightPrim (ts ++ rest) pt rest) ∧
      ∀ t op, addOp? t = some op → ∃ pt', visitPT ids pt' = signVal op (.node e) ∧ ∀ rest, Big .shiftPrim (t :: ts ++ rest) pt' rest

theorem LoopFrom.whole {k ts pt} (h : LoopFrom k ts pt) {q rest} (hf : folOk rest = true) (h1 : headPrec rest ≤ k) (h2 : q ≤ k)
    (h3 : headPrec rest < q ∨ headPrec rest = 0) : Big (.expr q) (ts ++ rest) pt rest :=
  h rest hf h1 q h2 _ _ (.loopStop h3)

theorem Vis.bin {ids l r a b pt} {f : Expr → Expr → Expr} (hl : Vis ids l a) (hr : Vis ids r b)
    (h : visitPT ids pt = do let a ← visitPT ids l; let b ← visitPT ids r; pval2 f a b) : Vis ids pt (f a b) := by
  unfold Vis at *
  rw [h, hl, hr]
  rfl

theorem reads_compl {ids lvl ts e} (h : Reads ids lvl ts e) : NoPostfix ts → Compl ids lvl ts e := by
  induction h with
  | ofSum _ ih =>
    intro np
    obtain ⟨pt, hv, h⟩ := ih np
    exact ⟨pt, hv, fun rest hf hp q hq x r hb => h rest hf (by omega) q (by omega) x r hb⟩
  | @compare l r a b c _ _ ih1 ih2 =>
    intro np
    obtain ⟨pl, vl, h1⟩ := ih1 np.left
    obtain ⟨pr, vr, h2⟩ := ih2 np.right.tail
    refine ⟨.cmp c pl pr, by unfold Vis at *; simp only [visitPT, vl, vr]; rfl, fun rest hf hp q hq x r' hb => ?_⟩
    rw [List.append_assoc]
    exact h1 _ rfl (by simp [headPrec, Tok.prec]) q hq x r' (.loopCmp hq (h2.whole hf (by omega) (by omega) (.inl (by omega))) hb)
  | ofProduct _ ih =>
    intro np
    obtain ⟨pt, hv, h⟩ := ih np
    exact ⟨pt, hv, fun rest hf hp q hq x r hb => h rest hf (by omega) q (by omega) x r hb⟩
  | add _ _ ih1 ih2 =>
    intro np
    obtain ⟨pl, vl, h1⟩ := ih1 np.left
    obtain ⟨pr, vr, h2⟩ := ih2 np.right.tail
    refine ⟨.addsub .add pl pr, vl.bin vr rfl, fun rest hf hp q hq x r' hb => ?_⟩
    rw [List.append_assoc]
    exact h1 _ rfl (by simp [headPrec, Tok.prec]) q hq x r' (.loopAdd rfl hq (h2.whole hf (by omega) (by omega) (.inl (by omega))) hb)
  | sub _ _ ih1 ih2 =>
    intro np
    obtain ⟨pl, vl, h1⟩ := ih1 np.left
    obtain ⟨pr, vr, h2⟩ := ih2 np.right.tail
    refine ⟨.addsub .sub pl pr, vl.bin vr rfl, fun rest hf hp q hq x r' hb => ?_⟩
    rw [List.append_assoc]
    exact h1 _ rfl (by simp [headPrec, Tok.prec]) q hq x r' (.loopAdd rfl hq (h2.whole hf (by omega) (by omega) (.inl (by omega))) hb)
  | ofUnary _ ih =>
    intro np
    obtain ⟨pt, hv, h⟩ := ih np
    exact ⟨pt, hv, fun rest hf hp q hq x r hb => h rest hf (by omega) q (by omega) x r hb⟩
  | mul _ _ ih1 ih2 =>
    intro np
    obtain ⟨pl, vl, h1⟩ := ih1 np.left
    obtain ⟨pr, vr, h2⟩ := ih2 np.right.tail
    refine ⟨.muldiv .mul pl pr, vl.bin vr rfl, fun rest hf hp q hq x r' hb => ?_⟩
    rw [List.append_assoc]
    exact h1 _ rfl (by simp [headPrec, Tok.prec]) q hq x r' (.loopMul rfl hq (h2.whole hf (by omega) (by omega) (.inl (by omega))) hb)
  | div _ _ ih1 ih2 =>
    intro np
    obtain ⟨pl, vl, h1⟩ := ih1 np.left
    obtain ⟨pr, vr, h2⟩ := ih2 np.right.tail
    refine ⟨.muldiv .div pl pr, vl.bin vr rfl, fun rest hf hp q hq x r' hb => ?_⟩
    rw [List.append_assoc]
    exact h1 _ rfl (by simp [headPrec, Tok.prec]) q hq x r' (.loopMul rfl hq (h2.whole hf (by omega) (by omega) (.inl (by omega))) hb)
  | ofPrimary _ ih =>
    intro np
    obtain ⟨pt, hv, h⟩ := ih np
    exact ⟨pt, hv, fun rest hf hp q hq x r hb => .expr (h rest hf) hb⟩
  | neg _ ih =>
    intro np
    obtain ⟨pt, hv, h⟩ := ih np.tail
    refine ⟨.neg pt, by unfold Vis at *; simp only [visitPT, hv]; rfl, fun rest hf hp q hq x r hb => ?_⟩
    have := headPrec_le rest
    exact .expr (.neg (h.whole hf (by omega) (by omega) (.inl (by omega)))) hb
  | ofAtom _ ih =>
    intro np
    obtain ⟨pt, hv, h, _⟩ := ih np
    exact ⟨pt, hv, h⟩
  | @number ip fp =>
    intro np
    refine ⟨.num ip fp, by unfold Vis; simp only [visitPT, decimalVal_eq], fun rest _ => .num, fun rest => .rightNum, fun t op ht rest => .signedNum ht⟩
  | @identifier n e hn =>
    intro np
    refine ⟨.ident n, by unfold Vis; simp only [visitPT, convert_named.2 hn]; rfl, fun rest hf => ?_, fun rest => .rightIdent, fun t op ht rest => .signedIdent ht⟩
    exact .ident (fun x => folOk_dot hf) (fun x => folOk_lpar hf) (fun x => folOk_lbrack hf)
  | portField =>
    intro np
    exact ⟨.portField _ _, rfl, fun rest _ => .portField⟩
  | @paren ts e _ ih =>
    intro np
    obtain ⟨pt, hv, h⟩ := ih np.tail.left
    refine ⟨.paren pt, hv, fun rest hf => ?_⟩
    simp only [List.cons_append, List.append_assoc, List.nil_append]
    exact .paren (h.whole rfl (by simp [headPrec, Tok.prec]) (by omega) (.inr rfl)) (fun x => folOk_lbrack hf)
  | @allSum ts e _ ih =>
    intro np
    obtain ⟨pt, hv, h⟩ := ih np.tail.tail.left
    refine ⟨.allSum pt, by unfold Vis at *; simp only [visitPT, hv]; rfl, fun rest hf => ?_⟩
    simp only [List.cons_append, List.append_assoc, List.nil_append]
    have hb : Big (.expr 0) (ts ++ .rpar :: rest) pt (.rpar :: rest) := h.whole rfl (by simp [headPrec, Tok.prec]) (by omega) (.inr rfl)
    exact .allSum (fun x hx => by rw [hx] at hb; exact hb.not_time) hb
  | @timeSum a b ts x y e _ _ _ ih1 ih2 ih3 =>
    intro np
    simp only [List.cons_append, List.append_assoc] at np
    obtain ⟨pa, va, ⟨s, rfl⟩, h1⟩ := ih1 np.tail.tail.left
    obtain ⟨pb, vb, ⟨s', rfl⟩, h2⟩ := ih2 np.tail.tail.right.tail.left
    obtain ⟨pe, ve, h3⟩ := ih3 np.tail.tail.right.tail.right.tail.left
    refine ⟨.timeSum pa pb pe, by unfold Vis at *; simp only [visitPT, ve, va, vb]; rfl, fun rest hf => ?_⟩
    simp only [List.cons_append, List.append_assoc, List.nil_append]
    exact .timeSum (h1 _ rfl) (h2 _ rfl) (h3.whole rfl (by simp [headPrec, Tok.prec]) (by omega) (.inr rfl))
  | portSum =>
    intro np
    exact ⟨.portSum _ _, rfl, fun rest _ => .portSum⟩
  | @expectation ts e _ ih =>
    intro np
    obtain ⟨pt, hv, h⟩ := ih np.tail.tail.left
    refine ⟨.func "expec" pt, by unfold Vis at *; simp only [visitPT, hv]; rfl, fun rest hf => ?_⟩
    simp only [List.cons_append, List.append_assoc, List.nil_append]
    exact .func (h.whole rfl (by simp [headPrec, Tok.prec]) (by omega) (.inr rfl))
  | @timeShift n e s k hn _ ih =>
    intro np
    obtain ⟨pt, hv, ⟨s', rfl⟩, h⟩ := ih np.tail.tail.left
    refine ⟨.timeShift n pt, by unfold Vis at *; rw [atShift_eq]; simp only [visitPT, convert_named.2 hn, hv]; rfl, fun rest hf => ?_⟩
    simp only [List.cons_append, List.append_assoc, List.nil_append]
    exact .timeShift (h _ rfl)
  | @timeIndex n e ts k hn _ ih =>
    intro np
    obtain ⟨pt, hv, h⟩ := ih np.tail.tail.left
    refine ⟨.timeIndex n pt, by unfold Vis at *; simp only [visitPT, convert_named.2 hn, hv]; rfl, fun rest hf => ?_⟩
    simp only [List.cons_append, List.append_assoc, List.nil_append]
    have hb : Big (.expr 0) (ts ++ .rbrack :: rest) pt (.rbrack :: rest) := h.whole rfl (by simp [headPrec, Tok.prec]) (by omega) (.inr rfl)
    exact .timeIndex (fun x hx => by rw [hx] at hb; exact hb.not_time) hb
  | @timeShiftExpr ts e s k _ _ _ _ =>
    intro np
    exact absurd ⟨.lpar :: ts, s ++ [.rbrack], by simp⟩ np
  | @timeIndexExpr ts e s k _ _ _ _ =>
    intro np
    exact absurd ⟨.lpar :: ts, s ++ [.rbrack], by simp⟩ np
  | now =>
    intro np
    exact ⟨.shift0, rfl, ⟨[], rfl⟩, fun rest hr => .shift0 (by show headPrec rest ≠ 10; omega)⟩
  | @later s k _ ih =>
    intro np
    obtain ⟨pt, hv, ⟨t, op, s', rfl, ht⟩, h⟩ := ih np.tail
    refine ⟨.shift pt, hv, ⟨_, rfl⟩, fun rest hr => ?_⟩
    obtain ⟨s1, r1, h1, h2⟩ := h rest (by omega) pt rest (.shiftStop (by omega))
    exact .shift ht h1 h2
  | ofSigned _ ih =>
    intro np
    obtain ⟨pt, hv, ht, h⟩ := ih np
    exact ⟨pt, hv, ht, fun rest _ x r hb => ⟨pt, rest, h rest, hb⟩⟩
  | signedMul _ _ ih1 ih2 =>
    intro np
    obtain ⟨pt, hv, ⟨t, op, s', rfl, ht⟩, h⟩ := ih1 np.left
    obtain ⟨pt2, hv2, h2⟩ := ih2 np.right.tail
    refine ⟨.shiftMuldiv .mul pt pt2, hv.bin hv2 rfl, ⟨t, op, _, rfl, ht⟩, fun rest hr x r hb => ⟨pt, _, by rw [List.append_assoc]; exact h _, ?_⟩⟩
    exact .shiftMul rfl (h2 rest 0 (by omega) _ _ (.rightStop (.inl hr))) hb
  | signedDiv _ _ ih1 ih2 =>
    intro np
    obtain ⟨pt, hv, ⟨t, op, s', rfl, ht⟩, h⟩ := ih1 np.left
    obtain ⟨pt2, hv2, h2⟩ := ih2 np.right.tail
    refine ⟨.shiftMuldiv .div pt pt2, hv.bin hv2 rfl, ⟨t, op, _, rfl, ht⟩, fun rest hr x r hb => ⟨pt, _, by rw [List.append_assoc]; exact h _, ?_⟩⟩
    exact .shiftMul rfl (h2 rest 0 (by omega) _ _ (.rightStop (.inl hr))) hb
  | amountAdd _ _ ih1 ih2 =>
    intro np
    obtain ⟨pt, hv, ⟨t, op, s', rfl, ht⟩, h⟩ := ih1 np.left
    obtain ⟨pt2, hv2, h2⟩ := ih2 np.right.tail
    refine ⟨.shiftAddsub .add pt pt2, hv.bin hv2 rfl, ⟨t, op, _, rfl, ht⟩, fun rest hr x r hb => ?_⟩
    rw [List.append_assoc]
    exact h _ (by simp [headPrec, Tok.prec]) x r (.shiftAdd rfl (h2 rest 0 (by omega) _ _ (.rightStop (.inl hr))) hb)
  | amountSub _ _ ih1 ih2 =>
    intro np
    obtain ⟨pt, hv, ⟨t, op, s', rfl, ht⟩, h⟩ := ih1 np.left
    obtain ⟨pt2, hv2, h2⟩ := ih2 np.right.tail
    refine ⟨.shiftAddsub .sub pt pt2, hv.bin hv2 rfl, ⟨t, op, _, rfl, ht⟩, fun rest hr x r hb => ?_⟩
    rw [List.append_assoc]
    exact h _ (by simp [headPrec, Tok.prec]) x r (.shiftAdd rfl (h2 rest 0 (by omega) _ _ (.rightStop (.inl hr))) hb)
  | positive _ ih =>
    intro np
    obtain ⟨pt, hv, h, hs⟩ := ih np.tail
    obtain ⟨pt', hv', h'⟩ := hs .plus .add rfl
    exact ⟨pt', hv', ⟨_, _, _, rfl, rfl⟩, h'⟩
  | negative _ ih =>
    intro np
    obtain ⟨pt, hv, h, hs⟩ := ih np.tail
    obtain ⟨pt', hv', h'⟩ := hs .minus .sub rfl
    exact ⟨pt', hv', ⟨_, _, _, rfl, rfl⟩, h'⟩
  | ofFactor _ ih =>
    intro np
    obtain ⟨pt, hv, h, hs⟩ := ih np
    exact ⟨pt, hv, fun rest q hq x r hb => .right (h rest) hb⟩
  | termMul _ _ ih1 ih2 =>
    intro np
    obtain ⟨pl, vl, h1⟩ := ih1 np.left
    obtain ⟨pr, vr, h2, _⟩ := ih2 np.right.tail
    refine ⟨.rightMuldiv .mul pl pr, vl.bin vr rfl, fun rest q hq x r' hb => ?_⟩
    rw [List.append_assoc]
    exact h1 _ q hq x r' (.rightMul rfl hq (.right (h2 rest) (.rightStop (.inr (by omega)))) hb)
  | termDiv _ _ ih1 ih2 =>
    intro np
    obtain ⟨pl, vl, h1⟩ := ih1 np.left
    obtain ⟨pr, vr, h2, _⟩ := ih2 np.right.tail
    refine ⟨.rightMuldiv .div pl pr, vl.bin vr rfl, fun rest q hq x r' hb => ?_⟩
    rw [List.append_assoc]
    exact h1 _ q hq x r' (.rightMul rfl hq (.right (h2 rest) (.rightStop (.inr (by omega)))) hb)
  | factorAtom _ ih =>
    intro np
    obtain ⟨pt, hv, _, h1, h2⟩ := ih np
    exact ⟨pt, hv, h1, fun t op ht => ⟨.signedAtom op pt, by unfold Vis at hv; simp only [visitPT, hv]; rfl, h2 t op ht⟩⟩
  | @factorParen ts e _ ih =>
    intro np
    obtain ⟨pt, hv, h⟩ := ih np.tail.left
    have hb : ∀ rest, Big (.expr 0) (ts ++ .rpar :: rest) pt (.rpar :: rest) :=
      fun rest => h.whole rfl (by simp [headPrec, Tok.prec]) (by omega) (.inr rfl)
    refine ⟨.rightExpr pt, hv, fun rest => ?_, fun t op ht => ⟨.signedExpr op pt, by unfold Vis at hv; simp only [visitPT, hv]; rfl, fun rest => ?_⟩⟩
    · simp only [List.cons_append, List.append_assoc, List.nil_append]
      exact .rightExpr (hb rest)
    · simp only [List.cons_append, List.append_assoc, List.nil_append]
      exact .signedExpr ht (hb rest)

/-- the level of the operands of an operator of this precedence -/
def lvlOf (p : Nat) : Lvl := if p ≤ 9 then .comparison else if p = 10 then .sum else if p = 11 then .product else .unary

theorem reads_lower {ids k p ts e} (h : Reads ids (lvlOf k) ts e) (hp : p ≤ k) : Reads ids (lvlOf p) ts e := by
  unfold lvlOf at *
  split_ifs at * <;> first
    | omega
    | assumption
    | exact .ofSum h
    | exact .ofSum (.ofProduct h)
    | exact .ofSum (.ofProduct (.ofUnary h))
    | exact .ofProduct h
    | exact .ofProduct (.ofUnary h)
    | exact .ofUnary h

/-- what is visited successfully is an expression that the grammar reads -/
def RV (ids : Identifiers) (lvl : Lvl) (pre : List Tok) (pt : PT) : Prop :=
  ∀ v, visitPT ids pt = .ok v → ∃ e, v = .node e ∧ Reads ids lvl pre e

theorem RV.lower {ids k p pre pt} (h : RV ids (lvlOf k) pre pt) (hp : p ≤ k) : RV ids (lvlOf p) pre pt := by
  intro v hv
  obtain ⟨e, he, hr⟩ := h v hv
  exact ⟨e, he, reads_lower hr hp⟩

theorem RV.map {ids lvl lvl' pre pre' pt pt'} {f : Expr → Expr} (h : RV ids lvl pre pt)
    (hv : visitPT ids pt' = do let v ← visitPT ids pt; pval1 f v) (hr : ∀ e, Reads ids lvl pre e → Reads ids lvl' pre' (f e)) :
    RV ids lvl' pre' pt' := by
  intro v h'
  rw [hv, bind_ok_iff] at h'
  obtain ⟨w, h1, h2⟩ := h'
  obtain ⟨e, rfl, hre⟩ := h w h1
  cases h2
  exact ⟨_, rfl, hr e hre⟩

theorem RV.same {ids lvl lvl' pre pre' pt pt'} (h : RV ids lvl pre pt) (hv : visitPT ids pt' = visitPT ids pt)
    (hr : ∀ e, Reads ids lvl pre e → Reads ids lvl' pre' e) : RV ids lvl' pre' pt' := by
  intro v h'
  rw [hv] at h'
  obtain ⟨e, rfl, hre⟩ := h v h'
  exact ⟨_, rfl, hr e hre⟩

theorem RV.bin {ids A B C pl pr pre l r pt} {f : Expr → Expr → Expr} (hl : RV ids A pl l) (hr : RV ids B pr r)
    (hv : visitPT ids pt = do let a ← visitPT ids l; let b ← visitPT ids r; pval2 f a b)
    (h : ∀ a b, Reads ids A pl a → Reads ids B pr b → Reads ids C pre (f a b)) : RV ids C pre pt := by
  intro v h'
  simp only [hv, bind_ok_iff] at h'
  obtain ⟨x, h1, y, h2, h3⟩ := h'
  obtain ⟨a, rfl, ha⟩ := hl x h1
  obtain ⟨b, rfl, hb⟩ := hr y h2
  cases h3
  exact ⟨_, rfl, h a b ha hb⟩

/-- what each part of the parser reads -/
def SoundFor (ids : Identifiers) : Job → List Tok → PT → List Tok → Prop
  | .expr p, ts, pt, rest => p ≤ 13 → ∃ pre, ts = pre ++ rest ∧ (headPrec rest < p ∨ headPrec rest = 0) ∧ RV ids (lvlOf p) pre pt
  | .prim, ts, pt, rest => ∃ pre, ts = pre ++ rest ∧ RV ids .unary pre pt
  | .loop p l, ts, pt, rest => ∀ k pre0, RV ids (lvlOf k) pre0 l → headPrec ts ≤ k → p ≤ k →
      ∃ pre, ts = pre ++ rest ∧ (headPrec rest < p ∨ headPrec rest = 0) ∧ RV ids (lvlOf p) (pre0 ++ pre) pt
  | .shift, ts, pt, rest => ∃ pre, ts = pre ++ rest ∧ RV ids .shift pre pt
  | .shiftPrim, ts, pt, rest => ∃ pre, ts = pre ++ rest ∧ RV ids .signed pre pt
  | .shiftLoop l, ts, pt, rest => ∀ pre0, (RV ids .signed pre0 l ∨ (RV ids .amount pre0 l ∧ headPrec ts < 11)) →
      ∃ pre, ts = pre ++ rest ∧ RV ids .amount (pre0 ++ pre) pt
  | .right p, ts, pt, rest => ∃ pre, ts = pre ++ rest ∧ (p ≤ 3 → RV ids .term pre pt ∧ headPrec rest < 11) ∧ (3 < p → RV ids .factor pre pt)
  | .rightPrim, ts, pt, rest => ∃ pre, ts = pre ++ rest ∧ RV ids .factor pre pt
  | .rightLoop p l, ts, pt, rest => ∃ pre, ts = pre ++ rest ∧ (3 < p → pre = [] ∧ pt = l) ∧
      (p ≤ 3 → ∀ pre0, RV ids .term pre0 l → RV ids .term (pre0 ++ pre) pt ∧ headPrec rest < 11)

theorem mul_tok {t op} (h : mulOp? t = some op) : (t = .star ∧ op = .mul) ∨ (t = .slash ∧ op = .div) := by
  cases t <;> simp_all [mulOp?]
theorem add_tok {t op} (h : addOp? t = some op) : (t = .plus ∧ op = .add) ∨ (t = .minus ∧ op = .sub) := by
  cases t <;> simp_all [addOp?]

theorem big_sound {ids j ts pt rest} (h : Big j ts pt rest) : NoPostfix ts → SoundFor ids j ts pt rest := by
  induction h with
  | expr _ _ ih1 ih2 =>
    intro np hp
    obtain ⟨pre, rfl, h1⟩ := ih1 np
    obtain ⟨pre2, rfl, h2, h3⟩ := ih2 np.right 13 pre h1 ((headPrec_le _).trans (by omega)) hp
    exact ⟨pre ++ pre2, by simp, h2, h3⟩
  | @num ip fp r =>
    intro np
    refine ⟨[.num ip fp], rfl, fun v hv => ?_⟩
    cases hv
    rw [decimalVal_eq]
    exact ⟨_, rfl, .ofPrimary (.ofAtom .number)⟩
  | @portField p f r =>
    intro np
    refine ⟨[.id p, .dot, .id f], rfl, fun v hv => ?_⟩
    cases hv
    exact ⟨_, rfl, .ofPrimary .portField⟩
  | neg _ ih =>
    intro np
    obtain ⟨pre, rfl, -, h⟩ := ih np.tail (by omega)
    exact ⟨.minus :: pre, rfl, h.map rfl fun e he => .neg he⟩
  | paren _ hx ih =>
    intro np
    obtain ⟨pre, rfl, -, h⟩ := ih np.tail (by omega)
    exact ⟨.lpar :: pre ++ [.rpar], by simp, h.same rfl fun e he => .ofPrimary (.paren he)⟩
  | shiftExpr _ _ ih _ =>
    intro np
    obtain ⟨pre, rfl, -, h⟩ := ih np.tail (by omega)
    exact absurd (show _ <:+: _ from ⟨.lpar :: pre, _, by simp; rfl⟩) np
  | indexExpr _ _ _ ih _ =>
    intro np
    obtain ⟨pre, rfl, -, h⟩ := ih np.tail (by omega)
    exact absurd (show _ <:+: _ from ⟨.lpar :: pre, _, by simp; rfl⟩) np
  | @timeSum r a r1 b r2 e r3 _ _ _ ih1 ih2 ih3 =>
    intro np
    obtain ⟨p1, e1, h1⟩ := ih1 np.tail.tail
    rw [e1] at np
    obtain ⟨p2, rfl, h2⟩ := ih2 np.tail.tail.right.tail
    obtain ⟨p3, rfl, -, h3⟩ := ih3 np.tail.tail.right.tail.right.tail (by omega)
    refine ⟨.sum :: .lpar :: p1 ++ .dotdot :: p2 ++ .comma :: p3 ++ [.rpar], by rw [e1]; simp, fun v hv => ?_⟩
    simp only [visitPT, bind_ok_iff] at hv
    obtain ⟨x, g1, y, g2, z, g3, hv⟩ := hv
    obtain ⟨x, rfl, k1⟩ := h3 x g1
    obtain ⟨y, rfl, k2⟩ := h1 y g2
    obtain ⟨z, rfl, k3⟩ := h2 z g3
    cases hv
    exact ⟨_, rfl, .ofPrimary (.timeSum k2 k3 k1)⟩
  | allSum _ _ ih =>
    intro np
    obtain ⟨pre, rfl, -, h⟩ := ih np.tail.tail (by omega)
    exact ⟨.sum :: .lpar :: pre ++ [.rpar], by simp, h.map rfl fun e he => .ofPrimary (.allSum he)⟩
  | @portSum p f r =>
    intro np
    refine ⟨[.sumConnections, .lpar, .id p, .dot, .id f, .rpar], rfl, fun v hv => ?_⟩
    cases hv
    exact ⟨_, rfl, .ofPrimary .portSum⟩
  | @func n r e r' _ ih =>
    intro np
    obtain ⟨pre, rfl, -, h⟩ := ih np.tail.tail (by omega)
    refine ⟨.id n :: .lpar :: pre ++ [.rpar], by simp, fun v hv => ?_⟩
    simp only [visitPT, bind_ok_iff] at hv
    obtain ⟨x, g1, g2⟩ := hv
    split_ifs at g2 with hn
    subst hn
    obtain ⟨x, rfl, k1⟩ := h x g1
    cases g2
    exact ⟨_, rfl, .ofPrimary (.expectation k1)⟩
  | @timeShift n r s r' _ ih =>
    intro np
    obtain ⟨pre, e1, h⟩ := ih np.tail.tail
    refine ⟨.id n :: .lbrack :: pre ++ [.rbrack], by rw [e1]; simp, fun v hv => ?_⟩
    simp only [visitPT, bind_ok_iff] at hv
    obtain ⟨e, g1, y, g2, g3⟩ := hv
    obtain ⟨k, rfl, hk⟩ := h y g2
    cases g3
    refine ⟨_, rfl, ?_⟩
    rw [← atShift_eq]
    exact .ofPrimary (.timeShift (convert_named.1 g1) hk)
  | @timeIndex n r e r' _ _ ih =>
    intro np
    obtain ⟨pre, rfl, -, h⟩ := ih np.tail.tail (by omega)
    refine ⟨.id n :: .lbrack :: pre ++ [.rbrack], by simp, fun v hv => ?_⟩
    simp only [visitPT, bind_ok_iff] at hv
    obtain ⟨e, g1, y, g2, g3⟩ := hv
    obtain ⟨k, rfl, hk⟩ := h y g2
    cases g3
    exact ⟨_, rfl, .ofPrimary (.timeIndex (convert_named.1 g1) hk)⟩
  | @ident n r _ _ _ =>
    intro np
    refine ⟨[.id n], rfl, fun v hv => ?_⟩
    simp only [visitPT, bind_ok_iff] at hv
    obtain ⟨e, g1, g2⟩ := hv
    cases g2
    exact ⟨_, rfl, .ofPrimary (.ofAtom (.identifier (convert_named.1 g1)))⟩
  | @loopMul p l t op r e r1 x r2 ht hp _ _ ih1 ih2 =>
    intro np k pre0 h0 hk hpk
    simp only [headPrec, prec_mul ht] at hk
    obtain ⟨p1, rfl, hs, h1⟩ := ih1 np.tail (by omega)
    have hl := RV.lower (p := 11) h0 hk
    have : RV ids (lvlOf 11) (pre0 ++ t :: p1) (.muldiv op l e) := by
      rcases mul_tok ht with ⟨rfl, rfl⟩ | ⟨rfl, rfl⟩
      · exact hl.bin h1 rfl fun a b ha hb => .mul ha hb
      · exact hl.bin h1 rfl fun a b ha hb => .div ha hb
    obtain ⟨p2, rfl, h2, h3⟩ := ih2 np.tail.right 11 _ this (headPrec_le _) hp
    exact ⟨t :: p1 ++ p2, by simp, h2, by simpa using h3⟩
  | @loopAdd p l t op r e r1 x r2 ht hp _ _ ih1 ih2 =>
    intro np k pre0 h0 hk hpk
    simp only [headPrec, (prec_add ht).1] at hk
    obtain ⟨p1, rfl, hs, h1⟩ := ih1 np.tail (by omega)
    have hl := RV.lower (p := 10) h0 hk
    have : RV ids (lvlOf 10) (pre0 ++ t :: p1) (.addsub op l e) := by
      rcases add_tok ht with ⟨rfl, rfl⟩ | ⟨rfl, rfl⟩
      · exact hl.bin h1 rfl fun a b ha hb => .add ha hb
      · exact hl.bin h1 rfl fun a b ha hb => .sub ha hb
    obtain ⟨p2, rfl, h2, h3⟩ := ih2 np.tail.right 10 _ this (by omega) hp
    exact ⟨t :: p1 ++ p2, by simp, h2, by simpa using h3⟩
  | @loopCmp p l c r e r1 x r2 hp _ _ ih1 ih2 =>
    intro np k pre0 h0 hk hpk
    simp only [headPrec, Tok.prec] at hk
    obtain ⟨p1, rfl, hs, h1⟩ := ih1 np.tail (by omega)
    have hl := RV.lower (p := 9) h0 hk
    have : RV ids (lvlOf 9) (pre0 ++ .cmp c :: p1) (.cmp c l e) := by
      intro v hv
      simp only [visitPT, bind_ok_iff] at hv
      obtain ⟨x, g1, y, g2, g3⟩ := hv
      obtain ⟨a, rfl, ha⟩ := hl x g1
      obtain ⟨b, rfl, hb⟩ := h1 y g2
      cases g3
      exact ⟨_, rfl, .compare ha hb⟩
    obtain ⟨p2, rfl, h2, h3⟩ := ih2 np.tail.right 9 _ this (by omega) hp
    exact ⟨.cmp c :: p1 ++ p2, by simp, h2, by simpa using h3⟩
  | loopStop h =>
    intro np k pre0 h0 hk hpk
    exact ⟨[], rfl, h, by simpa using h0.lower hpk⟩
  | shift0 h =>
    intro np
    refine ⟨[.time], rfl, fun v hv => ?_⟩
    cases hv
    exact ⟨_, rfl, .now⟩
  | shift ht _ _ ih1 ih2 =>
    intro np
    obtain ⟨p1, e1, h1⟩ := ih1 np.tail
    rw [e1] at np
    obtain ⟨p2, rfl, h2⟩ := ih2 np.tail.right p1 (.inl h1)
    refine ⟨.time :: p1 ++ p2, by rw [e1]; simp, h2.same rfl fun e he => .later he⟩
  | @signedNum t op ip fp r ht =>
    intro np
    refine ⟨[t, .num ip fp], rfl, fun v hv => ?_⟩
    have hf : Reads ids .factor [.num ip fp] (.lit (.fin (decimalVal ip fp))) := by
      rw [decimalVal_eq]
      exact .factorAtom .number
    rcases add_tok ht with ⟨rfl, rfl⟩ | ⟨rfl, rfl⟩
    · cases hv
      exact ⟨_, rfl, .positive hf⟩
    · cases hv
      exact ⟨_, rfl, .negative hf⟩
  | @signedIdent t op n r ht =>
    intro np
    refine ⟨[t, .id n], rfl, fun v hv => ?_⟩
    simp only [visitPT, bind_ok_iff] at hv
    obtain ⟨_, ⟨e, g1, g3⟩, g2⟩ := hv
    cases g3
    have hf : Reads ids .factor [.id n] e := .factorAtom (.identifier (convert_named.1 g1))
    rcases add_tok ht with ⟨rfl, rfl⟩ | ⟨rfl, rfl⟩
    · cases g2
      exact ⟨_, rfl, .positive hf⟩
    · cases g2
      exact ⟨_, rfl, .negative hf⟩
  | @signedExpr t op r e r' ht _ ih =>
    intro np
    obtain ⟨pre, rfl, -, h⟩ := ih np.tail.tail (by omega)
    refine ⟨t :: .lpar :: pre ++ [.rpar], by simp, fun v hv => ?_⟩
    simp only [visitPT, bind_ok_iff] at hv
    obtain ⟨y, g1, g2⟩ := hv
    obtain ⟨e, rfl, he⟩ := h y g1
    have hf : Reads ids .factor (.lpar :: pre ++ [.rpar]) e := .factorParen he
    rcases add_tok ht with ⟨rfl, rfl⟩ | ⟨rfl, rfl⟩
    · cases g2
      exact ⟨_, rfl, .positive hf⟩
    · cases g2
      exact ⟨_, rfl, .negative hf⟩
  | @shiftMul l t op r e r1 x r2 ht _ _ ih1 ih2 =>
    intro np pre0 h0
    obtain ⟨p1, rfl, h1, -⟩ := ih1 np.tail
    obtain ⟨h1, hs⟩ := h1 (by omega)
    have hl : RV ids .signed pre0 l := by
      rcases h0 with h | ⟨_, h⟩
      · exact h
      · simp only [headPrec, prec_mul ht] at h
        omega
    have : RV ids .amount (pre0 ++ t :: p1) (.shiftMuldiv op l e) := by
      rcases mul_tok ht with ⟨rfl, rfl⟩ | ⟨rfl, rfl⟩
      · exact hl.bin h1 rfl fun a b ha hb => .signedMul ha hb
      · exact hl.bin h1 rfl fun a b ha hb => .signedDiv ha hb
    obtain ⟨p2, rfl, h3⟩ := ih2 np.tail.right _ (.inr ⟨this, hs⟩)
    exact ⟨t :: p1 ++ p2, by simp, by simpa using h3⟩
  | @shiftAdd l t op r e r1 x r2 ht _ _ ih1 ih2 =>
    intro np pre0 h0
    obtain ⟨p1, rfl, h1, -⟩ := ih1 np.tail
    obtain ⟨h1, hs⟩ := h1 (by omega)
    have hl : RV ids .amount pre0 l := by
      rcases h0 with h | ⟨h, _⟩
      · exact h.same rfl fun e he => .ofSigned he
      · exact h
    have : RV ids .amount (pre0 ++ t :: p1) (.shiftAddsub op l e) := by
      rcases add_tok ht with ⟨rfl, rfl⟩ | ⟨rfl, rfl⟩
      · exact hl.bin h1 rfl fun a b ha hb => .amountAdd ha hb
      · exact hl.bin h1 rfl fun a b ha hb => .amountSub ha hb
    obtain ⟨p2, rfl, h3⟩ := ih2 np.tail.right _ (.inr ⟨this, hs⟩)
    exact ⟨t :: p1 ++ p2, by simp, by simpa using h3⟩
  | shiftStop h =>
    intro np pre0 h0
    refine ⟨[], rfl, ?_⟩
    rw [List.append_nil]
    rcases h0 with h | ⟨h, _⟩
    · exact h.same rfl fun e he => .ofSigned he
    · exact h
  | right _ _ ih1 ih2 =>
    intro np
    obtain ⟨p1, rfl, h1⟩ := ih1 np
    obtain ⟨p2, rfl, h2, h3⟩ := ih2 np.right
    refine ⟨p1 ++ p2, by simp, fun hp => ?_, fun hp => ?_⟩
    · exact h3 hp _ (h1.same rfl fun e he => .ofFactor he)
    · obtain ⟨rfl, rfl⟩ := h2 hp
      simpa using h1
  | @rightNum ip fp r =>
    intro np
    refine ⟨[.num ip fp], rfl, fun v hv => ?_⟩
    cases hv
    rw [decimalVal_eq]
    exact ⟨_, rfl, .factorAtom .number⟩
  | @rightIdent n r =>
    intro np
    refine ⟨[.id n], rfl, fun v hv => ?_⟩
    simp only [visitPT, bind_ok_iff] at hv
    obtain ⟨e, g1, g2⟩ := hv
    cases g2
    exact ⟨_, rfl, .factorAtom (.identifier (convert_named.1 g1))⟩
  | rightExpr _ ih =>
    intro np
    obtain ⟨pre, rfl, -, h⟩ := ih np.tail (by omega)
    exact ⟨.lpar :: pre ++ [.rpar], by simp, h.same rfl fun e he => .factorParen he⟩
  | @rightMul p l t op r e r1 x r2 ht hp _ _ ih1 ih2 =>
    intro np
    obtain ⟨p1, rfl, -, h1⟩ := ih1 np.tail
    have h1 := h1 (by omega)
    obtain ⟨p2, rfl, -, h2⟩ := ih2 np.tail.right
    refine ⟨t :: p1 ++ p2, by simp, fun h => absurd hp (by omega), fun _ pre0 hl => ?_⟩
    have : RV ids .term (pre0 ++ t :: p1) (.rightMuldiv op l e) := by
      rcases mul_tok ht with ⟨rfl, rfl⟩ | ⟨rfl, rfl⟩
      · exact hl.bin h1 rfl fun a b ha hb => .termMul ha hb
      · exact hl.bin h1 rfl fun a b ha hb => .termDiv ha hb
    simpa using h2 hp _ this
  | rightStop h =>
    intro np
    refine ⟨[], rfl, fun _ => ⟨rfl, rfl⟩, fun hp pre0 h0 => ⟨by simpa using h0, ?_⟩⟩
    rcases h with h | h
    · exact h
    · omega

/-- the visitor only raises parse exceptions -/
theorem visit_error (ids : Identifiers) (pt : PT) (err : Err) (h : visitPT ids pt = .error err) : err = .parseException := by
  have hc : ∀ n err, convertIdentifier ids n = .error err → err = .parseException := by
    intro n err h
    unfold convertIdentifier at h
    split_ifs at h <;> cases h
    rfl
  have h1 : ∀ f v err, pval1 f v = .error err → err = .parseException := by
    intro f v err h
    cases v <;> cases h
    rfl
  have h2 : ∀ f v w err, pval2 f v w = .error err → err = .parseException := by
    intro f v w err h
    cases v <;> cases w <;> cases h <;> rfl
  have hs : ∀ op v err, signVal op v = .error err → err = .parseException := by
    intro op v err h
    cases op
    · cases h
    · exact h1 _ _ _ h
  have bind_err : ∀ {α β} {m : R α} {f : α → R β} {err}, (m >>= f) = .error err → m = .error err ∨ ∃ a, m = .ok a ∧ f a = .error err := by
    intro α β m f err h
    cases m with
    | error e => cases h; exact .inl rfl
    | ok a => exact .inr ⟨a, rfl, h⟩
  induction pt generalizing err with
  | num => cases h
  | ident n =>
    rcases bind_err h with h | ⟨_, _, h⟩
    · exact hc _ _ h
    · cases h
  | portField => cases h
  | neg e ih =>
    rcases bind_err h with h | ⟨_, _, h⟩
    · exact ih _ h
    · exact h1 _ _ _ h
  | paren e ih => exact ih _ h
  | muldiv op l r ihl ihr | addsub op l r ihl ihr | shiftMuldiv op l r ihl ihr | shiftAddsub op l r ihl ihr | rightMuldiv op l r ihl ihr =>
    rcases bind_err h with h | ⟨_, _, h⟩
    · exact ihl _ h
    · rcases bind_err h with h | ⟨_, _, h⟩
      · exact ihr _ h
      · exact h2 _ _ _ _ h
  | cmp c l r ihl ihr =>
    rcases bind_err h with h | ⟨_, _, h⟩
    · exact ihl _ h
    · rcases bind_err h with h | ⟨_, _, h⟩
      · exact ihr _ h
      · cases h
  | allSum e ih =>
    rcases bind_err h with h | ⟨_, _, h⟩
    · exact ih _ h
    · exact h1 _ _ _ h
  | portSum => cases h
  | timeSum a b e iha ihb ihe =>
    rcases bind_err h with h | ⟨v, _, h⟩
    · exact ihe _ h
    · rcases bind_err h with h | ⟨x, _, h⟩
      · exact iha _ h
      · rcases bind_err h with h | ⟨y, _, h⟩
        · exact ihb _ h
        · cases v <;> cases x <;> cases y <;> cases h <;> rfl
  | func n e ih =>
    rcases bind_err h with h | ⟨_, _, h⟩
    · exact ih _ h
    · split_ifs at h
      · exact h1 _ _ _ h
      · cases h; rfl
  | timeShift n s ih =>
    rcases bind_err h with h | ⟨_, _, h⟩
    · exact hc _ _ h
    · rcases bind_err h with h | ⟨v, _, h⟩
      · exact ih _ h
      · cases v <;> cases h
        rfl
  | timeIndex n s ih =>
    rcases bind_err h with h | ⟨_, _, h⟩
    · exact hc _ _ h
    · rcases bind_err h with h | ⟨v, _, h⟩
      · exact ih _ h
      · exact h1 _ _ _ h
  | timeShiftExpr e s ihe ihs | timeIndexExpr e s ihe ihs =>
    rcases bind_err h with h | ⟨_, _, h⟩
    · exact ihe _ h
    · rcases bind_err h with h | ⟨v, _, h⟩
      · exact ihs _ h
      · cases h
  | shift0 => cases h
  | shift s ih => exact ih _ h
  | signedAtom op a ih | signedExpr op a ih =>
    rcases bind_err h with h | ⟨_, _, h⟩
    · exact ih _ h
    · exact hs _ _ _ h
  | rightExpr e ih => exact ih _ h

end Verif
