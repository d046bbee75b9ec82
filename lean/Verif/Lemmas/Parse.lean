import Verif.Spec.Grammar

/-!
# The parser as a set of rules
-/

namespace Verif

theorem expect_some {t : Tok} {ts r : List Tok} : expect t ts = some r ↔ ts = t :: r := by
  cases ts with
  | nil => simp [expect]
  | cons u ts =>
    by_cases h : u = t
    · simp [expect, h]
    · simp [expect, h]

/-- precedence of an operator, zero for other tokens -/
def Tok.prec : Tok → Nat
  | .star | .slash => 11
  | .plus | .minus => 10
  | .cmp _ => 9
  | _ => 0

def headPrec : List Tok → Nat
  | [] => 0
  | t :: _ => t.prec

theorem prec_mul {t : Tok} {op} (h : mulOp? t = some op) : t.prec = 11 := by
  cases t <;> simp_all [mulOp?, Tok.prec]
theorem prec_add {t : Tok} {op} (h : addOp? t = some op) : t.prec = 10 ∧ mulOp? t = none := by
  cases t <;> simp_all [addOp?, mulOp?, Tok.prec]
theorem prec_le (t : Tok) : t.prec ≤ 11 := by cases t <;> simp [Tok.prec]
theorem headPrec_le (ts : List Tok) : headPrec ts ≤ 11 := by
  cases ts with
  | nil => simp [headPrec]
  | cons t _ => exact prec_le t

/-- the rules that the parser follows -/
inductive Big : Job → List Tok → PT → List Tok → Prop
  | expr {p ts l t1 e r} : Big .prim ts l t1 → Big (.loop p l) t1 e r → Big (.expr p) ts e r
  | num {ip fp r} : Big .prim (.num ip fp :: r) (.num ip fp) r
  | portField {p f r} : Big .prim (.id p :: .dot :: .id f :: r) (.portField p f) r
  | neg {r e r'} : Big (.expr 13) r e r' → Big .prim (.minus :: r) (.neg e) r'
  | paren {r e r'} : Big (.expr 0) r e (.rpar :: r') → (∀ x, r' ≠ .lbrack :: x) → Big .prim (.lpar :: r) (.paren e) r'
  | shiftExpr {r e r' s r''} : Big (.expr 0) r e (.rpar :: .lbrack :: .time :: r') → Big .shift (.time :: r') s (.rbrack :: r'') →
      Big .prim (.lpar :: r) (.timeShiftExpr e s) r''
  | indexExpr {r e r' i r''} : Big (.expr 0) r e (.rpar :: .lbrack :: r') → (∀ x, r' ≠ .time :: x) → Big (.expr 0) r' i (.rbrack :: r'') →
      Big .prim (.lpar :: r) (.timeIndexExpr e i) r''
  | timeSum {r a r1 b r2 e r3} : Big .shift (.time :: r) a (.dotdot :: r1) → Big .shift r1 b (.comma :: r2) →
      Big (.expr 0) r2 e (.rpar :: r3) → Big .prim (.sum :: .lpar :: .time :: r) (.timeSum a b e) r3
  | allSum {r e r'} : (∀ x, r ≠ .time :: x) → Big (.expr 0) r e (.rpar :: r') → Big .prim (.sum :: .lpar :: r) (.allSum e) r'
  | portSum {p f r} : Big .prim (.sumConnections :: .lpar :: .id p :: .dot :: .id f :: .rpar :: r) (.portSum p f) r
  | func {n r e r'} : Big (.expr 0) r e (.rpar :: r') → Big .prim (.id n :: .lpar :: r) (.func n e) r'
  | timeShift {n r s r'} : Big .shift (.time :: r) s (.rbrack :: r') → Big .prim (.id n :: .lbrack :: .time :: r) (.timeShift n s) r'
  | timeIndex {n r e r'} : (∀ x, r ≠ .time :: x) → Big (.expr 0) r e (.rbrack :: r') →
      Big .prim (.id n :: .lbrack :: r) (.timeIndex n e) r'
  | ident {n r} : (∀ x, r ≠ .dot :: x) → (∀ x, r ≠ .lpar :: x) → (∀ x, r ≠ .lbrack :: x) → Big .prim (.id n :: r) (.ident n) r
  | loopMul {p l t op r e r1 x r2} : mulOp? t = some op → p ≤ 11 → Big (.expr 12) r e r1 → Big (.loop p (.muldiv op l e)) r1 x r2 →
      Big (.loop p l) (t :: r) x r2
  | loopAdd {p l t op r e r1 x r2} : addOp? t = some op → p ≤ 10 → Big (.expr 11) r e r1 → Big (.loop p (.addsub op l e)) r1 x r2 →
      Big (.loop p l) (t :: r) x r2
  | loopCmp {p l c r e r1 x r2} : p ≤ 9 → Big (.expr 10) r e r1 → Big (.loop p (.cmp c l e)) r1 x r2 →
      Big (.loop p l) (.cmp c :: r) x r2
  | loopStop {p l ts} : (headPrec ts < p ∨ headPrec ts = 0) → Big (.loop p l) ts l ts
  | shift0 {r} : headPrec r ≠ 10 → Big .shift (.time :: r) .shift0 r
  | shift {t op r s r1 s' r2} : addOp? t = some op → Big .shiftPrim (t :: r) s r1 → Big (.shiftLoop s) r1 s' r2 →
      Big .shift (.time :: t :: r) (.shift s') r2
  | signedNum {t op ip fp r} : addOp? t = some op → Big .shiftPrim (t :: .num ip fp :: r) (.signedAtom op (.num ip fp)) r
  | signedIdent {t op n r} : addOp? t = some op → Big .shiftPrim (t :: .id n :: r) (.signedAtom op (.ident n)) r
  | signedExpr {t op r e r'} : addOp? t = some op → Big (.expr 0) r e (.rpar :: r') → Big .shiftPrim (t :: .lpar :: r) (.signedExpr op e) r'
  | shiftMul {l t op r e r1 x r2} : mulOp? t = some op → Big (.right 0) r e r1 → Big (.shiftLoop (.shiftMuldiv op l e)) r1 x r2 →
      Big (.shiftLoop l) (t :: r) x r2
  | shiftAdd {l t op r e r1 x r2} : addOp? t = some op → Big (.right 0) r e r1 → Big (.shiftLoop (.shiftAddsub op l e)) r1 x r2 →
      Big (.shiftLoop l) (t :: r) x r2
  | shiftStop {l ts} : headPrec ts < 10 → Big (.shiftLoop l) ts l ts
  | right {p ts l t1 e r} : Big .rightPrim ts l t1 → Big (.rightLoop p l) t1 e r → Big (.right p) ts e r
  | rightNum {ip fp r} : Big .rightPrim (.num ip fp :: r) (.num ip fp) r
  | rightIdent {n r} : Big .rightPrim (.id n :: r) (.ident n) r
  | rightExpr {r e r'} : Big (.expr 0) r e (.rpar :: r') → Big .rightPrim (.lpar :: r) (.rightExpr e) r'
  | rightMul {p l t op r e r1 x r2} : mulOp? t = some op → p ≤ 3 → Big (.right 4) r e r1 → Big (.rightLoop p (.rightMuldiv op l e)) r1 x r2 →
      Big (.rightLoop p l) (t :: r) x r2
  | rightStop {p l ts} : (headPrec ts < 11 ∨ 3 < p) → Big (.rightLoop p l) ts l ts

/-- least number of tokens consumed -/
def Job.least : Job → Nat
  | .loop _ _ | .shiftLoop _ | .rightLoop _ _ => 0
  | _ => 1

/-- depth of calls that is enough -/
def Job.need (L : Nat) : Job → Nat
  | .expr _ | .right _ => 3 * L + 2
  | _ => 3 * L + 1

theorem Big.length {j ts e r} (h : Big j ts e r) : r.length + j.least ≤ ts.length := by
  induction h <;> simp only [Job.least, List.length_cons] at * <;> omega

/-- the parser only follows the rules -/
theorem parseJob_big (n : Nat) : ∀ job ts e r, parseJob n job ts = some (e, r) → Big job ts e r := by
  induction n with
  | zero => intro job ts e r h; simp [parseJob] at h
  | succ n ih =>
    intro job ts e r h
    cases job with
    | expr p =>
      simp only [parseJob, Option.bind_eq_bind, Option.bind_eq_some_iff, Prod.exists] at h
      obtain ⟨l, t1, h1, h2⟩ := h
      exact .expr (ih _ _ _ _ h1) (ih _ _ _ _ h2)
    | prim =>
      unfold parseJob at h
      simp only at h
      split at h
      all_goals try simp only [Option.bind_eq_bind, Option.bind_eq_some_iff, Prod.exists, expect_some] at h
      · simp only [Option.some.injEq, Prod.mk.injEq] at h
        obtain ⟨rfl, rfl⟩ := h
        exact .num
      · split at h
        · simp only [Option.some.injEq, Prod.mk.injEq] at h
          obtain ⟨rfl, rfl⟩ := h
          exact .portField
        · cases h
      · obtain ⟨e1, r1, h1, h2⟩ := h
        simp only [Option.some.injEq, Prod.mk.injEq] at h2
        obtain ⟨rfl, rfl⟩ := h2
        exact .neg (ih _ _ _ _ h1)
      · obtain ⟨e1, r1, h1, r2, rfl, h2⟩ := h
        split at h2
        · simp only [Option.bind_eq_some_iff, Prod.exists, expect_some] at h2
          obtain ⟨s, r3, h3, r4, rfl, h4⟩ := h2
          simp only [Option.some.injEq, Prod.mk.injEq] at h4
          obtain ⟨rfl, rfl⟩ := h4
          exact .shiftExpr (ih _ _ _ _ h1) (ih _ _ _ _ h3)
        · rename_i hx
          simp only [Option.bind_eq_some_iff, Prod.exists, expect_some] at h2
          obtain ⟨s, r3, h3, r4, rfl, h4⟩ := h2
          simp only [Option.some.injEq, Prod.mk.injEq] at h4
          obtain ⟨rfl, rfl⟩ := h4
          exact .indexExpr (ih _ _ _ _ h1) (fun x hxx => hx x (by rw [hxx])) (ih _ _ _ _ h3)
        · rename_i hx
          simp only [Option.some.injEq, Prod.mk.injEq] at h2
          obtain ⟨rfl, rfl⟩ := h2
          exact .paren (ih _ _ _ _ h1) hx
      · obtain ⟨a, r1, h1, r2, rfl, b, r3, h3, r4, rfl, c, r5, h5, r6, rfl, h6⟩ := h
        simp only [Option.some.injEq, Prod.mk.injEq] at h6
        obtain ⟨rfl, rfl⟩ := h6
        exact .timeSum (ih _ _ _ _ h1) (ih _ _ _ _ h3) (ih _ _ _ _ h5)
      · rename_i hx
        obtain ⟨a, r1, h1, r2, rfl, h6⟩ := h
        simp only [Option.some.injEq, Prod.mk.injEq] at h6
        obtain ⟨rfl, rfl⟩ := h6
        exact .allSum (fun x hxx => hx x (by rw [hxx])) (ih _ _ _ _ h1)
      · simp only [Option.some.injEq, Prod.mk.injEq] at h
        obtain ⟨rfl, rfl⟩ := h
        exact .portSum
      · obtain ⟨a, r1, h1, r2, rfl, h6⟩ := h
        simp only [Option.some.injEq, Prod.mk.injEq] at h6
        obtain ⟨rfl, rfl⟩ := h6
        exact .func (ih _ _ _ _ h1)
      · obtain ⟨a, r1, h1, r2, rfl, h6⟩ := h
        simp only [Option.some.injEq, Prod.mk.injEq] at h6
        obtain ⟨rfl, rfl⟩ := h6
        exact .timeShift (ih _ _ _ _ h1)
      · rename_i hx
        obtain ⟨a, r1, h1, r2, rfl, h6⟩ := h
        simp only [Option.some.injEq, Prod.mk.injEq] at h6
        obtain ⟨rfl, rfl⟩ := h6
        exact .timeIndex (fun x hxx => hx x hxx) (ih _ _ _ _ h1)
      · rename_i h1 h2 h3 h4
        simp only [Option.some.injEq, Prod.mk.injEq] at h
        obtain ⟨rfl, rfl⟩ := h
        exact .ident (fun x hx => h1 x hx) (fun x hx => h2 x hx) (fun x hx => h4 x hx)
      · cases h
    | loop p l =>
      unfold parseJob at h
      simp only at h
      split at h
      · rename_i t r'
        split at h
        · rename_i op _ hm
          split_ifs at h with hp
          · simp only [Option.bind_eq_bind, Option.bind_eq_some_iff, Prod.exists] at h
            obtain ⟨e1, r1, h1, h2⟩ := h
            exact .loopMul hm hp (ih _ _ _ _ h1) (ih _ _ _ _ h2)
          · simp only [Option.some.injEq, Prod.mk.injEq] at h
            obtain ⟨rfl, rfl⟩ := h
            exact .loopStop (.inl (by simp only [headPrec, prec_mul hm]; omega))
        · rename_i op _ hm ha
          split_ifs at h with hp
          · simp only [Option.bind_eq_bind, Option.bind_eq_some_iff, Prod.exists] at h
            obtain ⟨e1, r1, h1, h2⟩ := h
            exact .loopAdd ha hp (ih _ _ _ _ h1) (ih _ _ _ _ h2)
          · simp only [Option.some.injEq, Prod.mk.injEq] at h
            obtain ⟨rfl, rfl⟩ := h
            exact .loopStop (.inl (by simp only [headPrec, (prec_add ha).1]; omega))
        · split_ifs at h with hp
          · simp only [Option.bind_eq_bind, Option.bind_eq_some_iff, Prod.exists] at h
            obtain ⟨e1, r1, h1, h2⟩ := h
            exact .loopCmp hp (ih _ _ _ _ h1) (ih _ _ _ _ h2)
          · simp only [Option.some.injEq, Prod.mk.injEq] at h
            obtain ⟨rfl, rfl⟩ := h
            exact .loopStop (.inl (by simp only [headPrec, Tok.prec]; omega))
        · rename_i hm ha hc
          simp only [Option.some.injEq, Prod.mk.injEq] at h
          obtain ⟨rfl, rfl⟩ := h
          refine .loopStop (.inr ?_)
          rename_i u _ _ _
          cases u <;> simp_all [headPrec, Tok.prec, mulOp?, addOp?]
      · simp only [Option.some.injEq, Prod.mk.injEq] at h
        obtain ⟨rfl, rfl⟩ := h
        exact .loopStop (.inr rfl)
    | shift =>
      simp only [parseJob, Option.bind_eq_bind, Option.bind_eq_some_iff, Prod.exists, expect_some] at h
      obtain ⟨r1, rfl, h⟩ := h
      split at h
      · rename_i t r'
        split_ifs at h with ha
        · simp only [Option.bind_eq_some_iff, Prod.exists] at h
          obtain ⟨s, r2, h1, s', r3, h2, h3⟩ := h
          obtain ⟨op, ha⟩ := Option.isSome_iff_exists.1 ha
          simp only [Option.some.injEq, Prod.mk.injEq] at h3
          obtain ⟨rfl, rfl⟩ := h3
          exact .shift ha (ih _ _ _ _ h1) (ih _ _ _ _ h2)
        · simp only [Option.some.injEq, Prod.mk.injEq] at h
          obtain ⟨rfl, rfl⟩ := h
          refine .shift0 ?_
          cases t <;> simp_all [headPrec, Tok.prec, addOp?]
      · simp only [Option.some.injEq, Prod.mk.injEq] at h
        obtain ⟨rfl, rfl⟩ := h
        exact .shift0 (by simp [headPrec])
    | shiftPrim =>
      unfold parseJob at h
      simp only at h
      split at h
      · split at h
        · cases h
        · rename_i ha
          split at h
          · simp only [Option.some.injEq, Prod.mk.injEq] at h
            obtain ⟨rfl, rfl⟩ := h
            exact .signedNum ha
          · simp only [Option.some.injEq, Prod.mk.injEq] at h
            obtain ⟨rfl, rfl⟩ := h
            exact .signedIdent ha
          · simp only [Option.bind_eq_bind, Option.bind_eq_some_iff, Prod.exists, expect_some] at h
            obtain ⟨a, r1, h1, r2, rfl, h6⟩ := h
            simp only [Option.some.injEq, Prod.mk.injEq] at h6
            obtain ⟨rfl, rfl⟩ := h6
            exact .signedExpr ha (ih _ _ _ _ h1)
          · cases h
      · cases h
    | shiftLoop l =>
      unfold parseJob at h
      simp only at h
      split at h
      · rename_i t r'
        split at h
        · rename_i hm
          simp only [Option.bind_eq_bind, Option.bind_eq_some_iff, Prod.exists] at h
          obtain ⟨e1, r1, h1, h2⟩ := h
          exact .shiftMul hm (ih _ _ _ _ h1) (ih _ _ _ _ h2)
        · rename_i hm ha
          simp only [Option.bind_eq_bind, Option.bind_eq_some_iff, Prod.exists] at h
          obtain ⟨e1, r1, h1, h2⟩ := h
          exact .shiftAdd ha (ih _ _ _ _ h1) (ih _ _ _ _ h2)
        · rename_i hm ha
          simp only [Option.some.injEq, Prod.mk.injEq] at h
          obtain ⟨rfl, rfl⟩ := h
          refine .shiftStop ?_
          cases t <;> simp_all [headPrec, Tok.prec, mulOp?, addOp?]
      · simp only [Option.some.injEq, Prod.mk.injEq] at h
        obtain ⟨rfl, rfl⟩ := h
        exact .shiftStop (by simp [headPrec])
    | right p =>
      simp only [parseJob, Option.bind_eq_bind, Option.bind_eq_some_iff, Prod.exists] at h
      obtain ⟨l, t1, h1, h2⟩ := h
      exact .right (ih _ _ _ _ h1) (ih _ _ _ _ h2)
    | rightPrim =>
      unfold parseJob at h
      simp only at h
      split at h
      · simp only [Option.some.injEq, Prod.mk.injEq] at h
        obtain ⟨rfl, rfl⟩ := h
        exact .rightNum
      · simp only [Option.some.injEq, Prod.mk.injEq] at h
        obtain ⟨rfl, rfl⟩ := h
        exact .rightIdent
      · simp only [Option.bind_eq_bind, Option.bind_eq_some_iff, Prod.exists, expect_some] at h
        obtain ⟨a, r1, h1, r2, rfl, h6⟩ := h
        simp only [Option.some.injEq, Prod.mk.injEq] at h6
        obtain ⟨rfl, rfl⟩ := h6
        exact .rightExpr (ih _ _ _ _ h1)
      · cases h
    | rightLoop p l =>
      unfold parseJob at h
      simp only at h
      split at h
      · rename_i t r'
        split at h
        · rename_i hm
          split_ifs at h with hp
          · simp only [Option.bind_eq_bind, Option.bind_eq_some_iff, Prod.exists] at h
            obtain ⟨e1, r1, h1, h2⟩ := h
            exact .rightMul hm hp (ih _ _ _ _ h1) (ih _ _ _ _ h2)
          · simp only [Option.some.injEq, Prod.mk.injEq] at h
            obtain ⟨rfl, rfl⟩ := h
            exact .rightStop (.inr (by omega))
        · rename_i hm
          simp only [Option.some.injEq, Prod.mk.injEq] at h
          obtain ⟨rfl, rfl⟩ := h
          refine .rightStop (.inl ?_)
          cases t <;> simp_all [headPrec, Tok.prec, mulOp?]
      · simp only [Option.some.injEq, Prod.mk.injEq] at h
        obtain ⟨rfl, rfl⟩ := h
        exact .rightStop (.inl (by simp [headPrec]))

/-- the parser follows the rules, with enough depth -/
theorem Big.parse {j ts e r} (h : Big j ts e r) : ∀ m, j.need ts.length ≤ m → parseJob m j ts = some (e, r) := by
  induction h with
  | expr h1 h2 ih1 ih2 =>
    intro m hm
    obtain ⟨m, rfl⟩ : ∃ k, m = k + 1 := ⟨m - 1, by simp only [Job.need] at hm; omega⟩
    have := h1.length
    simp only [Job.need, Job.least] at *
    simp only [parseJob, Option.bind_eq_bind, ih1 m (by omega), Option.bind_some]
    exact ih2 m (by omega)
  | num => 
    intro m hm
    obtain ⟨m, rfl⟩ : ∃ k, m = k + 1 := ⟨m - 1, by simp only [Job.need] at hm; omega⟩
    simp [parseJob]
  | portField => 
    intro m hm
    obtain ⟨m, rfl⟩ : ∃ k, m = k + 1 := ⟨m - 1, by simp only [Job.need] at hm; omega⟩
    simp [parseJob]
  | neg h1 ih1 => 
    intro m hm
    obtain ⟨m, rfl⟩ : ∃ k, m = k + 1 := ⟨m - 1, by simp only [Job.need] at hm; omega⟩
    simp only [Job.need, List.length_cons] at *
    simp [parseJob, ih1 m (by omega)]
  | @paren r e r' h1 hx ih1 => 
    intro m hm
    obtain ⟨m, rfl⟩ : ∃ k, m = k + 1 := ⟨m - 1, by simp only [Job.need] at hm; omega⟩
    simp only [Job.need, List.length_cons] at *
    simp only [parseJob, ih1 m (by omega), Option.bind_eq_bind, Option.bind_some, expect, if_true]
    split
    · exact absurd rfl (hx _)
    · exact absurd rfl (hx _)
    · rfl
  | shiftExpr h1 h2 ih1 ih2 => 
    intro m hm
    obtain ⟨m, rfl⟩ : ∃ k, m = k + 1 := ⟨m - 1, by simp only [Job.need] at hm; omega⟩
    have := h1.length
    simp only [Job.need, Job.least, List.length_cons] at *
    simp [parseJob, ih1 m (by omega), ih2 m (by omega), expect]
  | @indexExpr r e r' i r'' h1 hx h2 ih1 ih2 => 
    intro m hm
    obtain ⟨m, rfl⟩ : ∃ k, m = k + 1 := ⟨m - 1, by simp only [Job.need] at hm; omega⟩
    have := h1.length
    simp only [Job.need, Job.least, List.length_cons] at *
    simp only [parseJob, ih1 m (by omega), Option.bind_eq_bind, Option.bind_some, expect, if_true]
    simp [ih2 m (by omega)]
  | timeSum h1 h2 h3 ih1 ih2 ih3 => 
    intro m hm
    obtain ⟨m, rfl⟩ : ∃ k, m = k + 1 := ⟨m - 1, by simp only [Job.need] at hm; omega⟩
    have := h1.length
    have := h2.length
    simp only [Job.need, Job.least, List.length_cons] at *
    simp [parseJob, ih1 m (by omega), ih2 m (by omega), ih3 m (by omega), expect]
  | @allSum r e r' hx h1 ih1 => 
    intro m hm
    obtain ⟨m, rfl⟩ : ∃ k, m = k + 1 := ⟨m - 1, by simp only [Job.need] at hm; omega⟩
    simp only [Job.need, List.length_cons] at *
    have h := ih1 m (by omega)
    cases r with
    | nil => simp [parseJob, h, expect]
    | cons t r => cases t <;> simp_all [parseJob, expect]
  | portSum => 
    intro m hm
    obtain ⟨m, rfl⟩ : ∃ k, m = k + 1 := ⟨m - 1, by simp only [Job.need] at hm; omega⟩
    simp [parseJob]
  | func h1 ih1 => 
    intro m hm
    obtain ⟨m, rfl⟩ : ∃ k, m = k + 1 := ⟨m - 1, by simp only [Job.need] at hm; omega⟩
    simp only [Job.need, List.length_cons] at *
    simp [parseJob, ih1 m (by omega), expect]
  | timeShift h1 ih1 => 
    intro m hm
    obtain ⟨m, rfl⟩ : ∃ k, m = k + 1 := ⟨m - 1, by simp only [Job.need] at hm; omega⟩
    simp only [Job.need, List.length_cons] at *
    simp [parseJob, ih1 m (by omega), expect]
  | @timeIndex n r e r' hx h1 ih1 => 
    intro m hm
    obtain ⟨m, rfl⟩ : ∃ k, m = k + 1 := ⟨m - 1, by simp only [Job.need] at hm; omega⟩
    simp only [Job.need, List.length_cons] at *
    have h := ih1 m (by omega)
    cases r with
    | nil => simp [parseJob, h, expect]
    | cons t r => cases t <;> simp_all [parseJob, expect]
  | @ident n r h1 h2 h3 => 
    intro m hm
    obtain ⟨m, rfl⟩ : ∃ k, m = k + 1 := ⟨m - 1, by simp only [Job.need] at hm; omega⟩
    cases r with
    | nil => simp [parseJob]
    | cons t r => cases t <;> simp_all [parseJob]
  | @loopMul p l t op r e r1 x r2 ht hp h1 h2 ih1 ih2 => 
    intro m hm
    obtain ⟨m, rfl⟩ : ∃ k, m = k + 1 := ⟨m - 1, by simp only [Job.need] at hm; omega⟩
    have := h1.length
    simp only [Job.need, Job.least, List.length_cons] at *
    simp only [parseJob, ht, hp, if_true, ih1 m (by omega), Option.bind_eq_bind, Option.bind_some]
    exact ih2 m (by omega)
  | @loopAdd p l t op r e r1 x r2 ht hp h1 h2 ih1 ih2 => 
    intro m hm
    obtain ⟨m, rfl⟩ : ∃ k, m = k + 1 := ⟨m - 1, by simp only [Job.need] at hm; omega⟩
    have := h1.length
    simp only [Job.need, Job.least, List.length_cons] at *
    simp only [parseJob, ht, (prec_add ht).2, hp, if_true, ih1 m (by omega), Option.bind_eq_bind, Option.bind_some]
    exact ih2 m (by omega)
  | @loopCmp p l c r e r1 x r2 hp h1 h2 ih1 ih2 => 
    intro m hm
    obtain ⟨m, rfl⟩ : ∃ k, m = k + 1 := ⟨m - 1, by simp only [Job.need] at hm; omega⟩
    have := h1.length
    simp only [Job.need, Job.least, List.length_cons] at *
    simp only [parseJob, mulOp?, addOp?, hp, if_true, ih1 m (by omega), Option.bind_eq_bind, Option.bind_some]
    exact ih2 m (by omega)
  | @loopStop p l ts h => 
    intro m hm
    obtain ⟨m, rfl⟩ : ∃ k, m = k + 1 := ⟨m - 1, by simp only [Job.need] at hm; omega⟩
    cases ts with
    | nil => simp [parseJob]
    | cons t r =>
      cases t <;> simp_all [parseJob, headPrec, Tok.prec, mulOp?, addOp?]
      all_goals intro hh; omega
  | @shift0 r h => 
    intro m hm
    obtain ⟨m, rfl⟩ : ∃ k, m = k + 1 := ⟨m - 1, by simp only [Job.need] at hm; omega⟩
    cases r with
    | nil => simp [parseJob, expect]
    | cons t r => cases t <;> simp_all [parseJob, expect, headPrec, Tok.prec, addOp?]
  | @shift t op r s r1 s' r2 ht h1 h2 ih1 ih2 => 
    intro m hm
    obtain ⟨m, rfl⟩ : ∃ k, m = k + 1 := ⟨m - 1, by simp only [Job.need] at hm; omega⟩
    have := h1.length
    simp only [Job.need, Job.least, List.length_cons] at *
    simp [parseJob, expect, ht, ih1 m (by omega), ih2 m (by omega)]
  | signedNum ht => 
    intro m hm
    obtain ⟨m, rfl⟩ : ∃ k, m = k + 1 := ⟨m - 1, by simp only [Job.need] at hm; omega⟩
    simp [parseJob, ht]
  | signedIdent ht => 
    intro m hm
    obtain ⟨m, rfl⟩ : ∃ k, m = k + 1 := ⟨m - 1, by simp only [Job.need] at hm; omega⟩
    simp [parseJob, ht]
  | signedExpr ht h1 ih1 => 
    intro m hm
    obtain ⟨m, rfl⟩ : ∃ k, m = k + 1 := ⟨m - 1, by simp only [Job.need] at hm; omega⟩
    simp only [Job.need, List.length_cons] at *
    simp [parseJob, ht, ih1 m (by omega), expect]
  | @shiftMul l t op r e r1 x r2 ht h1 h2 ih1 ih2 => 
    intro m hm
    obtain ⟨m, rfl⟩ : ∃ k, m = k + 1 := ⟨m - 1, by simp only [Job.need] at hm; omega⟩
    have := h1.length
    simp only [Job.need, Job.least, List.length_cons] at *
    simp only [parseJob, ht, ih1 m (by omega), Option.bind_eq_bind, Option.bind_some]
    exact ih2 m (by omega)
  | @shiftAdd l t op r e r1 x r2 ht h1 h2 ih1 ih2 => 
    intro m hm
    obtain ⟨m, rfl⟩ : ∃ k, m = k + 1 := ⟨m - 1, by simp only [Job.need] at hm; omega⟩
    have := h1.length
    simp only [Job.need, Job.least, List.length_cons] at *
    simp only [parseJob, ht, (prec_add ht).2, ih1 m (by omega), Option.bind_eq_bind, Option.bind_some]
    exact ih2 m (by omega)
  | @shiftStop l ts h => 
    intro m hm
    obtain ⟨m, rfl⟩ : ∃ k, m = k + 1 := ⟨m - 1, by simp only [Job.need] at hm; omega⟩
    cases ts with
    | nil => simp [parseJob]
    | cons t r => cases t <;> simp_all [parseJob, headPrec, Tok.prec, mulOp?, addOp?]
  | right h1 h2 ih1 ih2 =>
    intro m hm
    obtain ⟨m, rfl⟩ : ∃ k, m = k + 1 := ⟨m - 1, by simp only [Job.need] at hm; omega⟩
    have := h1.length
    simp only [Job.need, Job.least] at *
    simp only [parseJob, Option.bind_eq_bind, ih1 m (by omega), Option.bind_some]
    exact ih2 m (by omega)
  | rightNum => 
    intro m hm
    obtain ⟨m, rfl⟩ : ∃ k, m = k + 1 := ⟨m - 1, by simp only [Job.need] at hm; omega⟩
    simp [parseJob]
  | rightIdent => 
    intro m hm
    obtain ⟨m, rfl⟩ : ∃ k, m = k + 1 := ⟨m - 1, by simp only [Job.need] at hm; omega⟩
    simp [parseJob]
  | rightExpr h1 ih1 => 
    intro m hm
    obtain ⟨m, rfl⟩ : ∃ k, m = k + 1 := ⟨m - 1, by simp only [Job.need] at hm; omega⟩
    simp only [Job.need, List.length_cons] at *
    simp [parseJob, ih1 m (by omega), expect]
  | @rightMul p l t op r e r1 x r2 ht hp h1 h2 ih1 ih2 => 
    intro m hm
    obtain ⟨m, rfl⟩ : ∃ k, m = k + 1 := ⟨m - 1, by simp only [Job.need] at hm; omega⟩
    have := h1.length
    simp only [Job.need, Job.least, List.length_cons] at *
    simp only [parseJob, ht, hp, if_true, ih1 m (by omega), Option.bind_eq_bind, Option.bind_some]
    exact ih2 m (by omega)
  | @rightStop p l ts h => 
    intro m hm
    obtain ⟨m, rfl⟩ : ∃ k, m = k + 1 := ⟨m - 1, by simp only [Job.need] at hm; omega⟩
    cases ts with
    | nil => simp [parseJob]
    | cons t r =>
      cases t <;> simp_all [parseJob, headPrec, Tok.prec, mulOp?]
      all_goals intro hh; omega

/-- **The parser is its rules.** -/
theorem parseTokens_iff (ts : List Tok) (e : PT) : parseTokens ts = some e ↔ Big (.expr 0) ts e [] := by
  unfold parseTokens
  constructor
  · intro h
    split at h
    · rename_i heq
      cases h
      exact parseJob_big _ _ _ _ _ heq
    · cases h
  · intro h
    rw [h.parse _ (by simp [Job.need])]

end Verif
