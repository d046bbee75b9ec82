import Verif.Lemmas.CopySubs
import Verif.Lemmas.Equality
import Verif.Lemmas.Degree

/-! # Properties C01–C05: building, copying, comparing and evaluating expressions -/

namespace Verif
namespace Props
open Expr

/-- A concrete evaluation context used by the non-vacuity examples: x = 3, y = 5, p = 2. -/
def ctx0 : ValueProvider := evaluationContext [("x", 3), ("y", 5)] [("p", 2)]

/-- x + y - 1 : a sum with a nested history of operators -/
def e0 : Expr := ((var "x").addOp (var "y")).subOp (lit 1)

/-! ## C01 -/

/-- C01 (for every operator except `number - expression`).
Every binary operator between two expressions, unary minus, and every operator with a number on either side,
evaluates to the arithmetic on the evaluations, with Python's evaluation order of failures.  The only expressions
excluded are literal empty sums `AdditionNode([])`, which no operator builds (`c01_no_empty_sum`).
Missing from the full statement: `number - expression`, which is wrong in the code (`c01_rsub_violated`). -/
theorem c01_operators_partial (p : ValueProvider) (a b : Expr) (ha : a ≠ add []) (hb : b ≠ add []) (x : Num) :
    evaluate p (a.addOp b) = (do let u ← evaluate p a; let v ← evaluate p b; .ok (u + v)) ∧
    evaluate p (a.subOp b) = (do let u ← evaluate p a; let v ← evaluate p b; .ok (u - v)) ∧
    evaluate p a.negOp = (do let u ← evaluate p a; .ok (-u)) ∧
    evaluate p (a.mulOp b) = (do let u ← evaluate p a; let v ← evaluate p b; .ok (u * v)) ∧
    evaluate p (a.divOp b) = (do let u ← evaluate p a; let v ← evaluate p b; Num.div u v) ∧
    -- expression on the left, number on the right
    evaluate p (a.addOp (wrapNum x)) = (do let u ← evaluate p a; .ok (u + x)) ∧
    evaluate p (a.subOp (wrapNum x)) = (do let u ← evaluate p a; .ok (u - x)) ∧
    evaluate p (a.mulOp (wrapNum x)) = (do let u ← evaluate p a; .ok (u * x)) ∧
    evaluate p (a.divOp (wrapNum x)) = (do let u ← evaluate p a; Num.div u x) ∧
    -- number on the left, expression on the right
    evaluate p (raddOp a x) = (do let u ← evaluate p a; .ok (x + u)) ∧
    evaluate p (rmulOp a x) = (do let u ← evaluate p a; .ok (x * u)) ∧
    evaluate p (rdivOp a x) = (do let u ← evaluate p a; Num.div x u) := by
  have hx : wrapNum x ≠ add [] := by simp [wrapNum]
  refine ⟨evaluate_addOp p ha hb, evaluate_subOp p ha hb, by simp only [negOp, evaluate],
    by simp only [mulOp, evaluate], by simp only [divOp, evaluate], ?_, ?_, ?_, ?_, ?_, ?_, ?_⟩
  · rw [evaluate_addOp p ha hx]; rfl
  · rw [evaluate_subOp p ha hx]; rfl
  · simp only [mulOp, wrapNum, evaluate, ok_bind]
  · simp only [divOp, wrapNum, evaluate, ok_bind]
  · rw [raddOp, evaluate_addOp p hx ha]; rfl
  · simp only [rmulOp, wrapNum, evaluate, ok_bind]
  · simp only [rdivOp, wrapNum, evaluate, ok_bind]

/-- the hypotheses of `c01_operators_partial` are met by a nested sum, and the value is the expected one -/
example : e0 ≠ add [] ∧ evaluate ctx0 (e0.subOp e0) = .ok 0 ∧ evaluate ctx0 e0 = .ok 7 := by
  refine ⟨by simp [e0, subOp, addOp, operands], ?_, ?_⟩ <;> decide +kernel

/-- What `number - expression` really computes in the code: the sum. -/
theorem c01_rsub_is_addition (p : ValueProvider) (a : Expr) (ha : a ≠ add []) (x : Num) :
    evaluate p (rsubOp a x) = (do let u ← evaluate p a; .ok (x + u)) := by
  rw [rsubOp, evaluate_addOp p (by simp [wrapNum]) ha]; rfl

/-- C01 is violated by `number - expression`: `1 - x` does not evaluate to `1` minus the value of `x`. -/
theorem c01_rsub_violated : ∃ (p : ValueProvider) (a : Expr) (x u : Num), evaluate p a = .ok u ∧
    evaluate p (rsubOp a x) ≠ .ok (x - u) :=
  ⟨ctx0, var "x", 1, 3, by decide +kernel, by decide +kernel⟩

/-- Operators never build an empty sum out of expressions that are not empty sums. -/
theorem c01_no_empty_sum (a b : Expr) (ha : a ≠ add []) (x : Num) :
    a.addOp b ≠ add [] ∧ a.subOp b ≠ add [] ∧ a.negOp ≠ add [] ∧ a.mulOp b ≠ add [] ∧ a.divOp b ≠ add [] ∧
    raddOp a x ≠ add [] ∧ rsubOp a x ≠ add [] ∧ rmulOp a x ≠ add [] ∧ rdivOp a x ≠ add [] ∧
    wrapNum x ≠ add [] := by
  have hx : wrapNum x ≠ add [] := by simp [wrapNum]
  refine ⟨addOp_ne_nil ha, ?_, by simp [negOp], by simp [mulOp], by simp [divOp], addOp_ne_nil hx,
    addOp_ne_nil hx, by simp [rmulOp], by simp [rdivOp], hx⟩
  intro h
  have := operands_ne_nil ha
  simp [subOp] at h
  exact this h.1

/-! ## C02 -/

theorem hookSound_copy (p : ValueProvider) : HookSound copyHooks p p where
  var n e h := by simp only [copyHooks, Except.ok.injEq] at h; subst h; exact ⟨rfl, by simp⟩
  par n e h := by simp only [copyHooks, Except.ok.injEq] at h; subst h; exact ⟨rfl, by simp⟩
  cvar c n e h := by simp only [copyHooks, Except.ok.injEq] at h; subst h; exact ⟨rfl, by simp⟩
  cpar c n e h := by simp only [copyHooks, Except.ok.injEq] at h; subst h; exact ⟨rfl, by simp⟩
  pvar c n ti si e h := ⟨ti, si, (Except.ok.inj h).symm⟩
  ppar c n ti si e h := ⟨ti, si, (Except.ok.inj h).symm⟩
  portField p f e h := (Except.ok.inj h).symm
  agg := rfl

/-- C02, value: a copy evaluates exactly as the original (same value or same exception) in every context, and
copying raises only if evaluating raises in every context. -/
theorem c02_copy_value (e : Expr) :
    (∀ e', copyExpression e = .ok e' → ∀ p, evaluate p e' = evaluate p e) ∧
    (∀ x, copyExpression e = .error x → ∀ p, ∃ y, evaluate p e = .error y) := by
  refine ⟨fun e' h p => (copyWith_eval (hookSound_copy p) e e' h).1, fun x h p => ?_⟩
  exact copyWith_error (h := copyHooks) (p := p) (by simp [copyHooks]) (by simp [copyHooks])
    (by simp [copyHooks]) (by simp [copyHooks]) e x h

/-- C02, shape: copying succeeds unless the tree contains a literal empty sum, the copy contains no sum nested
directly in a sum (nor a sum of fewer than two operands), and copying a copy changes nothing. -/
theorem c02_copy_flat_idempotent (e : Expr) :
    (add [] ∉ e.subs → ∃ e', copyExpression e = .ok e') ∧
    ∀ e', copyExpression e = .ok e' → Flat e' ∧ copyExpression e' = .ok e' :=
  ⟨copyExpression_ok e, fun e' h => ⟨copy_flat e e' h, copy_of_flat e' (copy_flat e e' h)⟩⟩

/-- non-vacuity: a sum nested in a sum is copied, and the copy differs from the original -/
example : ∃ e e', copyExpression e = .ok e' ∧ add [] ∉ e.subs ∧ ¬ Flat e ∧ Flat e' ∧
    evaluate ctx0 e' = .ok 10 ∧ evaluate ctx0 e = .ok 10 := by
  refine ⟨add [add [var "x", var "y"], par "p"], add [var "x", var "y", par "p"], by rfl, by simp [subs, subsList],
    ?_, copy_flat (add [add [var "x", var "y"], par "p"]) _ (by rfl), by decide +kernel, by decide +kernel⟩
  intro h
  have := (h _ (mem_subs_self _)).2 (add [var "x", var "y"]) (by simp)
  simp [isSum] at this

/-! ## C03 -/

/-- C03, exact comparison: with zero tolerances two NaN-free trees are equal exactly when they are identical. -/
theorem c03_exact (a b : Expr) (ha : NoNaN a) : expressionsEqual a b = .ok true ↔ a = b := by
  simp only [expressionsEqual, lt_irrefl, if_false, Except.ok.injEq]
  exact ⟨exprEq_zero_eq a b, fun h => h ▸ exprEq_refl 0 0 a ha⟩

/-- C03, tolerant comparison: symmetric (for all trees), reflexive (on NaN-free trees), monotone in both
tolerances; negative tolerances are rejected, others never raise. -/
theorem c03_tolerant (a b : Expr) (at_ rt : ℚ) :
    (0 ≤ at_ → 0 ≤ rt → ∃ r, expressionsEqual a b at_ rt = .ok r) ∧
    (at_ < 0 ∨ rt < 0 → ∃ m, expressionsEqual a b at_ rt = .error (.valueError m)) ∧
    expressionsEqual a b at_ rt = expressionsEqual b a at_ rt ∧
    (NoNaN a → 0 ≤ at_ → 0 ≤ rt → expressionsEqual a a at_ rt = .ok true) ∧
    (∀ at' rt', at_ ≤ at' → rt ≤ rt' → expressionsEqual a b at_ rt = .ok true →
      expressionsEqual a b at' rt' = .ok true) := by
  have ok : ∀ {at_ rt : ℚ} (a b : Expr), 0 ≤ at_ → 0 ≤ rt →
      expressionsEqual a b at_ rt = .ok (exprEq at_ rt a b) := by
    intro at_ rt a b h1 h2
    simp [expressionsEqual, not_lt.2 h1, not_lt.2 h2]
  refine ⟨fun h1 h2 => ⟨_, ok a b h1 h2⟩, ?_, ?_, ?_, ?_⟩
  · intro h
    unfold expressionsEqual
    by_cases h1 : at_ < 0
    · simp [h1]
    · have h2 : rt < 0 := h.resolve_left h1
      simp [h1, h2]
  · unfold expressionsEqual; rw [exprEq_symm]
  · intro h h1 h2; rw [ok a a h1 h2, exprEq_refl _ _ a h]
  · intro at' rt' h1 h2 h
    have hn : 0 ≤ at_ ∧ 0 ≤ rt := by
      unfold expressionsEqual at h
      by_contra hc
      rw [not_and_or, not_le, not_le] at hc
      by_cases h3 : at_ < 0
      · simp [h3] at h
      · simp [h3, hc.resolve_left h3] at h
    rw [ok a b hn.1 hn.2] at h
    rw [ok a b (hn.1.trans h1) (hn.2.trans h2), exprEq_mono h1 h2 a b (Except.ok.inj h)]

/-- non-vacuity of C03: NaN-free trees, equal with a tolerance and different without -/
example : NoNaN (mul (lit 1) (var "x")) ∧
    expressionsEqual (mul (lit 1) (var "x")) (mul (lit (.fin (11/10))) (var "x")) = .ok false ∧
    expressionsEqual (mul (lit 1) (var "x")) (mul (lit (.fin (11/10))) (var "x")) (1/5) 0 = .ok true := by
  refine ⟨?_, by decide +kernel, by decide +kernel⟩
  intro v hv
  simp [subs] at hv
  subst hv
  decide

/-- Tolerant equality is not transitive, so no stronger law holds. -/
theorem c03_tolerant_not_transitive : ∃ a b c, expressionsEqual a b 1 0 = .ok true ∧
    expressionsEqual b c 1 0 = .ok true ∧ expressionsEqual a c 1 0 = .ok false :=
  ⟨lit 0, lit 1, lit 2, by decide +kernel, by decide +kernel, by decide +kernel⟩

/-! ## C04 -/

/-- C04: substituting parameter values then evaluating in any context is evaluating with these parameter values;
the result contains no parameter; substitution raises only when that evaluation raises. -/
theorem c04_resolve_parameters (e : Expr) (par : String → R Num) (cpar : String → String → R Num) :
    (∀ e', resolveParameters e par cpar = .ok e' →
      (∀ p, evaluate p e' = evaluate { p with par := par, cpar := cpar } e) ∧
      (∀ n, Expr.par n ∉ e'.subs) ∧ (∀ c n, Expr.cpar c n ∉ e'.subs)) ∧
    (∀ x, resolveParameters e par cpar = .error x →
      ∀ p : ValueProvider, ∃ y, evaluate { p with par := par, cpar := cpar } e = .error y) := by
  constructor
  · intro e' h
    refine ⟨fun p => ?_, ?_⟩
    · have hs : HookSound (paramHooks par cpar) { p with par := par, cpar := cpar } p :=
        { var := fun n e h => by simp only [paramHooks, copyHooks, Except.ok.injEq] at h; subst h; exact ⟨rfl, by simp⟩
          par := fun n e h => by
            simp only [paramHooks, bind_ok_iff, Except.ok.injEq] at h
            obtain ⟨v, hv, rfl⟩ := h
            exact ⟨hv.symm, by simp⟩
          cvar := fun c n e h => by simp only [paramHooks, copyHooks, Except.ok.injEq] at h; subst h; exact ⟨rfl, by simp⟩
          cpar := fun c n e h => by
            simp only [paramHooks, bind_ok_iff, Except.ok.injEq] at h
            obtain ⟨v, hv, rfl⟩ := h
            exact ⟨hv.symm, by simp⟩
          pvar := fun c n ti si e h => ⟨ti, si, (Except.ok.inj h).symm⟩
          ppar := fun c n ti si e h => ⟨ti, si, (Except.ok.inj h).symm⟩
          portField := fun p f e h => (Except.ok.inj h).symm
          agg := rfl }
      exact (copyWith_eval hs e e' h).1
    · let P : Expr → Prop := fun x => (∀ n, x ≠ .par n) ∧ ∀ c n, x ≠ .cpar c n
      have hd : HeadDet P := by refine ⟨⟨?_, ?_, ?_, ?_, ?_, ?_, ?_, ?_, ?_, ?_⟩, ?_⟩ <;> intros <;> simp [P]
      have leaf : ∀ {x y : Expr}, (Except.ok y : R Expr) = .ok x → y.subs = [y] → P y → AllSubs P x := by
        intro x y h hs hp z hz
        cases h
        rw [hs, List.mem_singleton] at hz
        subst hz; exact hp
      have hh : HookAll (paramHooks par cpar) P :=
        { var := fun n e h => leaf h rfl (by simp [P])
          par := fun n e h => by
            simp only [paramHooks, bind_ok_iff] at h
            obtain ⟨v, _, h⟩ := h
            exact leaf h rfl (by simp [P])
          cvar := fun c n e h => leaf h rfl (by simp [P])
          cpar := fun c n e h => by
            simp only [paramHooks, bind_ok_iff] at h
            obtain ⟨v, _, h⟩ := h
            exact leaf h rfl (by simp [P])
          pvar := fun c n ti si e h => leaf h rfl (by simp [P])
          ppar := fun c n ti si e h => leaf h rfl (by simp [P])
          portField := fun p f e h => leaf h rfl (by simp [P])
          agg := fun f h => by simp [paramHooks, copyHooks] at h }
      have hall := copyWith_allSubs hd hh e
        (fun x _ hl _ => by cases x <;> simp_all [P, isHookLeaf]) e' h
      exact ⟨fun n hn => (hall _ hn).1 n rfl, fun c n hn => (hall _ hn).2 c n rfl⟩
  · intro x h p
    refine copyWith_error (h := paramHooks par cpar) (p := { p with par := par, cpar := cpar }) ?_ ?_ ?_ ?_ e x h
    · simp [paramHooks, copyHooks]
    · intro n x h
      simp only [paramHooks] at h
      cases hp : par n with
      | error y => exact ⟨y, hp⟩
      | ok v => simp [hp] at h
    · simp [paramHooks, copyHooks]
    · intro c n x h
      simp only [paramHooks] at h
      cases hp : cpar c n with
      | error y => exact ⟨y, hp⟩
      | ok v => simp [hp] at h

/-- non-vacuity of C04: a parameter is replaced by its value -/
example : ∃ e', resolveParameters (mul (par "p") (var "x")) ctx0.par ctx0.cpar = .ok e' ∧
    evaluate ctx0 e' = .ok 6 := ⟨mul (lit 2) (var "x"), by rfl, by decide +kernel⟩

/-! ## C05 -/

/-- C05, degree 0: the value does not depend on the variables. -/
theorem c05_degree_zero (e : Expr) (h : computeDegree e = .ok 0) (par : String → R Num)
    (cpar : String → String → R Num) (v w : String → ℚ) (cv cw : String → String → ℚ) :
    evaluate (assign par cpar v cv) e = evaluate (assign par cpar w cw) e :=
  degree_zero_eval (p := assign par cpar v cv) (q := assign par cpar w cw) rfl rfl e h

/-- C05, degree at most 1: the value is affine in the variables.  Along any line through two assignments the value
is the same combination of the values at the two assignments; being defined does not depend on the assignment.
Literals and parameters are finite numbers here. -/
theorem c05_degree_one (e : Expr) (d : Nat) (hd : computeDegree e = .ok d) (hle : d ≤ 1) (hl : FinLits e)
    (par : String → R Num) (cpar : String → String → R Num) (hp : FinPars par cpar)
    (v w : String → ℚ) (cv cw : String → String → ℚ) (a : Num) (ha : evaluate (assign par cpar v cv) e = .ok a) :
    ∃ x y : ℚ, a = .fin x ∧ evaluate (assign par cpar w cw) e = .ok (.fin y) ∧
      ∀ k : ℚ, evaluate (assign par cpar (fun n => (1 - k) * v n + k * w n)
          (fun c n => (1 - k) * cv c n + k * cw c n)) e = .ok (.fin ((1 - k) * x + k * y)) := by
  obtain ⟨x, rfl⟩ := evaluate_fin (finProv_assign hp v cv) e hl a ha
  obtain ⟨y, hy, _⟩ := degree_one_eval hp v w cv cw 0 e d hd hle hl x ha
  refine ⟨x, y, rfl, hy, fun k => ?_⟩
  obtain ⟨y', hy', hm⟩ := degree_one_eval hp v w cv cw k e d hd hle hl x ha
  rw [hy] at hy'
  obtain rfl : y = y' := by simpa using hy'
  exact hm

/-- Converse direction of the use of the degree: a product of two variables is reported of degree 2, and it is
really not affine, so the bound 1 cannot be relaxed. -/
theorem c05_degree_two_not_affine : ∃ e, computeDegree e = .ok 2 ∧ FinLits e ∧
    ∃ v w : String → ℚ, ∃ par cpar, FinPars par cpar ∧ ∀ x y : ℚ,
      evaluate (assign par cpar v fun _ _ => 0) e = .ok (.fin x) →
      evaluate (assign par cpar w fun _ _ => 0) e = .ok (.fin y) →
      evaluate (assign par cpar (fun n => (1 - (1/2)) * v n + (1/2) * w n) fun _ _ => 0) e
        ≠ .ok (.fin ((1 - (1/2)) * x + (1/2) * y)) := by
  refine ⟨mul (var "x") (var "x"), rfl, by intro v hv; simp [subs] at hv, fun _ => 0, fun _ => 2,
    fun _ => .ok 0, fun _ _ => .ok 0, ⟨fun _ v h => ⟨0, (Except.ok.inj h).symm⟩, fun _ _ v h => ⟨0, (Except.ok.inj h).symm⟩⟩, ?_⟩
  intro x y hx hy
  simp only [evaluate, assign, ok_bind, Num.fin_mul_fin, Except.ok.injEq, Num.fin_inj] at *
  subst hx hy
  norm_num

/-- non-vacuity of C05: `2 * x + p / 4 - y` has degree 1, is finite and evaluates -/
example : ∃ e, computeDegree e = .ok 1 ∧ FinLits e ∧ FinPars (fun _ => .ok 8) (fun _ _ => .ok 1) ∧
    evaluate (assign (fun _ => .ok 8) (fun _ _ => .ok 1) (fun _ => 5) fun _ _ => 0) e = .ok 7 := by
  refine ⟨add [mul (lit 2) (var "x"), div (par "p") (lit 4), neg (var "y")], by rfl, ?_,
    ⟨fun _ v h => ⟨8, (Except.ok.inj h).symm⟩, fun _ _ v h => ⟨1, (Except.ok.inj h).symm⟩⟩, by decide +kernel⟩
  intro v hv
  simp [subs, subsList] at hv
  rcases hv with rfl | rfl
  · exact ⟨2, rfl⟩
  · exact ⟨4, rfl⟩

end Props
end Verif
