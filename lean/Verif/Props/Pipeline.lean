import Verif.Lemmas.Linearize

/-!
# C06-C11: from an instantiated expression to a linear expression

Indexing analysis, operator expansion, linearization.  `den` (file `Spec/Den.lean`) is the mathematical value of an
expression at a timestep and a scenario.
-/

namespace Verif.Props
open Verif Expr

/-! ## Example data used to show that the hypotheses are met -/

/-- variable `x` of component `c` depends on time and scenario, parameter `p` on time, everything else on nothing -/
def structs1 : StructProvider where
  par := fun _ => .ok ⟨false, false⟩
  var := fun _ => .ok ⟨true, true⟩
  cpar := fun _ n => .ok ⟨n == "p", false⟩
  cvar := fun _ n => .ok ⟨n == "x", n == "x"⟩

/-- shifts and bounds are literals -/
def evalAmt : Expr → R Int
  | .lit (.fin q) => if q.den = 1 then .ok q.num else .error (.valueError "")
  | .neg (.lit (.fin q)) => if q.den = 1 then .ok (-q.num) else .error (.valueError "")
  | _ => .error (.valueError "")

def ctx1 : ExpandCtx := ⟨3, 2, evalAmt, structs1⟩

def par1 : String → String → Option Int → Option Int → ℚ := fun _ _ t _ =>
  match t with
  | some u => u + 2
  | none => 7

/-- parameter values: `p` is `t + 2` at timestep `t` -/
def getter1 : ParamGetter := fun c n t s => .ok (.fin (par1 c n t s))

def D1 : DenCtx where
  env := ⟨fun _ _ _ _ => 0, par1⟩
  vidx := fun _ n => ⟨n == "x", n == "x"⟩
  pidx := fun _ n => ⟨n == "p", false⟩
  T := 3
  S := 2
  amt := fun e => match evalAmt e with | .ok k => k | .error _ => 0

/-- `expec(sum(p * x[t-1] + x)) + 2 * y` -/
def e1 : Expr :=
  .add [.scen (.allsum (.add [.mul (.cpar "c" "p") (.shift (.cvar "c" "x") (.neg (.lit 1))), .cvar "c" "x"]))
      .expectation,
    .mul (.lit 2) (.cvar "c" "y")]

/-- `p * x[t-1] + x - y[t]`, depends on time and scenario -/
def e2 : Expr :=
  .add [.mul (.cpar "c" "p") (.shift (.cvar "c" "x") (.neg (.lit 1))), .cvar "c" "x", .neg (.cvar "c" "y")]

theorem agrees1 : Agrees ctx1 D1 := by
  refine ⟨?_, ?_, rfl, rfl, ?_⟩
  · intro c n i h; cases h; rfl
  · intro c n i h; cases h; rfl
  · intro k n h
    have : evalAmt k = .ok n := h
    simp [D1, this]

/-! ## C06 -/

/-- **C06.** An expression of degree at most 1 whose operators have been expanded never fails linearization because of
a product or a quotient of variable terms, at any timestep and scenario, for any block length, number of scenarios and
parameter data (parameter data themselves do not raise these two errors). -/
theorem c06_linear_never_rejected (x : ExpandCtx) (e e' : Expr) (deg : Nat) (hd : computeDegree e = .ok deg)
    (h1 : deg ≤ 1) (he : expand x e = .ok e') (t s : Option Int) (p : Option ParamGetter)
    (hp : ∀ g, p = some g → ∀ c n u w err, g c n u w = .error err → err ≠ .nonLinearMul ∧ err ≠ .nonLinearDiv)
    (err : Err) (h : linearizeExpression e' t s p = .error err) : err ≠ .nonLinearMul ∧ err ≠ .nonLinearDiv :=
  linData_degree_one (x := ⟨t, s, p⟩) hp e' (expand_degLE e 1 ⟨deg, hd, h1⟩ e' he) err (linearize_error h)

/-- **C06**, constants: an expression of degree 0 gives a linear expression without term. -/
theorem c06_constant_no_term (x : ExpandCtx) (e e' : Expr) (hd : computeDegree e = .ok 0)
    (he : expand x e = .ok e') (t s : Option Int) (p : Option ParamGetter) (l : LinExpr)
    (h : linearizeExpression e' t s p = .ok l) : l.terms = [] := by
  obtain ⟨d, hd', rfl⟩ := linearize_ok h
  have := linData_degree_zero e' (expand_degLE e 0 ⟨0, hd, le_refl _⟩ e' he) d hd'
  unfold LinData.build
  rw [this]
  rfl

/-- the hypotheses of C06 are met by `e1` (degree 1) and the expansion succeeds -/
example : computeDegree e1 = .ok 1 ∧ (expand ctx1 e1).isOk ∧
    (expand ctx1 e1 >>= fun e' => linearizeExpression e' (some 0) (some 0) (some getter1)).isOk := by
  decide +kernel
/-- the degree hypothesis matters: `x * x` has degree 2 and is rejected -/
example : computeDegree (.mul (.cvar "c" "x") (.cvar "c" "x")) = .ok 2 ∧
    (expand ctx1 (.mul (.cvar "c" "x") (.cvar "c" "x")) >>= fun e' =>
      linearizeExpression e' (some 0) (some 0) (some getter1)) = .error .nonLinearMul := by
  decide +kernel
/-- a constant expression with operators, which is linearized to a constant -/
example : computeDegree (.scen (.allsum (.cpar "c" "p")) .expectation) = .ok 0 ∧
    (expand ctx1 (.scen (.allsum (.cpar "c" "p")) .expectation) >>= fun e' =>
      linearizeExpression e' none none (some getter1)) = .ok ⟨[], .fin 9⟩ := by
  decide +kernel

/-! ## C07 -/

/-- **C07**, meaning, time: an expression reported independent of time has the same mathematical value at every
timestep. -/
theorem c07_time_value (st : StructProvider) (D : DenCtx) (hv : ∀ c n i, st.cvar c n = .ok i → D.vidx c n = i)
    (hp : ∀ c n i, st.cpar c n = .ok i → D.pidx c n = i) (e : Expr) (i : Idx)
    (h : computeIndexation st e = .ok i) (hi : i.time = false) (t t' s : Int) : den D e t s = den D e t' s :=
  den_indep hv hp true e i h hi t t' s s (fun _ => rfl) (by simp)

/-- **C07**, meaning, scenario: same value at every scenario. -/
theorem c07_scenario_value (st : StructProvider) (D : DenCtx)
    (hv : ∀ c n i, st.cvar c n = .ok i → D.vidx c n = i) (hp : ∀ c n i, st.cpar c n = .ok i → D.pidx c n = i)
    (e : Expr) (i : Idx) (h : computeIndexation st e = .ok i) (hi : i.scenario = false) (t s s' : Int) :
    den D e t s = den D e t s' :=
  den_indep hv hp false e i h hi t t s s' (by simp) (fun _ => rfl)

/-- **C07**, linear expression, time: the linear expression (or the error) obtained after expansion is the same at
every timestep, and also without giving a timestep. -/
theorem c07_time_linear (x : ExpandCtx) (e e' : Expr) (i : Idx) (h : computeIndexation x.structs e = .ok i)
    (hi : i.time = false) (he : expand x e = .ok e') (t t' s : Option Int) (p : Option ParamGetter) :
    linearizeExpression e' t s p = linearizeExpression e' t' s p := by
  unfold linearizeExpression
  rw [linData_noRel p true t t' s s (fun _ => rfl) (by simp) e' (expand_noRel true e i h hi e' he)]

/-- **C07**, linear expression, scenario. -/
theorem c07_scenario_linear (x : ExpandCtx) (e e' : Expr) (i : Idx) (h : computeIndexation x.structs e = .ok i)
    (hi : i.scenario = false) (he : expand x e = .ok e') (t s s' : Option Int) (p : Option ParamGetter) :
    linearizeExpression e' t s p = linearizeExpression e' t s' p := by
  unfold linearizeExpression
  rw [linData_noRel p false t t s s' (by simp) (fun _ => rfl) e' (expand_noRel false e i h hi e' he)]

/-- `e1` is reported independent of time and scenario although it contains `x[t-1]` of every scenario -/
example : computeIndexation structs1 e1 = .ok ⟨false, false⟩ ∧ (expand ctx1 e1).isOk ∧
    (expand ctx1 e1 >>= fun e' => linearizeExpression e' none none (some getter1)).isOk := by
  decide +kernel
/-- `e2` is not, and its linear expression does depend on the timestep -/
example : computeIndexation structs1 e2 = .ok ⟨true, true⟩ ∧
    (expand ctx1 e2 >>= fun e' => linearizeExpression e' (some 0) (some 0) (some getter1)) ≠
    (expand ctx1 e2 >>= fun e' => linearizeExpression e' (some 1) (some 0) (some getter1)) := by
  decide +kernel

/-! ## C08 -/

/-- union of indexing structures -/
def unionIdx (is : List Idx) : Idx := ⟨is.any Idx.time, is.any Idx.scenario⟩

theorem unionIdx_cons (i : Idx) (is : List Idx) : unionIdx (i :: is) = i.or (unionIdx is) := rfl

theorem foldl_or (is : List Idx) (i : Idx) : is.foldl Idx.or i = i.or (unionIdx is) := by
  induction is generalizing i with
  | nil => obtain ⟨a, b⟩ := i; simp [unionIdx, Idx.or]
  | cons j is ih =>
    rw [List.foldl_cons, ih, unionIdx_cons]
    simp [Idx.or, Bool.or_assoc]

/-- **C08 (partial).** When every operand of a sum has an indexing structure, that of the sum is the union of those of
the operands, so it does not depend on their order.  Missing: the sum may also be accepted when a later operand is
rejected, see `c08_port_field_order_dependent`. -/
theorem c08_sum_union_partial (st : StructProvider) (es : List Expr) (is : List Idx)
    (h : List.Forall₂ (fun e i => computeIndexation st e = .ok i) es is) :
    computeIndexation st (.add es) = .ok (unionIdx is) := by
  simp only [computeIndexation]
  cases h with
  | nil => rfl
  | cons h1 h2 =>
    rename_i e i es is
    simp only [combineFirst, h1, ok_bind]
    have := combineRest_all (p := st) es
    by_cases hv : i.isTimeScenarioVarying
    · simp only [hv, if_true, unionIdx_cons]
      obtain ⟨a, b⟩ := i
      simp only [Idx.isTimeScenarioVarying, Bool.and_eq_true] at hv
      obtain ⟨rfl, rfl⟩ := hv
      rfl
    · simp only [hv, Bool.false_eq_true, if_false]
      rw [unionIdx_cons, ← foldl_or]
      exact this i (by simpa using hv) is (appendAll_ok_iff.2 h2)

/-- **C08 (partial)**, reordering: a permutation of the operands of a sum does not change its indexing. -/
theorem c08_sum_permutation_partial (st : StructProvider) (es es' : List Expr) (hperm : es.Perm es')
    (h : ∀ e ∈ es, ∃ i, computeIndexation st e = .ok i) :
    computeIndexation st (.add es) = computeIndexation st (.add es') := by
  have ex : ∀ (l : List Expr), (∀ e ∈ l, ∃ i, computeIndexation st e = .ok i) →
      List.Forall₂ (fun e i => computeIndexation st e = .ok i) l
        (l.map fun e => (computeIndexation st e).toOption.getD ⟨false, false⟩) := by
    intro l hl
    induction l with
    | nil => exact .nil
    | cons e l ih =>
      refine .cons ?_ (ih fun e' he' => hl e' (by simp [he']))
      obtain ⟨i, hi⟩ := hl e (by simp)
      simp only [hi]
      rfl
  rw [c08_sum_union_partial st es _ (ex es h),
    c08_sum_union_partial st es' _ (ex es' fun e he => h e (hperm.mem_iff.2 he))]
  have := (hperm.map fun e => (computeIndexation st e).toOption.getD ⟨false, false⟩)
  unfold unionIdx
  rw [Except.ok.injEq, Idx.mk.injEq]
  constructor <;> rw [Bool.eq_iff_iff] <;> simp only [List.any_eq_true] <;>
    exact ⟨fun ⟨y, hy, h2⟩ => ⟨y, this.mem_iff.1 hy, h2⟩, fun ⟨y, hy, h2⟩ => ⟨y, this.mem_iff.2 hy, h2⟩⟩

/-- **C08 (partial)**, products, quotients and comparisons: union of the two operands. -/
theorem c08_binary_union_partial (st : StructProvider) (l r : Expr) (i j : Idx) (c : Cmp)
    (hl : computeIndexation st l = .ok i) (hr : computeIndexation st r = .ok j) :
    computeIndexation st (.mul l r) = .ok (unionIdx [i, j]) ∧
    computeIndexation st (.div l r) = .ok (unionIdx [i, j]) ∧
    computeIndexation st (.cmp l r c) = .ok (unionIdx [i, j]) := by
  simp only [computeIndexation, hl, hr, ok_bind]
  obtain ⟨a, b⟩ := i
  obtain ⟨c, d⟩ := j
  cases a <;> cases b <;> cases c <;> cases d <;> exact ⟨rfl, rfl, rfl⟩

/-- **C08** is violated: an unresolved port field is rejected when it comes first and silently accepted when it comes
after a variable that depends on time and scenario. -/
theorem c08_port_field_order_dependent :
    computeIndexation structs1 (.add [.var "x", .portField "p" "f"]) = .ok ⟨true, true⟩ ∧
    ¬ ∃ i, computeIndexation structs1 (.add [.portField "p" "f", .var "x"]) = .ok i :=
  ⟨rfl, fun ⟨_, h⟩ => by cases h⟩

/-- the hypotheses of the union theorem are met by operands of all kinds -/
example : List.Forall₂ (fun e i => computeIndexation structs1 e = .ok i) [.lit 1, .cpar "c" "p", .allsum (.cvar "c" "x")]
    [⟨false, false⟩, ⟨true, false⟩, ⟨false, true⟩] ∧
    computeIndexation structs1 (.add [.lit 1, .cpar "c" "p", .allsum (.cvar "c" "x")]) = .ok ⟨true, true⟩ := by
  exact ⟨.cons rfl (.cons rfl (.cons rfl .nil)), rfl⟩

/-! ## C09 -/

/-- **C09 (partial).** The expanded expression has, at each timestep and scenario, the mathematical value of the
original expression, for arbitrarily nested operators, any block length, number of scenarios and values.  Restricted to
well-nested expressions: no time evaluation or sum over the block under a shift or a shifted sum, no expectation under an
expectation; `c09_shift_of_evaluation` and `c09_nested_expectation` show the two restrictions are needed. -/
theorem c09_expansion_value_partial (x : ExpandCtx) (D : DenCtx) (hA : Agrees x D) (e e' : Expr) (hw : WellNested e)
    (he : expand x e = .ok e') (t s : Int) : den D e' t s = den D e t s :=
  den_expand hA e hw e' he t s

/-- values for the two counterexamples: `x` is 1 at timestep 0 of scenario 0 and 0 elsewhere; `q` is 1 in scenario 0
and 0 elsewhere -/
def D2 : DenCtx where
  env := ⟨fun _ _ t s => if t = some 0 ∧ s = some 0 then 1 else 0, fun _ _ _ s => if s = some 0 then 1 else 0⟩
  vidx := fun _ _ => ⟨true, true⟩
  pidx := fun _ _ => ⟨false, true⟩
  T := 3
  S := 2
  amt := fun e => match evalAmt e with | .ok k => k | .error _ => 0

def ctx2 : ExpandCtx := ⟨3, 2, evalAmt,
  { par := fun _ => .ok ⟨false, false⟩, var := fun _ => .ok ⟨false, false⟩,
    cpar := fun _ _ => .ok ⟨false, true⟩, cvar := fun _ _ => .ok ⟨true, true⟩ }⟩

theorem agrees2 : Agrees ctx2 D2 := by
  refine ⟨?_, ?_, rfl, rfl, ?_⟩
  · intro c n i h; cases h; rfl
  · intro c n i h; cases h; rfl
  · intro k n h
    have : evalAmt k = .ok n := h
    simp [D2, this]

/-- **C09** is violated: a shift of an expression evaluated at a fixed timestep, `(x[0])[t+1]`, moves the fixed
timestep. -/
theorem c09_shift_of_evaluation :
    ∃ (x : ExpandCtx) (D : DenCtx) (e e' : Expr), Agrees x D ∧ expand x e = .ok e' ∧ den D e' 0 0 ≠ den D e 0 0 :=
  ⟨ctx2, D2, .shift (.evalT (.cvar "c" "x") (.lit 0)) (.lit 1), .pvar "c" "x" (.step 1) .current, agrees2,
    by rfl, by decide +kernel⟩

/-- **C09** is violated: in `expec(q * expec(x))` the scenarios fixed by the inner expectation are overwritten by the
outer one. -/
theorem c09_nested_expectation :
    ∃ (x : ExpandCtx) (D : DenCtx) (e e' : Expr), Agrees x D ∧ expand x e = .ok e' ∧ den D e' 0 0 ≠ den D e 0 0 := by
  refine ⟨ctx2, D2, .scen (.mul (.cpar "c" "q") (.scen (.cvar "c" "x") .expectation)) .expectation,
    .div (.add [
      .mul (.ppar "c" "q" .none (.one 0))
        (.div (.add [.pvar "c" "x" (.shift 0) (.one 0), .pvar "c" "x" (.shift 0) (.one 0)]) (.lit 2)),
      .mul (.ppar "c" "q" .none (.one 1))
        (.div (.add [.pvar "c" "x" (.shift 0) (.one 1), .pvar "c" "x" (.shift 0) (.one 1)]) (.lit 2))]) (.lit 2),
    agrees2, by rfl, ?_⟩
  have h1 : ((2 : Num)) = .fin 2 := rfl
  simp [den, denSum, D2, atT, atS, TIdx.at, SIdx.at, h1, Finset.sum_range_succ]
  norm_num

/-- `e1` meets the hypotheses of C09 -/
example : Agrees ctx1 D1 ∧ WellNested e1 ∧ (expand ctx1 e1).isOk := by
  refine ⟨agrees1, ⟨?_, ?_, ?_⟩, by decide +kernel⟩
  · intro x k h
    simp [e1, subs, subsList] at h
    simp [h, subs, isTimeFixing]
  · intro x a b h
    simp [e1, subs, subsList] at h
  · intro x o h
    simp [e1, subs, subsList] at h
    simp [h, subs, subsList, isScen]

/-! ## C10 -/

/-- **C10**, form: expanding an instantiated expression without ports and comparisons gives an expression with only
literals, problem-level variables and parameters and arithmetic. -/
theorem c10_expanded_form (x : ExpandCtx) (e e' : Expr) (hm : ∀ y ∈ e.subs, y.isModelLevel = false)
    (he : expand x e = .ok e') : ∀ y ∈ e'.subs, y.isProblemLevel = true := by
  intro y hy
  have := expand_out (A := fun _ _ => True) (oth := False) (fun _ _ _ _ => trivial) (fun _ _ _ _ => trivial) e
    (fun z hz h => by rw [hm z hz] at h; cases h) (fun _ _ _ _ _ _ h => h)
    (fun _ _ _ _ _ _ _ _ h _ => h) (fun _ _ _ _ _ _ h => h) e' he y hy
  exact outP_problemLevel this

/-- **C10**, linearization: the expanded expression can only fail linearization for a product or quotient of variable
terms, a division by zero, or an error raised by the parameter data: never because of an unexpanded operator or an
uninstantiated symbol. -/
theorem c10_linearization_errors (x : ExpandCtx) (e e' : Expr) (hm : ∀ y ∈ e.subs, y.isModelLevel = false)
    (he : expand x e = .ok e') (t : Int) (s : Option Int) (p : ParamGetter) (err : Err)
    (h : linearizeExpression e' (some t) s (some p) = .error err) :
    err = .nonLinearMul ∨ err = .nonLinearDiv ∨ err = .zeroDivision ∨ ∃ c n u w, p c n u w = .error err :=
  linData_error e' (c10_expanded_form x e e' hm he) err (linearize_error h)

/-- **C10 and C06 together**: an instantiated expression of degree at most 1, once expanded, with parameter data that
raise no error, is linearized at every timestep and scenario, unless it divides by zero. -/
theorem c10_linear_linearizes (x : ExpandCtx) (e e' : Expr) (hm : ∀ y ∈ e.subs, y.isModelLevel = false) (deg : Nat)
    (hd : computeDegree e = .ok deg) (h1 : deg ≤ 1) (he : expand x e = .ok e') (t : Int) (s : Option Int)
    (p : ParamGetter) (hp : ∀ c n u w, ∃ v, p c n u w = .ok v) :
    (∃ l, linearizeExpression e' (some t) s (some p) = .ok l) ∨
      linearizeExpression e' (some t) s (some p) = .error .zeroDivision := by
  cases h : linearizeExpression e' (some t) s (some p) with
  | ok l => exact .inl ⟨l, rfl⟩
  | error err =>
    have hpe : ∀ c n u w err, p c n u w ≠ .error err := by
      intro c n u w err he
      obtain ⟨v, hv⟩ := hp c n u w
      rw [hv] at he
      cases he
    have h6 := c06_linear_never_rejected x e e' deg hd h1 he (some t) s (some p)
      (by rintro g hg c n u w err he; cases hg; exact absurd he (hpe c n u w err)) err h
    rcases c10_linearization_errors x e e' hm he t s p err h with rfl | rfl | rfl | ⟨c, n, u, w, hc⟩
    · exact absurd rfl h6.1
    · exact absurd rfl h6.2
    · exact .inr rfl
    · exact absurd hc (hpe c n u w err)

example : (∀ y ∈ e1.subs, y.isModelLevel = false) ∧ computeDegree e1 = .ok 1 ∧ (expand ctx1 e1).isOk ∧
    (∀ c n u w, ∃ v, getter1 c n u w = .ok v) :=
  ⟨by decide +kernel, by decide +kernel, by decide +kernel, fun _ _ _ _ => ⟨_, rfl⟩⟩

/-! ## C11 -/

/-- **C11.** Linearization is exact.  If an expression is linearized at `(t, s)` with finite literals and parameter
values given by `D`, there are a constant `c0` and coefficients `c` with finite support `K` such that, for every
assignment of the variables, the value of the expression is `c0 + Σ c k * var k`; the linear expression has constant
`c0` and, for each variable instance, exactly one stored term, with the coefficient `c k`, except that it has none when
`|c k| < 1e-16`. -/
theorem c11_linearization_exact (D : DenCtx) (e : Expr) (t s : Int) (p : ParamGetter) (hf : FinLits e)
    (hp : ∀ c n u w v, p c n u w = .ok v → v = .fin (D.env.par c n u w)) (l : LinExpr)
    (h : linearizeExpression e (some t) (some s) (some p) = .ok l) :
    ∃ (c0 : ℚ) (K : Finset TermKey) (c : TermKey → ℚ),
      (∀ k, k ∉ K → c k = 0) ∧
      (∀ var, den (D.withVar var) e t s = c0 + ∑ k ∈ K, c k * var k.component k.var k.time k.scenario) ∧
      l.constant = .fin c0 ∧
      (∀ k, l.terms.get? k = if |c k| < 1 / 10 ^ 16 then none else some ⟨.fin (c k), k⟩) ∧
      (l.terms.map Prod.fst).Nodup := by
  obtain ⟨d, hd, rfl⟩ := linearize_ok h
  obtain ⟨qs, q0, ht, hc, hv⟩ := linData_represents hp e hf d hd
  obtain ⟨h1, h2, h3, h4⟩ := build_spec d
  refine ⟨q0, (qs.map Prod.snd).toFinset, fun k => qCoef k qs, fun k hk => qCoef_not_mem hk, fun var => ?_, ?_, ?_,
    h1.nodup⟩
  · rw [hv var, qVal_finset]
  · rw [h4, hc]
  · intro k
    rw [h3, ht, coefSum_qTerms, isZero_fin]
    simp only [decide_eq_true_eq]

/-- value of a linear expression whose stored terms are the non-small coefficients of an affine form -/
theorem linExpr_value_eq (l : LinExpr) (c0 : ℚ) (K : Finset TermKey) (c : TermKey → ℚ) (σ : TermKey → ℚ)
    (hK : ∀ k, k ∉ K → c k = 0) (hc : l.constant = .fin c0)
    (hg : ∀ k, l.terms.get? k = if |c k| < 1 / 10 ^ 16 then none else some ⟨.fin (c k), k⟩)
    (nd : (l.terms.map Prod.fst).Nodup) :
    l.value σ = c0 + ∑ k ∈ K.filter (fun k => ¬ |c k| < 1 / 10 ^ 16), c k * σ k := by
  have hcv : l.constant.toQ = c0 := by rw [hc]; rfl
  unfold LinExpr.value
  rw [hcv]
  congr 1
  have hmem : ∀ k t, (k, t) ∈ l.terms → t = ⟨.fin (c k), k⟩ ∧ ¬ |c k| < 1 / 10 ^ 16 := by
    intro k t hm
    have := Dict.get?_of_mem nd hm
    rw [hg] at this
    split at this
    · cases this
    · next h => cases this; exact ⟨rfl, h⟩
  have e : (l.terms.map fun kv => kv.2.coefficient.toQ * σ kv.2.key) =
      (l.terms.map Prod.fst).map fun k => c k * σ k := by
    rw [List.map_map]
    refine List.map_congr_left fun kv hkv => ?_
    obtain ⟨k, t⟩ := kv
    rw [(hmem k t hkv).1]
    rfl
  rw [e, ← List.sum_toFinset _ nd]
  refine Finset.sum_congr ?_ fun _ _ => rfl
  ext k
  simp only [List.mem_toFinset, List.mem_map, Finset.mem_filter]
  constructor
  · rintro ⟨⟨k', t⟩, hm, rfl⟩
    refine ⟨?_, (hmem _ t hm).2⟩
    by_contra hn
    apply (hmem _ t hm).2
    rw [hK _ hn]
    norm_num
  · rintro ⟨_, hs⟩
    have := hg k
    rw [if_neg hs] at this
    exact ⟨_, Dict.mem_of_get? this, rfl⟩

/-- **C11**, value: for every assignment of the variables, the value of the expression is that of the linear
expression plus that of finitely many dropped terms, which do not depend on the assignment and whose coefficients are
below `1e-16` in absolute value. -/
theorem c11_linearization_value (D : DenCtx) (e : Expr) (t s : Int) (p : ParamGetter) (hf : FinLits e)
    (hp : ∀ c n u w v, p c n u w = .ok v → v = .fin (D.env.par c n u w)) (l : LinExpr)
    (h : linearizeExpression e (some t) (some s) (some p) = .ok l) :
    ∃ (dropped : Finset TermKey) (c : TermKey → ℚ), (∀ k ∈ dropped, |c k| < 1 / 10 ^ 16) ∧
      ∀ var : String → String → Option Int → Option Int → ℚ,
        den (D.withVar var) e t s = l.value (fun k => var k.component k.var k.time k.scenario) +
          ∑ k ∈ dropped, c k * var k.component k.var k.time k.scenario := by
  obtain ⟨c0, K, c, hK, hv, hc, hg, nd⟩ := c11_linearization_exact D e t s p hf hp l h
  refine ⟨K.filter (fun k => |c k| < 1 / 10 ^ 16), c, fun k hk => (Finset.mem_filter.1 hk).2, fun var => ?_⟩
  rw [hv var, linExpr_value_eq l c0 K c _ hK hc hg nd, add_assoc, add_comm (∑ k ∈ K.filter _, _),
    Finset.sum_filter_add_sum_filter_not]

/-- **C09 and C11 together**: the linear expression obtained from an instantiated, well-nested expression by expansion
and linearization is exactly the affine form of its mathematical value. -/
theorem c11_pipeline_exact (x : ExpandCtx) (D : DenCtx) (hA : Agrees x D) (e e' : Expr) (hw : WellNested e)
    (he : expand x e = .ok e') (hf : FinLits e') (t s : Int) (p : ParamGetter)
    (hp : ∀ c n u w v, p c n u w = .ok v → v = .fin (D.env.par c n u w)) (l : LinExpr)
    (h : linearizeExpression e' (some t) (some s) (some p) = .ok l) :
    ∃ (c0 : ℚ) (K : Finset TermKey) (c : TermKey → ℚ),
      (∀ k, k ∉ K → c k = 0) ∧
      (∀ var, den (D.withVar var) e t s = c0 + ∑ k ∈ K, c k * var k.component k.var k.time k.scenario) ∧
      l.constant = .fin c0 ∧
      (∀ k, l.terms.get? k = if |c k| < 1 / 10 ^ 16 then none else some ⟨.fin (c k), k⟩) ∧
      (l.terms.map Prod.fst).Nodup := by
  obtain ⟨c0, K, c, hK, hv, rest⟩ := c11_linearization_exact D e' t s p hf hp l h
  refine ⟨c0, K, c, hK, fun var => ?_, rest⟩
  rw [← hv var]
  have hA' : Agrees x (D.withVar var) := ⟨hA.vidx, hA.pidx, hA.T, hA.S, hA.amt⟩
  exact (c09_expansion_value_partial x (D.withVar var) hA' e e' hw he t s).symm

/-- `e2` goes through the pipeline at timestep 1 of scenario 0: `3 x[0] + x[1] - y` -/
example : (expand ctx1 e2 >>= fun e' => linearizeExpression e' (some 1) (some 0) (some getter1)) =
    .ok ⟨[(⟨"c", "x", some 0, some 0⟩, ⟨.fin 3, ⟨"c", "x", some 0, some 0⟩⟩),
      (⟨"c", "x", some 1, some 0⟩, ⟨.fin 1, ⟨"c", "x", some 1, some 0⟩⟩),
      (⟨"c", "y", none, none⟩, ⟨.fin (-1), ⟨"c", "y", none, none⟩⟩)], .fin 0⟩ := by
  decide +kernel
example : (∀ c n u w v, getter1 c n u w = .ok v → v = .fin (D1.env.par c n u w)) :=
  fun c n u w v h => by cases h; rfl

end Verif.Props
