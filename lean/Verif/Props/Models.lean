import Verif.Spec.Model
import Verif.Props.Components
import Verif.Props.Pipeline
import Verif.Props.Expressions
import Verif.Lemmas.IndexCopy

/-! # Properties C17, C18, C19: constraints, bounds and objectives of models -/

namespace Verif
namespace Props
open Expr

/-! ## C17 -/

theorem isUnbounded_iff (e : Expr) : e.isUnbounded = true ↔ e.IsInfinite := by
  unfold IsInfinite isUnbounded
  cases e <;> simp
  rename_i v
  cases v <;> simp [Num.abs, Num.eqb]

/-- C17, meaning: a constraint declared from a comparison without bounds is accepted, and is satisfied exactly when the
comparison holds, in every component, timestep, scenario and for all values of variables and parameters.  (Infinite
literals inside the two compared expressions have no meaning and are read as 0.) -/
theorem c17_comparison (name : String) (l r : Expr) (k : Cmp) (ctx : ProblemContext) :
    ∃ c, Constraint.make { name := name, expression := .cmp l r k, context := ctx } = .ok c ∧
      c.name = name ∧ c.context = ctx ∧
      ∀ (M : MCtx) (t s : Int), c.Holds M t s ↔ k.holds (mden M l t s) (mden M r t s) := by
  have h0 : ∀ (M : MCtx) (t s : Int), mden M (lit 0) t s = 0 := fun _ _ _ => rfl
  cases k
  · refine ⟨_, rfl, rfl, rfl, fun M t s => ?_⟩
    simp only [Constraint.Holds, mden_subOp, Cmp.holds, aboveBound, true_and]
    change (_ ≤ mden M (lit 0) t s) ↔ _
    rw [h0, sub_nonpos]
  · refine ⟨_, rfl, rfl, rfl, fun M t s => ?_⟩
    simp only [Constraint.Holds, mden_subOp, Cmp.holds]
    change (mden M (lit 0) t s ≤ _ ∧ _ ≤ mden M (lit 0) t s) ↔ _
    rw [h0, sub_nonpos, sub_nonneg]
    exact ⟨fun h => le_antisymm h.2 h.1, fun h => ⟨h.ge, h.le⟩⟩
  · refine ⟨_, rfl, rfl, rfl, fun M t s => ?_⟩
    simp only [Constraint.Holds, mden_subOp, Cmp.holds, belowBound, and_true]
    change (mden M (lit 0) t s ≤ _) ↔ _
    rw [h0, sub_nonneg]

/-- C17, stored values: the stored expression evaluates to the difference of the two sides, and the stored bounds are
literal numbers: 0 on the side(s) the comparison constrains, infinite on the other. -/
theorem c17_comparison_stored (name : String) (l r : Expr) (k : Cmp) (ctx : ProblemContext) (hl : l ≠ .add [])
    (hr : r ≠ .add []) (c : Constraint)
    (h : Constraint.make { name := name, expression := .cmp l r k, context := ctx } = .ok c) (p : ValueProvider) :
    evaluate p c.expression = (do let a ← evaluate p l; let b ← evaluate p r; .ok (a - b)) ∧
    evaluate p c.lowerBound = .ok (if k = .le then .ninf else 0) ∧
    evaluate p c.upperBound = .ok (if k = .ge then .pinf else 0) := by
  cases k <;> cases h <;> exact ⟨evaluate_subOp p hl hr, rfl, rfl⟩

/-- C17, rejections: a constraint with a comparison is accepted exactly when both declared bounds are infinite; another
constraint is accepted, unchanged, exactly when its two bounds have degree 0, the lower one is not plus infinity and the
upper one is not minus infinity.  Every refusal of bounds whose degree is defined is a `ValueError`. -/
theorem c17_accepted_iff (c : Constraint) :
    (∀ l r k, c.expression = .cmp l r k →
      ((∃ c', c.make = .ok c') ↔ c.lowerBound.IsInfinite ∧ c.upperBound.IsInfinite) ∧
      ∀ x, c.make = .error x → ∃ m, x = .valueError m) ∧
    ((∀ l r k, c.expression ≠ .cmp l r k) →
      (∀ c', c.make = .ok c' ↔ c' = c ∧ computeDegree c.lowerBound = .ok 0 ∧ computeDegree c.upperBound = .ok 0 ∧
        c.lowerBound ≠ .lit .pinf ∧ c.upperBound ≠ .lit .ninf) ∧
      ∀ x dl du, computeDegree c.lowerBound = .ok dl → computeDegree c.upperBound = .ok du → c.make = .error x →
        ∃ m, x = .valueError m) := by
  obtain ⟨name, e, lb, ub, ctx⟩ := c
  constructor
  · rintro l r k rfl
    simp only [Constraint.make]
    rw [← isUnbounded_iff, ← isUnbounded_iff]
    constructor
    · cases h1 : lb.isUnbounded <;> cases h2 : ub.isUnbounded <;> cases k <;> simp
    · intro x h
      split_ifs at h
      · exact ⟨_, (Except.error.inj h).symm⟩
      · cases k <;> cases h
  · intro hc
    have hmake : Constraint.make ⟨name, e, lb, ub, ctx⟩ = (do
        let cl ← isConstant lb
        if !cl then .error (.valueError "The bounds of a constraint should not contain variables")
        else do
          let cu ← isConstant ub
          if !cu then .error (.valueError "The bounds of a constraint should not contain variables")
          else if lb.isUnbounded && lb.isNonNegative then
            .error (.valueError "Lower bound should not be +Inf")
          else if ub.isUnbounded && !ub.isNonNegative then
            .error (.valueError "Upper bound should not be -Inf")
          else .ok ⟨name, e, lb, ub, ctx⟩) := by
      cases e <;> first | rfl | exact absurd rfl (hc _ _ _)
    have h1 : (lb.isUnbounded && lb.isNonNegative) = true ↔ lb = .lit .pinf := by
      cases lb <;> simp [isUnbounded]
      rename_i v
      cases v <;> simp [Num.abs, Num.eqb, isNonNegative, Num.le, show (0 : Num) = .fin 0 from rfl]
    have h2 : (ub.isUnbounded && !ub.isNonNegative) = true ↔ ub = .lit .ninf := by
      cases ub <;> simp [isUnbounded]
      rename_i v
      cases v <;> simp [Num.abs, Num.eqb, isNonNegative, Num.le, show (0 : Num) = .fin 0 from rfl]
    simp only [hmake, isConstant]
    constructor
    · intro c'
      cases hdl : computeDegree lb with
      | error x => simp
      | ok dl =>
        cases hdu : computeDegree ub with
        | error x => rcases dl with _ | dl <;> simp
        | ok du =>
          rcases dl with _ | dl
          · rcases du with _ | du
            · simp only [ok_bind, beq_self_eq_true, Bool.not_true, Bool.false_eq_true, if_false, h1, h2]
              split_ifs with h3 h4
              · simp [h1.1 h3]
              · simp [h2.1 h4]
              · simp [mt h1.2 h3, mt h2.2 h4, eq_comm]
            · simp
          · simp
    · intro x dl du hdl hdu h
      simp only [hdl, hdu, ok_bind] at h
      split_ifs at h <;> first | exact ⟨_, (Except.error.inj h).symm⟩ | cases h

/-- C17, replication: replicating an accepted constraint gives the same constraint (name, expression, bounds, context),
and, if it contains no NaN, one that the code's `==` says equal. -/
theorem c17_replicate (c c' : Constraint) (h : c.make = .ok c') :
    c'.replicate = .ok c' ∧
      (NoNaN c'.expression → NoNaN c'.lowerBound → NoNaN c'.upperBound → c'.eqb c' = true) := by
  constructor
  · unfold Constraint.replicate
    by_cases hc : ∃ l r k, c.expression = .cmp l r k
    · obtain ⟨l, r, k, hc⟩ := hc
      obtain ⟨name, e, lb, ub, ctx⟩ := c
      simp only at hc
      subst hc
      simp only [Constraint.make] at h
      split_ifs at h
      cases k <;> cases h <;> rfl
    · have hc : ∀ l r k, c.expression ≠ .cmp l r k := fun l r k h => hc ⟨l, r, k, h⟩
      obtain ⟨rfl, -⟩ := (((c17_accepted_iff c).2 hc).1 c').1 h
      exact h
  · intro h1 h2 h3
    simp [Constraint.eqb, exprEq_refl 0 0 _ h1, exprEq_refl 0 0 _ h2, exprEq_refl 0 0 _ h3]

/-- `2 * x[t-1] <= p` is accepted as a comparison; with a bound it is refused; `x` between 0 and the parameter `p` is
accepted; with `x` itself as a bound it is refused -/
example :
    (Constraint.make { name := "c", expression := .cmp ((lit 2).mulOp (shift (var "x") (lit (-1)))) (par "p") .le }).isOk ∧
    Constraint.make { name := "c", expression := .cmp (var "x") (par "p") .le, lowerBound := lit 0 } =
      .error (.valueError "Both comparison between two expressions and a bound are specfied") ∧
    (Constraint.make { name := "c", expression := var "x", lowerBound := lit 0, upperBound := par "p" }).isOk ∧
    Constraint.make { name := "c", expression := var "x", upperBound := var "x" } =
      .error (.valueError "The bounds of a constraint should not contain variables") :=
  ⟨rfl, rfl, rfl, rfl⟩

/-! ## C18 -/

theorem checkConstantBound_ok {msg : String} {b : Option Expr} (h : checkConstantBound msg b = .ok ()) (e : Expr)
    (he : b = some e) : computeDegree e = .ok 0 := by
  subst he
  simp only [checkConstantBound, isConstant, bind_ok_iff, Except.ok.injEq] at h
  obtain ⟨c, ⟨d, hd, rfl⟩, h⟩ := h
  split_ifs at h with h0
  simp only [Bool.not_eq_true, Bool.not_eq_false', beq_iff_eq] at h0
  rw [hd, h0]

/-- the bounds of an accepted variable or constraint -/
inductive AcceptedBound : Expr → Prop
  | varLower (v v' : Variable) (b : Expr) (h : v.make = .ok v') (hb : v'.lowerBound = some b) : AcceptedBound b
  | varUpper (v v' : Variable) (b : Expr) (h : v.make = .ok v') (hb : v'.upperBound = some b) : AcceptedBound b
  | consLower (c c' : Constraint) (h : c.make = .ok c') : AcceptedBound c'.lowerBound
  | consUpper (c c' : Constraint) (h : c.make = .ok c') : AcceptedBound c'.upperBound

theorem variable_make_ok {v v' : Variable} (h : v.make = .ok v') :
    v' = v ∧ (∀ b, v.lowerBound = some b → computeDegree b = .ok 0) ∧
      ∀ b, v.upperBound = some b → computeDegree b = .ok 0 := by
  unfold Variable.make at h
  simp only [bind_ok_iff, Except.ok.injEq] at h
  obtain ⟨_, h1, _, h2, rfl⟩ := h
  exact ⟨rfl, fun b => checkConstantBound_ok h1 b, fun b => checkConstantBound_ok h2 b⟩

theorem acceptedBound_degree {b : Expr} (h : AcceptedBound b) : computeDegree b = .ok 0 := by
  have key : ∀ c c' : Constraint, c.make = .ok c' →
      computeDegree c'.lowerBound = .ok 0 ∧ computeDegree c'.upperBound = .ok 0 := by
    intro c c' h
    by_cases hc : ∃ l r k, c.expression = .cmp l r k
    · obtain ⟨l, r, k, hc⟩ := hc
      obtain ⟨name, e, lb, ub, ctx⟩ := c
      simp only at hc
      subst hc
      simp only [Constraint.make] at h
      split_ifs at h
      cases k <;> cases h <;> exact ⟨rfl, rfl⟩
    · have hc : ∀ l r k, c.expression ≠ .cmp l r k := fun l r k h => hc ⟨l, r, k, h⟩
      obtain ⟨rfl, h1, h2, -⟩ := (((c17_accepted_iff c).2 hc).1 c').1 h
      exact ⟨h1, h2⟩
  cases h with
  | varLower v v' b h hb =>
    obtain ⟨rfl, h1, _⟩ := variable_make_ok h
    exact h1 b hb
  | varUpper v v' b h hb =>
    obtain ⟨rfl, _, h1⟩ := variable_make_ok h
    exact h1 b hb
  | consLower c c' h => exact (key c c' h).1
  | consUpper c c' h => exact (key c c' h).2

/-- C18: the value of an accepted bound (or the error its evaluation raises) is the same for all values of the decision
variables.  `evaluate` is how the optimization problem reads bounds. -/
theorem c18_bounds_constant (b : Expr) (h : AcceptedBound b) (par : String → R Num) (cpar : String → String → R Num)
    (v w : String → ℚ) (cv cw : String → String → ℚ) :
    evaluate (assign par cpar v cv) b = evaluate (assign par cpar w cw) b :=
  c05_degree_zero b (acceptedBound_degree h) par cpar v w cv cw

/-- C18 after the component has been given: what the optimization problem evaluates is the bound with its symbols
attached to the component; it does not depend on the variables either. -/
theorem c18_bounds_constant_in_component (b b' : Expr) (h : AcceptedBound b) (c : String)
    (hb : addComponentContext c b = .ok b') (par : String → R Num) (cpar : String → String → R Num)
    (v w : String → ℚ) (cv cw : String → String → ℚ) :
    evaluate (assign par cpar v cv) b' = evaluate (assign par cpar w cw) b' := by
  obtain ⟨k, hk, hle⟩ := addComponentContext_degLE ⟨0, acceptedBound_degree h, le_refl _⟩ hb
  obtain rfl : k = 0 := by omega
  exact c05_degree_zero b' hk par cpar v w cv cw

theorem amountsAll_sub {P : Expr → Prop} {e x : Expr} (h : e.AmountsAll P) (hs : ∀ y ∈ x.subs, y ∈ e.subs) :
    x.AmountsAll P :=
  ⟨fun y k hy => h.1 y k (hs _ hy), fun y k hy => h.2.1 y k (hs _ hy), fun y a b hy => h.2.2 y a b (hs _ hy)⟩

theorem mden_noVar (M : MCtx) (v) (e : Expr) (h : ∀ y ∈ e.subs, y.isVariable = false) (t s : Int) :
    mden (M.withVar v) e t s = mden M e t s := by
  induction e using Expr.ind generalizing t s with
  | lit v => cases v <;> rfl
  | var n => exact absurd (h _ (mem_subs_self _)) (by simp [isVariable])
  | cvar c n => exact absurd (h _ (mem_subs_self _)) (by simp [isVariable])
  | pvar c n ti si => exact absurd (h _ (mem_subs_self _)) (by simp [isVariable])
  | portField p f => exact absurd (h _ (mem_subs_self _)) (by simp [isVariable])
  | agg e a ih => exact absurd (h _ (mem_subs_self _)) (by simp [isVariable])
  | par n => rfl
  | cpar c n => rfl
  | ppar c n ti si => rfl
  | cmp l r c => rfl
  | neg e ih => simp only [mden]; rw [ih (fun y hy => h y (by simp [subs, hy]))]
  | add es ih =>
    rw [mden_add, mden_add]
    congr 1
    refine List.map_congr_left fun x hx => ih x hx (fun y hy => h y (mem_subs_add.2 (.inr ⟨x, hx, hy⟩))) t s
  | mul l r ihl ihr =>
    simp only [mden]
    rw [ihl (fun y hy => h y (by simp [subs, hy])), ihr (fun y hy => h y (by simp [subs, hy]))]
  | div l r ihl ihr =>
    simp only [mden]
    rw [ihl (fun y hy => h y (by simp [subs, hy])), ihr (fun y hy => h y (by simp [subs, hy]))]
  | shift l r ihl ihr =>
    simp only [mden]
    rw [ihr (fun y hy => h y (by simp [subs, hy])), ihl (fun y hy => h y (by simp [subs, hy]))]
  | evalT l r ihl ihr =>
    simp only [mden]
    rw [ihr (fun y hy => h y (by simp [subs, hy])), ihl (fun y hy => h y (by simp [subs, hy]))]
  | tsum e a b ihe iha ihb =>
    simp only [mden]
    rw [iha (fun y hy => h y (by simp [subs, hy])), ihb (fun y hy => h y (by simp [subs, hy]))]
    exact Finset.sum_congr rfl fun k _ => ihe (fun y hy => h y (by simp [subs, hy])) _ _
  | allsum e ih =>
    simp only [mden]
    exact Finset.sum_congr rfl fun k _ => ih (fun y hy => h y (by simp [subs, hy])) _ _
  | scen e o ih =>
    simp only [mden]
    congr 1
    exact Finset.sum_congr rfl fun k _ => ih (fun y hy => h y (by simp [subs, hy])) _ _

theorem mden_degree_zero (M : MCtx) (v) (e : Expr) (h : computeDegree e = .ok 0)
    (ha : e.AmountsAll fun y => y.isVariable = false) (t s : Int) : mden (M.withVar v) e t s = mden M e t s := by
  induction e using Expr.ind generalizing t s with
  | lit v => cases v <;> rfl
  | var n => simp [computeDegree] at h
  | cvar c n => simp [computeDegree] at h
  | pvar c n ti si => simp [computeDegree] at h
  | portField p f => simp [computeDegree] at h
  | par n => rfl
  | cpar c n => rfl
  | ppar c n ti si => rfl
  | cmp l r c => rfl
  | neg e ih => simp only [mden]; rw [ih h (amountsAll_sub ha (by simp +contextual [subs]))]
  | add es ih =>
    rw [mden_add, mden_add]
    congr 1
    refine List.map_congr_left fun x hx => ih x hx ?_ (amountsAll_sub ha fun y hy => mem_subs_add.2 (.inr ⟨x, hx, hy⟩)) t s
    obtain ⟨j, hj, hle⟩ := degree_add_operands h x hx
    obtain rfl : j = 0 := by omega
    exact hj
  | mul l r ihl ihr =>
    simp only [computeDegree, bind_ok_iff, Except.ok.injEq] at h
    obtain ⟨a, h1, b, h2, h3⟩ := h
    obtain rfl : a = 0 := by omega
    obtain rfl : b = 0 := by omega
    simp only [mden]
    rw [ihl h1 (amountsAll_sub ha (by simp +contextual [subs])), ihr h2 (amountsAll_sub ha (by simp +contextual [subs]))]
  | div l r ihl ihr =>
    obtain ⟨⟨a, h1, h3⟩, ⟨b, h2, h4⟩⟩ := degLE_div.1 ⟨0, h, le_refl _⟩
    obtain rfl : a = 0 := by omega
    obtain rfl : b = 0 := by omega
    simp only [mden]
    rw [ihl h2 (amountsAll_sub ha (by simp +contextual [subs])), ihr h1 (amountsAll_sub ha (by simp +contextual [subs]))]
  | shift l r ihl ihr =>
    simp only [mden]
    rw [mden_noVar M v r (ha.1 l r (mem_subs_self _)), ihl h (amountsAll_sub ha (by simp +contextual [subs]))]
  | evalT l r ihl ihr =>
    simp only [mden]
    rw [mden_noVar M v r (ha.2.1 l r (mem_subs_self _)), ihl h (amountsAll_sub ha (by simp +contextual [subs]))]
  | tsum e a b ihe iha ihb =>
    simp only [mden]
    have := ha.2.2 e a b (mem_subs_self _)
    rw [mden_noVar M v a this.1, mden_noVar M v b this.2]
    exact Finset.sum_congr rfl fun k _ => ihe h (amountsAll_sub ha (by simp +contextual [subs])) _ _
  | allsum e ih =>
    simp only [mden]
    exact Finset.sum_congr rfl fun k _ => ih h (amountsAll_sub ha (by simp +contextual [subs])) _ _
  | scen e o ih =>
    simp only [computeDegree, bind_ok_iff, Except.ok.injEq] at h
    obtain ⟨a, h1, b, h2, h3⟩ := h
    simp only [mden]
    congr 1
    refine Finset.sum_congr rfl fun k _ => ih ?_ (amountsAll_sub ha (by simp +contextual [subs])) _ _
    rcases Nat.mul_eq_zero.1 h3 with rfl | rfl
    · cases o <;> simp [ScenOp.degree] at h1
    · exact h2
  | agg e a ih =>
    cases e <;> first | rfl | simp [computeDegree] at h

/-- C18, mathematical meaning: an accepted bound whose time shifts, timesteps and sum bounds do not use variables has a
value that does not change with the decision variables, at every timestep and scenario. -/
theorem c18_meaning_constant (b : Expr) (h : AcceptedBound b) (ha : b.AmountsAll fun y => y.isVariable = false)
    (M : MCtx) (v : String → String → Option Int → Option Int → ℚ) (t s : Int) :
    mden (M.withVar v) b t s = mden M b t s :=
  mden_degree_zero M v b (acceptedBound_degree h) ha t s

/-- The hypothesis on amounts is needed: the bound `p[t + x]`, with `x` a variable, is accepted although its
mathematical value depends on `x`.  Its evaluation raises an error, so no problem is ever built with it. -/
theorem c18_variable_shift_accepted : ∃ b, AcceptedBound b ∧
    (∃ (M : MCtx) (v : String → String → Option Int → Option Int → ℚ), mden (M.withVar v) b 0 0 ≠ mden M b 0 0) ∧
    ∀ p a, evaluate p b ≠ .ok a := by
  refine ⟨shift (par "p") (var "x"), .varLower ⟨"v", .continuous, some (shift (par "p") (var "x")), none, ⟨true, true⟩,
    .operational⟩ _ _ rfl rfl, ?_, ?_⟩
  · refine ⟨⟨⟨⟨fun _ _ _ _ => 0, fun _ _ t _ => if t = some 0 then 1 else 0⟩, fun _ _ => ⟨true, true⟩,
      fun _ _ => ⟨true, true⟩, 1, 1, fun _ => 0⟩, "c", noPorts⟩, fun _ _ _ _ => 1, ?_⟩
    decide +kernel
  · intro p a h
    simp [evaluate] at h

/-- an accepted variable with a non-trivial bound: at least twice the parameter `p` -/
example : AcceptedBound ((lit 2).mulOp (par "p")) ∧
    Variable.make ⟨"v", .continuous, some ((lit 2).mulOp (par "p")), some (var "x"), ⟨true, true⟩, .operational⟩ =
      .error (.valueError "Upper bounds of variables must be constant") :=
  ⟨.varLower ⟨"v", .continuous, some ((lit 2).mulOp (par "p")), none, ⟨true, true⟩, .operational⟩ _ _ rfl rfl, rfl⟩

/-! ## C19 -/

theorem objectiveValid_ok {m : Model} {e : Expr} (h : objectiveValid m e = .ok ()) :
    (∃ d, computeDegree e = .ok d ∧ d ≤ 1) ∧ computeIndexation m.structures e = .ok ⟨false, false⟩ := by
  unfold objectiveValid isLinear at h
  simp only [bind_ok_iff, Except.ok.injEq] at h
  obtain ⟨lin, ⟨d, hd, rfl⟩, h⟩ := h
  split_ifs at h with h0
  rw [bind_ok_iff] at h
  obtain ⟨i, hi, h⟩ := h
  split_ifs at h with h1
  simp only [Bool.not_eq_true, Bool.not_eq_false', decide_eq_true_eq] at h0
  rw [not_not] at h1
  subst h1
  exact ⟨⟨d, hd, h0⟩, hi⟩

/-- C19, acceptance: in an accepted model each objective contribution has degree at most 1 and an indexing structure
that varies neither in time nor in scenario; a model whose contribution does not is refused. -/
theorem c19_accepted (m m' : Model) (h : m.make = .ok m') :
    m' = m ∧ ∀ e ∈ m.objectives, (∃ d, computeDegree e = .ok d ∧ d ≤ 1) ∧
      computeIndexation m.structures e = .ok ⟨false, false⟩ := by
  unfold Model.make at h
  simp only [bind_ok_iff, Except.ok.injEq] at h
  obtain ⟨_, h1, _, h2, _, _, rfl⟩ := h
  refine ⟨rfl, fun e he => ?_⟩
  simp only [Model.objectives, List.mem_append, Option.mem_toList] at he
  rcases he with he | he
  · rw [Option.mem_def.1 he] at h1; exact objectiveValid_ok h1
  · rw [Option.mem_def.1 he] at h2; exact objectiveValid_ok h2

/-- the structures used when building the problem agree with those of the model of component `c` -/
structure StructsOf (x : ExpandCtx) (c : String) (m : Model) : Prop where
  var : ∀ n v, m.variables_.get? n = some v → x.structs.cvar c n = .ok v.structure_
  par : ∀ n p, m.parameters.get? n = some p → x.structs.cpar c n = .ok p.structure_

theorem get_ok_iff {α β} [DecidableEq α] (d : Dict α β) (k : α) (v : β) : d.get k = .ok v ↔ d.get? k = some v := by
  unfold Dict.get
  cases d.get? k <;> simp

theorem structsOf_idx {x : ExpandCtx} {c : String} {m : Model} (hs : StructsOf x c m) {e e1 : Expr} {i : Idx}
    (hi : computeIndexation m.structures e = .ok i) (h1 : addComponentContext c e = .ok e1) :
    computeIndexation x.structs e1 = .ok i := by
  refine addComponentContext_idx ?_ ?_ hi h1
  · intro n i h
    simp only [Model.structures, bind_ok_iff, Except.ok.injEq] at h
    obtain ⟨v, hv, rfl⟩ := h
    exact hs.var n v ((get_ok_iff _ _ _).1 hv)
  · intro n i h
    simp only [Model.structures, bind_ok_iff, Except.ok.injEq] at h
    obtain ⟨v, hv, rfl⟩ := h
    exact hs.par n v ((get_ok_iff _ _ _).1 hv)

/-- **C19 (partial).** An objective contribution without port references of an accepted model, instantiated and
expanded, is linearized without timestep and scenario exactly as it would be at any timestep and scenario; it never
fails with a non-linearity error; and if it contains no comparison it only fails by dividing by zero or because the data
of a parameter cannot be read.  Missing: contributions with port references, for which it is false (next theorem). -/
theorem c19_builds_partial (m m' : Model) (hm : m.make = .ok m') (e : Expr) (he : e ∈ m.objectives)
    (hport : ∀ y ∈ e.subs, y.isPortRef = false) (c : String) (ports : PortExprs) (x : ExpandCtx) (hs : StructsOf x c m)
    (e1 e2 : Expr) (h1 : instantiate e c ports = .ok e1) (h2 : expand x e1 = .ok e2) (p : ParamGetter)
    (hp : ∀ c n u w err, p c n u w = .error err → err ≠ .nonLinearMul ∧ err ≠ .nonLinearDiv) :
    (∀ t s, linearizeExpression e2 none none (some p) = linearizeExpression e2 t s (some p)) ∧
    (∀ err, linearizeExpression e2 none none (some p) = .error err →
      (err ≠ .nonLinearMul ∧ err ≠ .nonLinearDiv) ∧
      ((∀ y ∈ e.subs, y.isCmp = false) → err = .zeroDivision ∨ ∃ c n u w, p c n u w = .error err)) := by
  obtain ⟨-, hobj⟩ := c19_accepted m m' hm
  obtain ⟨⟨d, hd, hle⟩, hidx⟩ := hobj e he
  obtain ⟨hctx, -⟩ := instantiate_noPort hport h1
  obtain ⟨k, hk, hkd⟩ := addComponentContext_degLE ⟨d, hd, le_refl _⟩ hctx
  have hi := structsOf_idx hs hidx hctx
  have hall : ∀ t s, linearizeExpression e2 none none (some p) = linearizeExpression e2 t s (some p) := fun t s =>
    (c07_time_linear x e1 e2 _ hi rfl h2 none t none (some p)).trans
      (c07_scenario_linear x e1 e2 _ hi rfl h2 t none s (some p))
  refine ⟨hall, fun err herr => ?_⟩
  have hnl := c06_linear_never_rejected x e1 e2 k hk (hkd.trans hle) h2 none none (some p)
    (fun g hg => by cases hg; exact hp) err herr
  refine ⟨hnl, fun hcmp => ?_⟩
  rw [hall (some 0) none] at herr
  rcases c10_linearization_errors x e1 e2
    (addComponentContext_problem c e e1 (fun y hy => ⟨hport y hy, hcmp y hy⟩) hctx) h2 0 none p err herr with h | h | h
  · exact absurd h hnl.1
  · exact absurd h hnl.2
  · exact h

/-- **C19**, meaning: the value of such a contribution is the same at all timesteps and scenarios. -/
theorem c19_value_partial (m m' : Model) (hm : m.make = .ok m') (e : Expr) (he : e ∈ m.objectives)
    (hport : ∀ y ∈ e.subs, y.isPortRef = false) (hcmp : ∀ y ∈ e.subs, y.isCmp = false) (c : String)
    (hc : ∀ y ∈ e.subs, y.hasComponent = false) (hne : add [] ∉ e.subs)
    (D : DenCtx) (hv : ∀ n v, m.variables_.get? n = some v → D.vidx c n = v.structure_)
    (hpar : ∀ n p, m.parameters.get? n = some p → D.pidx c n = p.structure_) (t s t' s' : Int) :
    mden (componentCtx D c noPorts) e t s = mden (componentCtx D c noPorts) e t' s' := by
  obtain ⟨-, hobj⟩ := c19_accepted m m' hm
  obtain ⟨-, hidx⟩ := hobj e he
  obtain ⟨e1, h1⟩ := (addComponentContext_ok_iff c e).2 ⟨hc, hne⟩
  have hprob := addComponentContext_problem c e e1 (fun y hy => ⟨hport y hy, hcmp y hy⟩) h1
  have ha : e.AggPort := fun x a hx => by have := hport _ hx; simp [isPortRef] at this
  let st : StructProvider :=
    ⟨fun _ => .error .indexError, fun _ => .error .indexError, fun d n => if d = c then m.structures.var n else .error .indexError,
      fun d n => if d = c then m.structures.par n else .error .indexError⟩
  have hi : computeIndexation st e1 = .ok ⟨false, false⟩ :=
    addComponentContext_idx (fun n i h => by simpa [st] using h) (fun n i h => by simpa [st] using h) hidx h1
  have hv' : ∀ d n i, st.cvar d n = .ok i → D.std.vidx d n = i := by
    intro d n i h
    simp only [st] at h
    split_ifs at h with hd
    subst hd
    simp only [Model.structures, bind_ok_iff, Except.ok.injEq] at h
    obtain ⟨v, hv1, rfl⟩ := h
    exact hv n v ((get_ok_iff _ _ _).1 hv1)
  have hp' : ∀ d n i, st.cpar d n = .ok i → D.std.pidx d n = i := by
    intro d n i h
    simp only [st] at h
    split_ifs at h with hd
    subst hd
    simp only [Model.structures, bind_ok_iff, Except.ok.injEq] at h
    obtain ⟨v, hv1, rfl⟩ := h
    exact hpar n v ((get_ok_iff _ _ _).1 hv1)
  have key : ∀ t s, mden (componentCtx D c noPorts) e t s = den D.std e1 t s := by
    intro t s
    rw [den_std D c noPorts e1 hprob]
    exact (c16_meaning D c c noPorts e e1 ha h1 t s).symm
  rw [key, key, c07_time_value st D.std hv' hp' e1 _ hi rfl t t' s, c07_scenario_value st D.std hv' hp' e1 _ hi rfl t' s s']

/-- a model with an objective contribution `expec(sum(x + port.flow))`, whose port field is connected to a component
that defines it as a product of two variables -/
def objModel : Model :=
  { id := "O"
    variables_ := [("x", ⟨"x", .continuous, none, none, ⟨true, true⟩, .operational⟩)]
    objectiveOperational := some (scen (allsum ((var "x").addOp (portField "port" "flow"))) .expectation)
    ports := [("port", ⟨flowType, "port"⟩)] }
def quadModel : Model :=
  { id := "Q"
    variables_ := [("y", ⟨"y", .continuous, none, none, ⟨true, true⟩, .operational⟩)]
    ports := [("port", ⟨flowType, "port"⟩)]
    portFieldsDefinitions := [(⟨"port", "flow"⟩, ⟨⟨"port", "flow"⟩, (var "y").mulOp (var "y")⟩)] }
def cnxQ : PortsConnection :=
  ⟨⟨⟨objModel, "o"⟩, "port"⟩, ⟨⟨quadModel, "q"⟩, "port"⟩, [("flow", ⟨⟨quadModel, "q"⟩, "port"⟩)]⟩
def structsQ : StructProvider where
  par _ := .error .indexError
  var _ := .error .indexError
  cvar _ _ := .ok ⟨true, true⟩
  cpar _ _ := .error .indexError
def ctxQ : ExpandCtx := { ctx1 with structs := structsQ }

/-- **C19** is violated with port references: the checks stop looking at a sum as soon as one operand varies in time and
scenario, so the model above is accepted, and its objective fails with a non-linearity error once the (accepted)
connection brings the product of two variables. -/
theorem c19_port_field_nonlinear : ∃ (e e1 e2 : Expr) (ports : PortExprs),
    objModel.make = .ok objModel ∧ quadModel.make = .ok quadModel ∧ e ∈ objModel.objectives ∧ cnxQ.Accepted ∧
    registerConnections [cnxQ] [] = .ok ports ∧ instantiate e "o" ports = .ok e1 ∧ expand ctxQ e1 = .ok e2 ∧
    ∀ p, linearizeExpression e2 none none (some p) = .error .nonLinearMul := by
  refine ⟨scen (allsum ((var "x").addOp (portField "port" "flow"))) .expectation, _, _, _, rfl, rfl,
    by simp [Model.objectives, objModel], ⟨rfl, ?_, ?_⟩, rfl, rfl, rfl, ?_⟩
  rotate_right
  · intro p; rfl
  · exact portsKeyed_single _ "port" ⟨flowType, "port"⟩ rfl rfl
  · exact portsKeyed_single _ "port" ⟨flowType, "port"⟩ rfl rfl

/-- a port-free contribution: the expected total cost `expec(sum(cost * x))` is accepted, instantiated, expanded and
linearized -/
def costModel : Model :=
  { id := "C"
    parameters := [("cost", ⟨"cost", .continuous, ⟨false, false⟩⟩)]
    variables_ := [("x", ⟨"x", .continuous, none, none, ⟨true, true⟩, .operational⟩)]
    objectiveOperational := some (scen (allsum ((par "cost").mulOp (var "x"))) .expectation) }
def ctxC : ExpandCtx := { ctx1 with structs := ⟨fun _ => .error .indexError, fun _ => .error .indexError,
  fun _ _ => .ok ⟨true, true⟩, fun _ _ => .ok ⟨false, false⟩⟩ }

example : costModel.make = .ok costModel ∧ StructsOf ctxC "c" costModel ∧
    (∀ e ∈ costModel.objectives, ∀ y ∈ e.subs, y.isPortRef = false ∧ y.isCmp = false) ∧
    ∃ e ∈ costModel.objectives, (instantiate e "c" [] >>= fun e1 => expand ctxC e1 >>= fun e2 =>
      linearizeExpression e2 none none (some fun _ _ _ _ => .ok 3)).isOk := by
  refine ⟨rfl, ⟨?_, ?_⟩, ?_, scen (allsum ((par "cost").mulOp (var "x"))) .expectation,
    by simp [Model.objectives, costModel], by decide +kernel⟩
  · intro n v h
    have := Dict.mem_of_get? h
    simp only [costModel, List.mem_singleton, Prod.mk.injEq] at this
    obtain ⟨-, rfl⟩ := this
    rfl
  · intro n v h
    have := Dict.mem_of_get? h
    simp only [costModel, List.mem_singleton, Prod.mk.injEq] at this
    obtain ⟨-, rfl⟩ := this
    rfl
  · simp [Model.objectives, costModel, mulOp, subs, isPortRef, isCmp]

/-- an objective that varies in time is refused -/
example : ({ costModel with objectiveOperational := some ((par "cost").mulOp (var "x")) } : Model).make =
    .error (.valueError "Objective contribution should be a real-valued expression.") := rfl

end Props
end Verif
