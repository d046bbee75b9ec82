import Verif.Lemmas.Rows

/-! # Properties C29, C32, C36: timesteps of the block, rows, strategies -/

namespace Verif
namespace Props

/-! ## C29 -/

/-- **C29.** With cyclic borders every integer designates exactly one timestep of the block: the one congruent to it
modulo the block length. -/
theorem c29_wrap (x : OptCtx) (hc : x.cycle = true) (hb : x.timesteps ≠ []) (t : Int) :
    ∃ u, x.actualTimestep t = .ok u ∧ 0 ≤ u ∧ u < x.timesteps.length ∧ (∃ k : Int, t = u + k * x.timesteps.length) ∧
      ∀ u' k : Int, 0 ≤ u' → u' < x.timesteps.length → t = u' + k * x.timesteps.length → u' = u := by
  have hT : x.T ≠ 0 := by simpa [OptCtx.T] using hb
  have hpos : (0 : Int) < x.timesteps.length := by
    have : 0 < x.timesteps.length := List.length_pos_iff.2 hb
    omega
  refine ⟨t % x.timesteps.length, actualTimestep_eq hc hT t, Int.emod_nonneg _ hpos.ne', Int.emod_lt_of_pos _ hpos,
    ⟨t / x.timesteps.length, ?_⟩, ?_⟩
  · have := Int.emod_add_mul_ediv t x.timesteps.length
    rw [mul_comm]; omega
  · rintro u' k h0 h1 rfl
    rw [Int.add_mul_emod_self_right, Int.emod_eq_of_lt h0 h1]

/-- **C29**, shifting by the block length (forward or backward, any number of times) is the identity, and timesteps of
the block designate themselves. -/
theorem c29_period (x : OptCtx) (t k : Int) :
    x.actualTimestep (t + k * x.timesteps.length) = x.actualTimestep t ∧
    (x.cycle = true → 0 ≤ t → t < x.timesteps.length → x.actualTimestep t = .ok t) := by
  constructor
  · have : (t + k * x.timesteps.length) % (x.blockLength : Int) = t % (x.blockLength : Int) :=
      Int.add_mul_emod_self_right t k _
    unfold OptCtx.actualTimestep
    rw [this]
  · intro hc h0 h1
    have hT : x.T ≠ 0 := by unfold OptCtx.T; omega
    rw [actualTimestep_eq hc hT, OptCtx.T, Int.emod_eq_of_lt h0 h1]

/-- **C29**, data: the absolute timestep read in the data is the entry of the block at the designated position; a missing
timestep stays missing. -/
theorem c29_absolute (x : OptCtx) (hc : x.cycle = true) (hb : x.timesteps ≠ []) (t u : Int)
    (hu : x.actualTimestep t = .ok u) :
    (∃ a, x.timesteps[u.toNat]? = some a ∧ x.absoluteTimestep (some t) = .ok (some a)) ∧
    x.absoluteTimestep none = .ok none := by
  refine ⟨?_, rfl⟩
  obtain ⟨u', hu', h0, h1, _⟩ := c29_wrap x hc hb t
  rw [hu] at hu'
  cases hu'
  have hlt : u.toNat < x.timesteps.length := by omega
  refine ⟨x.timesteps[u.toNat], List.getElem?_eq_getElem hlt, ?_⟩
  have hnn : ¬ u < 0 := by omega
  simp only [OptCtx.absoluteTimestep, hu, ok_bind, pyIndex, if_neg hnn, List.getElem?_eq_getElem hlt]

/-- **C29**, the other border mode: `IGNORE_OUT_OF_FRAME` is declared but every use of a timestep raises
`NotImplementedError`. -/
theorem c29_ignore_not_supported (x : OptCtx) (hc : x.cycle = false) (t : Int) :
    x.actualTimestep t = .error (.notImplemented "") ∧ x.absoluteTimestep (some t) = .error (.notImplemented "") := by
  have : x.actualTimestep t = .error (.notImplemented "") := by simp [OptCtx.actualTimestep, hc]
  exact ⟨this, by simp [OptCtx.absoluteTimestep, this]⟩

/-- a block of hours 10, 11, 12: timestep -1 is hour 12, timestep 4 is hour 11 -/
example : let x : OptCtx := { network := ⟨"n", [], [], []⟩, database := [], timesteps := [10, 11, 12], scenarios := 1 }
    x.absoluteTimestep (some (-1)) = .ok (some 12) ∧ x.absoluteTimestep (some 4) = .ok (some 11) := ⟨rfl, rfl⟩

/-! ## C32 -/

/-- **C32.** The row added for a linear expression with finite coefficients and bounds `lower`, `upper` (possibly
infinite) is satisfied by a point exactly when `lower <= value <= upper`, the value being that of the linear expression
when a variable instance at timestep `t` takes the value of the column of the instance at `t` modulo the block length.
Several terms may designate the same column.  Nothing else changes in the problem. -/
theorem c32_row (x : OptCtx) (st st' : OptState) (t s : Int) (name : String) (lower upper : Num) (l : LinExpr)
    (hl : l.Finite) (h : x.makeConstraint st t s name lower upper l = .ok st') :
    ∃ row, st' = { st with solver := { st.solver with rows := st.solver.rows ++ [row] } } ∧
      ∀ (pt : Nat → ℚ) (σ : TermKey → ℚ), (∀ k i, st.columns.get? k = some i → pt i = σ k) →
        (row.Sat pt ↔
          lower.isBelow (l.value fun k => σ ⟨k.component, k.var, k.time.map (· % (x.timesteps.length : Int)), k.scenario⟩) ∧
          upper.isAbove (l.value fun k => σ ⟨k.component, k.var, k.time.map (· % (x.timesteps.length : Int)), k.scenario⟩)) := by
  unfold OptCtx.makeConstraint at h
  rw [bind_ok_iff] at h
  obtain ⟨coefs, hc, h⟩ := h
  cases h
  refine ⟨_, rfl, fun pt σ hσ => ?_⟩
  have hf : ∀ u ∈ l.terms.values, u.coefficient.isFin = true := by
    intro u hu
    obtain ⟨⟨k, u'⟩, hm, rfl⟩ := List.mem_map.1 hu
    exact hl.coef k u' hm
  obtain ⟨-, hlin⟩ := rowCoefs_linForm _ [] coefs hf (by intro i v h; cases h) hc pt σ hσ
  obtain ⟨c0, hc0⟩ := (Num.isFin_iff _).1 hl.const
  have hv : l.value (fun k => σ ⟨k.component, k.var, k.time.map (· % (x.timesteps.length : Int)), k.scenario⟩) =
      linForm coefs pt + c0 := by
    rw [hlin, linForm_nil, zero_add, add_comm]
    unfold LinExpr.value Dict.values
    rw [hc0, List.map_map]
    rfl
  have h0 : (0 : Num) + l.constant = .fin c0 := by rw [hc0, zero_add]
  rw [hv]
  unfold Row.Sat
  simp only [h0, isBelow_sub, isAbove_sub]

theorem rowCoefs_ok_iff {x : OptCtx} (hc : x.cycle = true) (hT : x.T ≠ 0) (cols : Dict TermKey Nat) (terms : List Term)
    (coefs : Dict Nat Num) :
    ((∃ c, x.rowCoefs cols terms coefs = .ok c) ↔ ∀ u ∈ terms, (cols.get? (wrapKey x.T u.key)).isSome) ∧
    ∀ e, x.rowCoefs cols terms coefs = .error e → e = .keyError "" := by
  induction terms generalizing coefs with
  | nil => exact ⟨⟨fun _ u hu => (by cases hu), fun _ => ⟨coefs, rfl⟩⟩, fun e h => (by cases h)⟩
  | cons u terms ih =>
    unfold OptCtx.rowCoefs
    rw [loop_cons, componentVariable_eq hc hT]
    unfold Dict.get
    cases hk : cols.get? (wrapKey x.T u.key) with
    | none =>
      refine ⟨⟨fun ⟨c, h⟩ => (by cases h), fun h => ?_⟩, fun e h => (by cases h; rfl)⟩
      have := h u (by simp)
      rw [hk] at this
      cases this
    | some i =>
      have := ih (Dict.set coefs i (u.coefficient + coefOf coefs i))
      simp only [ok_bind, List.mem_cons, forall_eq_or_imp, hk, Option.isSome_some, true_and]
      exact this

/-- **C32**, failures: with cyclic borders, the row is added exactly when every variable instance of the expression, at
its timestep modulo the block length, is a variable of the problem; otherwise a `KeyError` is raised. -/
theorem c32_accepted_iff (x : OptCtx) (hc : x.cycle = true) (hb : x.timesteps ≠ []) (st : OptState) (t s : Int)
    (name : String) (lower upper : Num) (l : LinExpr) :
    ((∃ st', x.makeConstraint st t s name lower upper l = .ok st') ↔ ∀ k u, (k, u) ∈ l.terms →
      (st.columns.get? ⟨u.key.component, u.key.var, u.key.time.map (· % (x.timesteps.length : Int)), u.key.scenario⟩).isSome) ∧
    ∀ e, x.makeConstraint st t s name lower upper l = .error e → e = .keyError "" := by
  have hT : x.T ≠ 0 := by simpa [OptCtx.T] using hb
  obtain ⟨h1, h2⟩ := rowCoefs_ok_iff hc hT st.columns l.terms.values []
  have hm : (∀ u ∈ l.terms.values, (st.columns.get? (wrapKey x.T u.key)).isSome) ↔ ∀ k u, (k, u) ∈ l.terms →
      (st.columns.get? ⟨u.key.component, u.key.var, u.key.time.map (· % (x.timesteps.length : Int)), u.key.scenario⟩).isSome := by
    constructor
    · intro h k u hku; exact h u (List.mem_map.2 ⟨(k, u), hku, rfl⟩)
    · intro h u hu
      obtain ⟨⟨k, u'⟩, hku, rfl⟩ := List.mem_map.1 hu
      exact h k u' hku
  rw [← hm, ← h1]
  unfold OptCtx.makeConstraint
  cases hr : x.rowCoefs st.columns l.terms.values [] with
  | ok c => exact ⟨⟨fun _ => ⟨c, rfl⟩, fun _ => ⟨_, rfl⟩⟩, fun e h => (by cases h)⟩
  | error e =>
    refine ⟨⟨fun ⟨_, h⟩ => (by cases h), fun ⟨_, h⟩ => (by cases h)⟩, fun e' h => ?_⟩
    cases h
    exact h2 _ hr

/-- a row where two terms wrap around to the same column: `x[t-1] + 2 x[t+1] - 3` in a block of two timesteps, at
timestep 0, between 0 and plus infinity: coefficient 3 on the column of timestep 1, lower bound 3 -/
example : let x : OptCtx := { network := ⟨"n", [], [], []⟩, database := [], timesteps := [0, 1], scenarios := 1 }
    let l : LinExpr := ⟨[(⟨"c", "x", some (-1), none⟩, ⟨1, ⟨"c", "x", some (-1), none⟩⟩),
      (⟨"c", "x", some 1, none⟩, ⟨2, ⟨"c", "x", some 1, none⟩⟩)], .fin (-3)⟩
    let st : OptState := { columns := [(⟨"c", "x", some 0, none⟩, 0), (⟨"c", "x", some 1, none⟩, 1)] }
    l.Finite ∧ (x.makeConstraint st 0 0 "k" 0 .pinf l).map (fun st => st.solver.rows) =
      .ok [⟨"k_t0_s0", [(1, 3)], 3, .pinf⟩] := by
  refine ⟨⟨rfl, ?_⟩, by decide +kernel⟩
  intro k t h
  simp only [List.mem_cons, Prod.mk.injEq, List.not_mem_nil, or_false] at h
  rcases h with ⟨-, rfl⟩ | ⟨-, rfl⟩ <;> rfl

/-! ## C36 -/

/-- **C36.** The merged strategy keeps all variables and constraints; the investment strategy keeps exactly those whose
context is investment or coupling, the operational strategy exactly those whose context is operational or coupling. -/
theorem c36_selection (m : Model) :
    (mergedStrategy.getVariables m = m.variables_.values ∧
      mergedStrategy.getConstraints m = m.bindingConstraints.values ++ m.constraints.values) ∧
    (∀ v, v ∈ investmentStrategy.getVariables m ↔ v ∈ m.variables_.values ∧ v.context ≠ .operational) ∧
    (∀ k, k ∈ investmentStrategy.getConstraints m ↔ (k ∈ m.bindingConstraints.values ∨ k ∈ m.constraints.values) ∧ k.context ≠ .operational) ∧
    (∀ v, v ∈ operationalStrategy.getVariables m ↔ v ∈ m.variables_.values ∧ v.context ≠ .investment) ∧
    (∀ k, k ∈ operationalStrategy.getConstraints m ↔ (k ∈ m.bindingConstraints.values ∨ k ∈ m.constraints.values) ∧ k.context ≠ .investment) := by
  have ctx : ∀ c : ProblemContext, ((c == .investment || c == .coupling) = true ↔ c ≠ .operational) ∧
      ((c == .operational || c == .coupling) = true ↔ c ≠ .investment) := by
    intro c; cases c <;> decide
  refine ⟨⟨?_, ?_⟩, ?_, ?_, ?_, ?_⟩
  · simp [Strategy.getVariables, mergedStrategy]
  · simp [Strategy.getConstraints, mergedStrategy, Model.allConstraints]
  · intro v; simp only [Strategy.getVariables, investmentStrategy, List.mem_filter, (ctx _).1]
  · intro k; simp only [Strategy.getConstraints, investmentStrategy, Model.allConstraints, List.mem_append, List.mem_filter, (ctx _).1]
  · intro v; simp only [Strategy.getVariables, operationalStrategy, List.mem_filter, (ctx _).2]
  · intro k; simp only [Strategy.getConstraints, operationalStrategy, Model.allConstraints, List.mem_append, List.mem_filter, (ctx _).2]

/-- **C36**, cover: every variable and constraint is in the investment or the operational problem, and it is in both
exactly when it is declared as coupling. -/
theorem c36_cover (m : Model) :
    (∀ v ∈ m.variables_.values, (v ∈ investmentStrategy.getVariables m ∨ v ∈ operationalStrategy.getVariables m) ∧
      ((v ∈ investmentStrategy.getVariables m ∧ v ∈ operationalStrategy.getVariables m) ↔ v.context = .coupling)) ∧
    (∀ k, (k ∈ m.bindingConstraints.values ∨ k ∈ m.constraints.values) → (k ∈ investmentStrategy.getConstraints m ∨ k ∈ operationalStrategy.getConstraints m) ∧
      ((k ∈ investmentStrategy.getConstraints m ∧ k ∈ operationalStrategy.getConstraints m) ↔ k.context = .coupling)) := by
  obtain ⟨-, h1, h2, h3, h4⟩ := c36_selection m
  constructor
  · intro v hv
    rw [h1, h3]
    cases hx : v.context <;> simp [hv]
  · intro k hk
    rw [h2, h4]
    cases hx : k.context <;> simp [hk]

/-- **C36**, objectives: the merged strategy has the contributions of the operational strategy followed by those of the
investment strategy, each declared contribution once. -/
theorem c36_objectives (m : Model) :
    mergedStrategy.objectives m = operationalStrategy.objectives m ++ investmentStrategy.objectives m ∧
    (mergedStrategy.objectives m).filterMap id = m.objectiveOperational.toList ++ m.objectiveInvestment.toList := by
  refine ⟨rfl, ?_⟩
  simp only [mergedStrategy, List.filterMap_cons, List.filterMap_nil, id]
  cases m.objectiveOperational <;> cases m.objectiveInvestment <;> rfl

/-- **C36**, risk: the uniform strategy does not change an expression; the expected value strategy multiplies its value
by the probability, in every reading and in evaluation. -/
theorem c36_risk (e : Expr) (p : ℚ) (M : MCtx) (t s : Int) :
    mden M (uniformRisk e) t s = mden M e t s ∧ mden M (expectedValue (.fin p) e) t s = p * mden M e t s ∧
    ∀ vp, evaluate vp (expectedValue (.fin p) e) = evaluate vp e >>= fun v => .ok (.fin p * v) := by
  refine ⟨rfl, rfl, fun vp => ?_⟩
  simp only [expectedValue, Expr.mulOp, evaluate]
  cases evaluate vp e <;> rfl

/-- a model with one variable of each context -/
example : let v (n : String) (c : ProblemContext) : String × Variable := (n, ⟨n, .continuous, none, none, ⟨true, true⟩, c⟩)
    let m : Model := { id := "M", variables_ := [v "o" .operational, v "i" .investment, v "k" .coupling] }
    (investmentStrategy.getVariables m).map (·.name) = ["i", "k"] ∧
    (operationalStrategy.getVariables m).map (·.name) = ["o", "k"] := ⟨rfl, rfl⟩

end Props
end Verif
