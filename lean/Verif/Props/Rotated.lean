import Verif.Lemmas.Rotated
import Verif.Props.SameProblem

/-!
# C85: no timestep of a cyclic block is special

The same block started at another timestep has the same answer.
-/

namespace Verif.Props
open Verif Verif.OptCtx

theorem later_by (r : Int) (x : OptCtx) (σ : TermKey → ℚ) : x.LaterBy r σ (later r x.T σ) := by
  intro c n s
  refine ⟨rfl, fun t => ?_⟩
  unfold later
  simp only [Option.map_some, Int.emod_add_emod]

/-- the values that are read `r` timesteps later as `σ'` -/
theorem earlier_by (r : Int) (x : OptCtx) (σ' : TermKey → ℚ) : x.LaterBy r (later (-r) x.T σ') σ' := by
  intro c n s
  refine ⟨rfl, fun t => ?_⟩
  unfold later
  simp only [Option.map_some, Int.emod_add_emod]
  congr 3
  rw [add_neg_cancel_right]

theorem rotated_same {r : Int} {x x' : OptCtx} (h : x.Rotated r x') (hS : 0 < x.scenarios) (hn : x.NetworkOk) (hcl : x.Closed) (ho : x.OwnSymbols) (hck : x.Clockless)
    {σ σ' : TermKey → ℚ} (ha : x.LaterBy r σ σ') :
    (x'.MathFeasible σ' ↔ x.MathFeasible σ) ∧ x'.mathCost σ' = x.mathCost σ := by
  rw [mathFeasible_iff, mathFeasible_iff, h.network]
  refine ⟨forall_congr' fun c => forall_congr' fun hc => h.satisfied hn hcl ho hck ha hc, ?_⟩
  unfold OptCtx.mathCost
  rw [h.network]
  congr 1
  exact List.map_congr_left fun c hc => h.costOf hS hn hcl ho hck ha hc

/-- **C85, the study.** Take a network of any models whose expressions single out no timestep, and read all time series `r` timesteps later in
the cyclic block.  The values of the variables, read `r` timesteps later, satisfy the new study exactly when they satisfied the old one, and
cost the same; the least cost is the same. -/
theorem c85_same_study (r : Int) (x x' : OptCtx) (h : x.Rotated r x') (hS : 0 < x.scenarios) (hn : x.NetworkOk) (hcl : x.Closed) (ho : x.OwnSymbols)
    (hck : x.Clockless) :
    (∀ σ, (x'.MathFeasible (later r x.T σ) ↔ x.MathFeasible σ) ∧ x'.mathCost (later r x.T σ) = x.mathCost σ) ∧
    ∀ c, LeastCost x'.MathFeasible x'.mathCost c ↔ LeastCost x.MathFeasible x.mathCost c := by
  have key := fun {σ σ' : TermKey → ℚ} (ha : x.LaterBy r σ σ') => rotated_same h hS hn hcl ho hck ha
  refine ⟨fun σ => key (later_by r x σ), fun c => ?_⟩
  constructor
  · rintro ⟨⟨σ', h1, rfl⟩, h2⟩
    obtain ⟨a, b⟩ := key (earlier_by r x σ')
    refine ⟨⟨_, a.1 h1, b.symm⟩, fun τ hτ => ?_⟩
    obtain ⟨a', b'⟩ := key (later_by r x τ)
    rw [← b']
    exact h2 _ (a'.2 hτ)
  · rintro ⟨⟨σ, h1, rfl⟩, h2⟩
    obtain ⟨a, b⟩ := key (later_by r x σ)
    refine ⟨⟨_, a.2 h1, b⟩, fun τ' hτ' => ?_⟩
    obtain ⟨a', b'⟩ := key (earlier_by r x τ')
    rw [b']
    exact h2 _ (a'.1 hτ')

/-- **C85, the block.** The same study on the timesteps of the block in the order in which they come from the `r`th one (the first ones come
after the last one) is the study with all time series read `r` timesteps later. -/
theorem c85_timesteps (x : OptCtx) (r : Nat) : x.Rotated r { x with timesteps := x.timesteps.rotate r } where
  network := rfl
  length := List.length_rotate _ _
  scenarios := rfl
  strategy := rfl
  risk := rfl
  data c _ n t s _ _ := by
    have hb : ∀ t, ({ x with timesteps := x.timesteps.rotate r } : OptCtx).blockTime t = x.blockTime (t + r) := by
      intro t
      show (x.timesteps.rotate r).getD (t % ((x.timesteps.rotate r).length : Int)).toNat 0 = x.timesteps.getD ((t + r) % (x.timesteps.length : Int)).toNat 0
      rw [List.length_rotate]
      rcases Nat.eq_zero_or_pos x.timesteps.length with h0 | hpos
      · rw [List.length_eq_zero_iff.1 h0]
        simp
      have h1 := Int.emod_nonneg t (by omega : (x.timesteps.length : Int) ≠ 0)
      have h2 := Int.emod_lt_of_pos t (by omega : (0 : Int) < x.timesteps.length)
      have h3 := Int.emod_nonneg (t + r) (by omega : (x.timesteps.length : Int) ≠ 0)
      have h4 := Int.emod_lt_of_pos (t + r) (by omega : (0 : Int) < x.timesteps.length)
      have e : ((t + r) % (x.timesteps.length : Int)).toNat = ((t % (x.timesteps.length : Int)).toNat + r) % x.timesteps.length := by
        zify
        rw [Int.toNat_of_nonneg h1, Int.toNat_of_nonneg h3, Int.emod_add_emod]
      rw [List.getD_eq_getElem?_getD, List.getD_eq_getElem?_getD, e,
        List.getElem?_eq_getElem (by rw [List.length_rotate]; omega), List.getElem?_eq_getElem (Nat.mod_lt _ hpos), List.getElem_rotate]
    show OptCtx.dataValue _ c.id n (atT (x.parIdx c.id n) t) _ = x.dataValue c.id n (atT (x.parIdx c.id n) (t + r)) _
    unfold OptCtx.dataValue atT
    split_ifs
    · simp only [Option.map_some, hb]
      rfl
    · rfl

theorem math_leastCost {x : OptCtx} (hx : x.Regular) {st : OptState} (h : x.buildProblem = .ok st) (c : ℚ) :
    LeastCost st.solver.Feasible st.solver.cost c ↔ LeastCost x.MathFeasible x.mathCost c := by
  have hm := c35_build_partial x hx.network hx.data hx.vars hx.constraints hx.objectives st h
  have f1 : ∀ pt, st.solver.Feasible pt → ∃ σ, x.MathFeasible σ ∧ x.mathCost σ = st.solver.cost pt := by
    intro pt hpt
    have := hm pt (fun k => ((st.columns.get? k).map pt).getD 0) fun k i hk => by simp only [hk]; rfl
    exact ⟨_, this.1.1 hpt, this.2.symm⟩
  have f2 : ∀ σ, x.MathFeasible σ → ∃ pt, st.solver.Feasible pt ∧ st.solver.cost pt = x.mathCost σ := by
    intro σ hσ
    obtain ⟨pt, hpt⟩ := build_point h σ
    have := hm pt σ hpt
    exact ⟨pt, this.1.2 hσ, this.2⟩
  exact ⟨LeastCost.transfer f1 f2, LeastCost.transfer f2 f1⟩

/-- **C85 (partial), the problem given to the solver.** When the problem of a study is built, and that of the study with all time series read
`r` timesteps later, then the same values are feasible for both problems, `r` columns later, at the same cost; both have the same least cost
and a right solver answers the same.

Missing: studies that are not covered by C35 (`Regular`): coefficients below `1e-16`, bounds of constraints that vary more than their
expression, bounds of booleans; see `c85_first_timestep` for what happens there. -/
theorem c85_problem_partial (r : Int) (x x' : OptCtx) (h : x.Rotated r x') (hx : x.Regular) (hx' : x'.Regular) (hcl : x.Closed) (ho : x.OwnSymbols)
    (hck : x.Clockless) (st st' : OptState) (hst : x.buildProblem = .ok st) (hst' : x'.buildProblem = .ok st') :
    (∀ (pt pt' : Nat → ℚ), (∀ c n s i i', st.columns.get? ⟨c, n, none, s⟩ = some i → st'.columns.get? ⟨c, n, none, s⟩ = some i' → pt' i' = pt i) →
        (∀ c n (t : Nat) s i i', st.columns.get? ⟨c, n, some ((t + r) % x.T), s⟩ = some i → st'.columns.get? ⟨c, n, some t, s⟩ = some i' →
          pt' i' = pt i) →
      (st'.solver.Feasible pt' ↔ st.solver.Feasible pt) ∧ st'.solver.cost pt' = st.solver.cost pt) ∧
    (∀ c, LeastCost st'.solver.Feasible st'.solver.cost c ↔ LeastCost st.solver.Feasible st.solver.cost c) ∧
    ∀ solve, RightSolver solve → ((solve st'.solver).status = 0 ↔ (solve st.solver).status = 0) ∧
      ((solve st'.solver).status = 0 → (solve st'.solver).value = (solve st.solver).value) := by
  have e : ∀ c, LeastCost st'.solver.Feasible st'.solver.cost c ↔ LeastCost st.solver.Feasible st.solver.cost c := fun c => by
    rw [math_leastCost hx' hst', math_leastCost hx hst]
    exact (c85_same_study r x x' h hx.constraints.scenarios hx.network hcl ho hck).2 c
  have es : ∀ solve, RightSolver solve → ((solve st'.solver).status = 0 ↔ (solve st.solver).status = 0) := by
    intro solve hs
    rw [hs.optimal, hs.optimal]
    exact exists_congr e
  refine ⟨?_, e, fun solve hs => ⟨es solve hs, fun h0 => ?_⟩⟩
  · intro pt pt' h1 h2
    obtain ⟨-, -, -, hcols⟩ := build_columns hx.network hst
    obtain ⟨-, -, -, hcols'⟩ := build_columns hx'.network hst'
    -- an instance of one problem is an instance of the other, at another timestep
    have hinst : ∀ k i, st.columns.get? k = some i → (k.time = none → ∃ i', st'.columns.get? k = some i') ∧
        (∀ u, k.time = some u → ∃ t : Nat, t < x.T ∧ u = (t + r) % x.T ∧ ∃ i', st'.columns.get? { k with time := some (t : Int) } = some i') := by
      intro k i hk
      obtain ⟨n, hn, rfl⟩ := (hcols k i).1 hk
      obtain ⟨hc, hv, ht, hs⟩ := mem_instances.1 (List.mem_of_getElem? hn)
      have hget : ∀ t, t ∈ indexList n.var.structure_.time x.T → ∃ i', st'.columns.get? ⟨n.comp.id, n.var.name, t, n.s⟩ = some i' := by
        intro t ht
        have hin : (⟨n.comp, n.var, t, n.s⟩ : Inst) ∈ x'.instances := by
          rw [mem_instances]
          dsimp only
          rw [h.T_eq, h.scenarios, h.strategy, h.network]
          exact ⟨hc, hv, ht, hs⟩
        obtain ⟨i', hlt, hget⟩ := List.getElem_of_mem hin
        exact ⟨i', (hcols' ⟨n.comp.id, n.var.name, t, n.s⟩ i').2 ⟨_, by rw [List.getElem?_eq_getElem hlt, hget], rfl⟩⟩
      refine ⟨fun _ => hget n.t ht, fun u hu => ?_⟩
      have hu' : n.t = some u := hu
      unfold OptCtx.indexList at ht hget
      split_ifs at ht hget with hd
      · rw [hu'] at ht
        simp only [List.mem_map, List.mem_range, Option.some.injEq] at ht
        obtain ⟨a, ha, rfl⟩ := ht
        have hT : (0 : Int) < x.T := by omega
        have g0 := Int.emod_nonneg ((a : Int) - r) hT.ne'
        have g1 := Int.emod_lt_of_pos ((a : Int) - r) hT
        refine ⟨(((a : Int) - r) % x.T).toNat, by omega, ?_, ?_⟩
        · rw [Int.toNat_of_nonneg g0, Int.emod_add_emod, sub_add_cancel, Int.emod_eq_of_lt (by positivity) (by exact_mod_cast ha)]
        · exact hget _ (by
            simp only [List.mem_map, List.mem_range]
            exact ⟨_, by omega, rfl⟩)
      · rw [hu'] at ht
        simp at ht
    let σ' : TermKey → ℚ := fun k => ((st'.columns.get? k).map pt').getD 0
    have hσ' : ∀ k i, st'.columns.get? k = some i → pt' i = σ' k := fun k i hk => by simp only [σ', hk]; rfl
    have hσ : ∀ k i, st.columns.get? k = some i → pt i = later (-r) x.T σ' k := by
      intro k i hk
      obtain ⟨a, b⟩ := hinst k i hk
      obtain ⟨c, n, t, s⟩ := k
      rcases t with _ | u
      · obtain ⟨i', hi'⟩ := a rfl
        rw [← h1 c n s i i' hk hi']
        exact hσ' _ _ hi'
      · obtain ⟨t, ht, rfl, i', hi'⟩ := b u rfl
        rw [← h2 c n t s i i' hk hi', hσ' _ _ hi']
        unfold later
        simp only [Option.map_some, Int.emod_add_emod, add_neg_cancel_right]
        rw [Int.emod_eq_of_lt (by positivity) (by exact_mod_cast ht)]
    obtain ⟨a, b⟩ := c35_build_partial x hx.network hx.data hx.vars hx.constraints hx.objectives st hst pt _ hσ
    obtain ⟨a', b'⟩ := c35_build_partial x' hx'.network hx'.data hx'.vars hx'.constraints hx'.objectives st' hst' pt' σ' hσ'
    obtain ⟨u, v⟩ := rotated_same h hx.constraints.scenarios hx.network hcl ho hck (earlier_by r x σ')
    exact ⟨a'.trans (u.trans a.symm), b'.trans (v.trans b.symm)⟩
  have a := (e _).1 (hs.value _ h0)
  have b := hs.value _ ((es solve hs).1 h0)
  exact leastCost_unique a b

end Verif.Props
