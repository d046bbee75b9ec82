import Verif.Lemmas.Kept
import Verif.Props.CliOutput

/-!
# C84: what the problem given to the solver means, exactly
-/

namespace Verif.Props
open Verif Verif.Expr Verif.OptCtx

/-- **C84 (partial).** The problem given to the solver is the mathematical study without the coefficients below `1e-16`, without the declared
bounds of booleans, and with constraints whose expression does not depend on time (on the scenario) at the first timestep (in the first
scenario) only; nothing else is lost: a point of the built problem is feasible exactly when its values satisfy all other bounds, all types
and these constraints without their tiny coefficients, and its objective value is the sum of all contributions without their tiny
coefficients.  For all models, networks, data, strategies and risks with covered expressions.

Missing: expressions that are not covered (`Expressible`). -/
theorem c84_exact_partial (x : OptCtx) (hx : x.Expressible) (st : OptState) (h : x.buildProblem = .ok st) (pt : Nat → ℚ) (σ : TermKey → ℚ)
    (hσ : ∀ k i, st.columns.get? k = some i → pt i = σ k) :
    (st.solver.Feasible pt ↔ x.KeptFeasible σ) ∧ st.solver.cost pt = x.keptCost σ := by
  constructor
  · unfold Solver.Feasible
    rw [columns_enforced x hx.network hx.data hx.bounds hx.scenarios st h pt σ hσ,
      rows_written x hx.network hx.data hx.scenarios hx.constraints st h pt σ (rowsValue_kept x hx.network hx.data hx.constraints σ) hσ]
    exact ⟨fun h => ⟨h.1, h.2⟩, fun h => ⟨h.vars, h.constraints⟩⟩
  · refine objective_about x hx.network hx.constraints hx.objectives st h pt σ
      (V := fun c e => x.keptValue σ c e 0 0) ?_ hσ
    intro ports hreg c hc e he e1 e2 l h1 h2 h3
    exact linearize_kept hx.network hx.data hreg c (hx.objectives c hc e he).1 h1 h2 h3 σ

/-- regular studies are covered -/
theorem Regular.expressible {x : OptCtx} (hx : x.Regular) : x.Expressible where
  network := hx.network
  data := hx.data
  scenarios := hx.constraints.scenarios
  bounds := hx.vars.bounds
  constraints := hx.constraints.exprs
  objectives c hc e he := ⟨(hx.objectives.exprs c hc e he).1, hx.objectives.index c hc e he⟩

/-- **C84 (partial), without tiny coefficients.** When there is no tiny coefficient and the bounds of booleans allow 0 and 1 (the hypotheses of C35), the
program keeps the whole study. -/
theorem c84_regular_partial (x : OptCtx) (hx : x.Regular) (st : OptState) (h : x.buildProblem = .ok st) (σ : TermKey → ℚ) :
    (x.KeptFeasible σ ↔ x.MathFeasible σ) ∧ x.keptCost σ = x.mathCost σ := by
  obtain ⟨pt, hpt⟩ := build_point h σ
  obtain ⟨a, b⟩ := c84_exact_partial x (Regular.expressible hx) st h pt σ hpt
  obtain ⟨c, d⟩ := c35_build_partial x hx.network hx.data hx.vars hx.constraints hx.objectives st h pt σ hpt
  exact ⟨a.symm.trans c, b.symm.trans d⟩

/-- **C84 (partial), how much is lost.** The value kept for a linear expression differs from its mathematical value by at most the sum of the absolute
values of the instances with a tiny coefficient, times `1e-16`. -/
theorem c84_difference_partial (x : OptCtx) (hx : x.Expressible) (ports : PortExprs) (hreg : registerConnections x.network.connections [] = .ok ports)
    (c : Component) (e e1 e2 : Expr) (he : ExprOk e) (h1 : instantiate e c.id ports = .ok e1) (h2 : x.expandOperators e1 = .ok e2) (t s : Int)
    (l : LinExpr) (h3 : x.linearize e2 (some t) (some s) = .ok l) :
    ∃ K : Finset TermKey, (∀ k ∈ K, |x.coefficient c e t s k| < 1 / 10 ^ 16) ∧
      ∀ σ : TermKey → ℚ, mden (x.readIn σ c) e t s =
          x.keptValue σ c e t s + ∑ k ∈ K, x.coefficient c e t s k * σ { k with time := k.time.map (· % x.T) } ∧
        |x.keptValue σ c e t s - mden (x.readIn σ c) e t s| ≤
          (∑ k ∈ K, |σ { k with time := k.time.map (· % x.T) }|) / 10 ^ 16 := by
  obtain ⟨c0, K, coef, hK, hv, hc, hg, nd⟩ := linearize_affine hx.network hx.data hreg c he h1 h2 h3
  have hfix : x.fixedPart c e t s = c0 := by
    unfold OptCtx.fixedPart
    rw [hv]
    simp
  have hcoef : ∀ k, x.coefficient c e t s k = coef k := by
    intro k
    unfold OptCtx.coefficient
    rw [hfix, hv, sum_single_key K coef hK, add_sub_cancel_left]
  have key : ∀ σ : TermKey → ℚ, mden (x.readIn σ c) e t s = x.keptValue σ c e t s +
      ∑ k ∈ K.filter (fun k => |coef k| < 1 / 10 ^ 16), coef k * σ { k with time := k.time.map (· % x.T) } := by
    intro σ
    rw [← (linearize_kept hx.network hx.data hreg c he h1 h2 h3 σ).2, linExpr_value_eq l c0 K coef _ hK hc hg nd]
    show mden (x.readAs (x.unwrapped fun c v t s => σ ⟨c, v, t.map (· % x.T), s⟩) c) e t s = _
    rw [hv, add_assoc]
    congr 1
    rw [add_comm]
    exact (Finset.sum_filter_add_sum_filter_not K (fun k => |coef k| < 1 / 10 ^ 16)
      fun k => coef k * σ { k with time := k.time.map (· % x.T) }).symm
  refine ⟨K.filter fun k => |coef k| < 1 / 10 ^ 16, fun k hk => by rw [hcoef]; exact (Finset.mem_filter.1 hk).2, fun σ => ⟨?_, ?_⟩⟩
  · simp only [hcoef]
    exact key σ
  · rw [key σ, sub_add_cancel_left, abs_neg, Finset.sum_div]
    refine (Finset.abs_sum_le_sum_abs _ _).trans (Finset.sum_le_sum fun k hk => ?_)
    rw [abs_mul, div_eq_mul_one_div, mul_comm]
    exact mul_le_mul_of_nonneg_left (Finset.mem_filter.1 hk).2.le (abs_nonneg _)

/-- the least cost of the problem of the solver is that of what the program keeps -/
theorem kept_leastCost {x : OptCtx} (hx : x.Expressible) {st : OptState} (h : x.buildProblem = .ok st) (c : ℚ) :
    LeastCost st.solver.Feasible st.solver.cost c ↔ LeastCost x.KeptFeasible x.keptCost c := by
  have hm := c84_exact_partial x hx st h
  have f1 : ∀ pt, st.solver.Feasible pt → ∃ σ, x.KeptFeasible σ ∧ x.keptCost σ = st.solver.cost pt := by
    intro pt hpt
    have := hm pt (fun k => ((st.columns.get? k).map pt).getD 0) fun k i hk => by simp only [hk]; rfl
    exact ⟨_, this.1.1 hpt, this.2.symm⟩
  have f2 : ∀ σ, x.KeptFeasible σ → ∃ pt, st.solver.Feasible pt ∧ st.solver.cost pt = x.keptCost σ := by
    intro σ hσ
    obtain ⟨pt, hpt⟩ := build_point h σ
    have := hm pt σ hpt
    exact ⟨pt, this.1.2 hσ, this.2⟩
  exact ⟨LeastCost.transfer f1 f2, LeastCost.transfer f2 f1⟩

/-- **C84 (partial), the command.** For any command, libraries, system and tables that give a study with covered expressions: when the command
prints a status and a cost, the status is 0 exactly when the kept study has a best solution, and the cost is then its least cost.

Missing: expressions that are not covered (`Expressible`). -/
theorem c84_command_partial (solve : Solver → Answer) (hsolve : RightSolver solve) (parser : Parser) (os : Nat → SetOrder)
    (ho : ∀ i, (os i).Valid) (fuel : Nat) (d : Disk) (f : CliFlags) (o : Printed) (h : mainOutput solve parser os fuel d f = some (.ok o)) :
    ∃ paths comp tables ls libs s sys db net, Names d f paths comp tables ∧ ReadAs d paths ls ∧
      resolveLibrary parser os fuel ls = some (.ok libs) ∧ d.system comp = .ok s ∧ resolveSystem s libs = .ok sys ∧
      buildDataBase (d.study s tables f).load s = .ok db ∧ buildNetwork sys = .ok net ∧
      ∀ x : OptCtx, x = { network := net, database := db, timesteps := (List.range f.duration).map Int.ofNat, scenarios := f.scenario } →
        x.Expressible → o.Says x.KeptFeasible x.keptCost := by
  have hm : ∃ st, mainCli parser os fuel d f = some (.ok st) ∧ o = printAnswer (solve st.solver) := by
    unfold mainOutput at h
    split at h
    · cases h
    · cases h
    · rename_i st hst
      cases h
      exact ⟨st, hst, rfl⟩
  obtain ⟨st, hst, rfl⟩ := hm
  obtain ⟨paths, comp, tables, ls, libs, s, sys, db, net, hn, h1, -, h3, g1, g2, g3, g4, g5⟩ := (c66_chain parser os ho fuel d f st).1 hst
  refine ⟨paths, comp, tables, ls, libs, s, sys, db, net, hn, h1, h3, g1, g2, g3, g4, ?_⟩
  rintro x rfl hx
  exact (answer_says hsolve g5 id (fun σ hσ => ⟨σ, hσ, rfl⟩) fun pt σ hσ => c84_exact_partial _ hx st g5 pt σ hσ).1

end Verif.Props
