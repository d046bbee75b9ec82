import Verif.Props.Models
import Verif.Props.Components

/-!
# Methods that build comparisons, time operators and sums over connections (C58)

`mden` (Spec/Meaning.lean) is the value of an expression read in a component.
-/

namespace Verif.Props

open Verif Expr

/-- **C58, comparisons.** A constraint made from `l <= r`, `l >= r` or `l == r` holds exactly when the values compare so. -/
theorem c58_comparisons (name : String) (l r : Expr) (ctx : ProblemContext) :
    (∃ c, Constraint.make { name := name, expression := l.leOp r, context := ctx } = .ok c ∧
      ∀ M t s, c.Holds M t s ↔ mden M l t s ≤ mden M r t s) ∧
    (∃ c, Constraint.make { name := name, expression := l.geOp r, context := ctx } = .ok c ∧
      ∀ M t s, c.Holds M t s ↔ mden M r t s ≤ mden M l t s) ∧
    (∃ c, Constraint.make { name := name, expression := l.eqOp r, context := ctx } = .ok c ∧
      ∀ M t s, c.Holds M t s ↔ mden M l t s = mden M r t s) := by
  refine ⟨?_, ?_, ?_⟩
  · obtain ⟨c, h, -, -, hc⟩ := c17_comparison name l r .le ctx
    exact ⟨c, h, hc⟩
  · obtain ⟨c, h, -, -, hc⟩ := c17_comparison name l r .ge ctx
    exact ⟨c, h, hc⟩
  · obtain ⟨c, h, -, -, hc⟩ := c17_comparison name l r .eq ctx
    exact ⟨c, h, hc⟩

/-- **C58, shifts and evaluations.** `e.shift(k)` is `e` read `k` timesteps later and `e.eval(k)` is `e` at timestep `k`. -/
theorem c58_shift_eval (M : MCtx) (e : Expr) (k t s : Int) :
    mden M (e.shiftOp (wrapNum (.fin k))) t s = mden M e (t + k) s ∧ mden M (e.evalOp (wrapNum (.fin k))) t s = mden M e k s := by
  simp [shiftOp, evalOp, wrapNum, mden]

/-- **C58, time sums.** Without bounds, `time_sum` is the sum over the block; with two bounds it is the sum over the timesteps from one to
the other, around the current one; with one bound it raises a `ValueError`. -/
theorem c58_time_sum (M : MCtx) (e : Expr) (a b t s : Int) (x : Expr) :
    (∃ r, e.timeSum none none = .ok r ∧ mden M r t s = ∑ u ∈ Finset.range M.D.T, mden M e u s) ∧
    (∃ r, e.timeSum (some (wrapNum (.fin a))) (some (wrapNum (.fin b))) = .ok r ∧ mden M r t s = ∑ k ∈ Finset.Icc a b, mden M e (t + k) s) ∧
    (∃ m, e.timeSum (some x) none = .error (.valueError m)) ∧ ∃ m, e.timeSum none (some x) = .error (.valueError m) := by
  refine ⟨⟨_, rfl, by simp [mden]⟩, ⟨_, rfl, ?_⟩, ⟨_, rfl⟩, ⟨_, rfl⟩⟩
  simp [wrapNum, mden]

/-- **C58, scenarios.** `e.expec()` is the average over the scenarios.  `e.variance()` can be written, but never becomes a linear
expression. -/
theorem c58_scenarios (M : MCtx) (e : Expr) (t s : Int) (x : ExpandCtx) :
    mden M e.expecOp t s = (∑ w ∈ Finset.range M.D.S, mden M e t w) / M.D.S ∧ ∀ r, expand x e.varianceOp ≠ .ok r := by
  refine ⟨by simp [expecOp, mden], fun r h => ?_⟩
  rw [varianceOp, expand] at h
  split at h
  · cases h
  · rename_i h0
    exact h0 (by decide)

/-- **C58, sums over connections.** `sum_connections` is accepted exactly on port fields, and is the sum of what the connections bring. -/
theorem c58_sum_connections (e : Expr) :
    ((∃ r, e.sumConnections = .ok r) ↔ ∃ p f, e = portField p f) ∧
    (∀ r, e.sumConnections = .ok r → r.AggPort ∧
      ∃ p f, e = portField p f ∧ ∀ M t s, mden M r t s = ((M.ports p f).map fun v => v t s).sum) ∧
    ∀ x, e.sumConnections = .error x → ∃ m, x = .valueError m := by
  cases e
  case portField p f =>
    refine ⟨⟨fun _ => ⟨p, f, rfl⟩, fun _ => ⟨_, rfl⟩⟩, ?_, ?_⟩
    · intro r hr
      cases hr
      refine ⟨?_, p, f, rfl, fun M t s => by simp [mden]⟩
      intro x a hx
      simp only [subs, List.mem_cons, List.not_mem_nil, or_false, reduceCtorEq, agg.injEq] at hx
      exact ⟨p, f, hx.1⟩
    · intro x h
      cases h
  all_goals
    refine ⟨⟨fun ⟨r, h⟩ => (by cases h), fun ⟨p, f, h⟩ => (by cases h)⟩, fun r h => (by cases h), fun x h => ?_⟩
    cases h
    exact ⟨_, rfl⟩

/-- the sum of three consecutive values -/
example (M : MCtx) (t s : Int) : ∃ r, (var "x").timeSum (some (lit (.fin (-1)))) (some (lit (.fin 1))) = .ok r ∧
    mden M r t s = mden M (var "x") (t - 1) s + mden M (var "x") t s + mden M (var "x") (t + 1) s := by
  obtain ⟨-, ⟨r, h, hr⟩, -⟩ := c58_time_sum M (var "x") (-1) 1 t s (lit 0)
  refine ⟨r, by simpa [wrapNum] using h, ?_⟩
  rw [hr, show Finset.Icc (-1 : Int) 1 = {-1, 0, 1} from rfl]
  simp [sub_eq_add_neg, add_assoc]

end Verif.Props
