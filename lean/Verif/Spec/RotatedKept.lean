import Verif.Spec.StepsAny

/-!
# Expressions whose terms are merged in the same way wherever a cyclic block starts

The program merges the terms of an expression before it drops the tiny ones, and it tells a timestep after the end of the block from the first
ones of the block until then.  A sum over the block and a shifted variable may so be merged at one timestep and not at another one.
-/

namespace Verif

/-- `e` has no sum over the block, or it has no shift and no sum over some timesteps -/
def Expr.Unmixed (e : Expr) : Prop :=
  (∀ y, Expr.allsum y ∉ e.subs) ∨ ((∀ y k, Expr.shift y k ∉ e.subs) ∧ ∀ y a b, Expr.tsum y a b ∉ e.subs)

/-- no constraint and no objective contribution combines a sum over the block with shifts, and what goes through ports is about one timestep -/
structure OptCtx.Unmixed (x : OptCtx) : Prop where
  constraints : ∀ c ∈ x.network.allComponents, ∀ k ∈ x.strategy.getConstraints c.model, k.expression.Unmixed
  objectives : ∀ c ∈ x.network.allComponents, ∀ e ∈ x.contributions c, e.Unmixed
  ports : ∀ k ∈ x.network.connections, ∀ q f d, (q = k.port1 ∨ q = k.port2) → q.fieldDef f = some d → ∀ y ∈ d.subs, y.isTimeOp = false

end Verif
