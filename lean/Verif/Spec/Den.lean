import Verif.Model.Visitors
import Verif.Spec.Expr
import Mathlib.Algebra.BigOperators.Intervals
import Mathlib.Order.Interval.Finset.Basic
import Mathlib.Data.Int.Interval
import Mathlib.Algebra.BigOperators.Ring.Finset

/-!
# Mathematical meaning of an expression

The specification against which operator expansion, linearization and problem construction are stated.  The
meaning of an expression at timestep `t` and scenario `s` is a rational number, given values for all variable and
parameter instances.  This file does not use any of the rewriting functions of the model.
-/

namespace Verif

/-- Values of variable and parameter instances.  An instance is a component, a name, a time index (`none` for a
time-independent symbol) and a scenario index (`none` for a scenario-independent one). -/
structure Env where
  var : String → String → Option Int → Option Int → ℚ
  par : String → String → Option Int → Option Int → ℚ

/-- What is needed to read an expression mathematically. -/
structure DenCtx where
  env : Env
  /-- does the variable (component, name) depend on time / on the scenario? -/
  vidx : String → String → Idx
  /-- does the parameter (component, name) depend on time / on the scenario? -/
  pidx : String → String → Idx
  /-- number of timesteps of the block -/
  T : Nat
  /-- number of scenarios -/
  S : Nat
  /-- the value of a time shift, time step or time-sum bound -/
  amt : Expr → Int

/-- the instance of a symbol of a component at `(t, s)`: time index -/
def atT (i : Idx) (t : Int) : Option Int := if i.time then some t else none
/-- the instance of a symbol of a component at `(t, s)`: scenario index -/
def atS (i : Idx) (s : Int) : Option Int := if i.scenario then some s else none

/-- time index designated, from timestep `t`, by an explicit time index -/
def TIdx.at : TIdx → Int → Option Int
  | .none, _ => Option.none
  | .shift k, t => some (t + k)
  | .step u, _ => some u

/-- scenario designated, from scenario `s`, by an explicit scenario index -/
def SIdx.at : SIdx → Int → Option Int
  | .none, _ => Option.none
  | .current, s => some s
  | .one w, _ => some w

mutual
/-- Value of an expression at timestep `t` and scenario `s`.
* `shift e k` is `e` read at `t + k`; `evalT e k` is `e` read at timestep `k`;
* `tsum e a b` is the sum of `e` over the timesteps `t + a, ..., t + b`;
* `allsum e` is the sum of `e` over all timesteps of the block;
* `scen e _` is the average of `e` over all scenarios (expectation).
Comparisons, model-level symbols, port references and special literals have no value here (arbitrarily 0; the theorems
exclude them). -/
def den (D : DenCtx) : Expr → Int → Int → ℚ
  | .lit (.fin q), _, _ => q
  | .lit _, _, _ => 0
  | .var _, _, _ => 0
  | .par _, _, _ => 0
  | .portField .., _, _ => 0
  | .cmp .., _, _ => 0
  | .agg .., _, _ => 0
  | .cvar c n, t, s => D.env.var c n (atT (D.vidx c n) t) (atS (D.vidx c n) s)
  | .cpar c n, t, s => D.env.par c n (atT (D.pidx c n) t) (atS (D.pidx c n) s)
  | .pvar c n ti si, t, s => D.env.var c n (ti.at t) (si.at s)
  | .ppar c n ti si, t, s => D.env.par c n (ti.at t) (si.at s)
  | .neg e, t, s => -(den D e t s)
  | .add es, t, s => denSum D es t s
  | .mul l r, t, s => den D l t s * den D r t s
  | .div l r, t, s => den D l t s / den D r t s
  | .shift e k, t, s => den D e (t + D.amt k) s
  | .evalT e k, _, s => den D e (D.amt k) s
  | .tsum e a b, t, s => ∑ k ∈ Finset.Icc (D.amt a) (D.amt b), den D e (t + k) s
  | .allsum e, _, s => ∑ u ∈ Finset.range D.T, den D e u s
  | .scen e _, t, _ => (∑ w ∈ Finset.range D.S, den D e t w) / D.S
/-- sum of the values of the operands -/
def denSum (D : DenCtx) : List Expr → Int → Int → ℚ
  | [], _, _ => 0
  | e :: es, t, s => den D e t s + denSum D es t s
end

/-- the same data with other values of the variables -/
def DenCtx.withVar (D : DenCtx) (var : String → String → Option Int → Option Int → ℚ) : DenCtx :=
  { D with env := { D.env with var := var } }

namespace Expr

/-- `x[k]` or a sum over the block: operators that fix the timestep of their operand -/
def isTimeFixing : Expr → Bool
  | evalT .. => true
  | allsum _ => true
  | _ => false

/-- scenario operator? -/
def isScen : Expr → Bool
  | scen .. => true
  | _ => false

/-- Nesting restrictions under which the expansion is faithful: no fixed timestep under a shift or a shifted sum, and
no scenario operator under a scenario operator. -/
structure WellNested (e : Expr) : Prop where
  shift : ∀ x k, Expr.shift x k ∈ e.subs → ∀ y ∈ x.subs, y.isTimeFixing = false
  tsum : ∀ x a b, Expr.tsum x a b ∈ e.subs → ∀ y ∈ x.subs, y.isTimeFixing = false
  scen : ∀ x o, Expr.scen x o ∈ e.subs → ∀ y ∈ x.subs, y.isScen = false

end Expr
end Verif
