import Verif.Spec.Dependence
import Mathlib.Algebra.BigOperators.Finprod

/-!
# What the program keeps of a study

Three things that the mathematical reading of a study requires are not in the problem given to the solver: coefficients smaller than `1e-16`,
the declared bounds of booleans, and constraints at other timesteps (scenarios) than the first one when their expression does not depend on
time (the scenario), even if their bounds do.  This is the reading without them.
-/

namespace Verif.OptCtx

/-- the value of expression `e` of component `c` at `(t, s)` when all variables are zero -/
def fixedPart (x : OptCtx) (c : Component) (e : Expr) (t s : Int) : ℚ := mden (x.readAs (x.unwrapped fun _ _ _ _ => 0) c) e t s

/-- the coefficient of an instance in expression `e` at `(t, s)`: what the value becomes when this instance is one instead of zero (at
timesteps outside of the block, instances are still told apart from those of the block) -/
def coefficient (x : OptCtx) (c : Component) (e : Expr) (t s : Int) (k : TermKey) : ℚ :=
  mden (x.readAs (x.unwrapped fun c v t s => if k = ⟨c, v, t, s⟩ then 1 else 0) c) e t s - x.fixedPart c e t s

/-- a coefficient, or zero if it is smaller than `1e-16` -/
def keep (q : ℚ) : ℚ := if |q| < 1 / 10 ^ 16 then 0 else q

/-- The value of `e` at `(t, s)` when the instances of the variables have the values `σ` and tiny coefficients are dropped (a finite sum for
linear expressions); timesteps outside of the block are those of the cyclic block. -/
noncomputable def keptValue (x : OptCtx) (σ : TermKey → ℚ) (c : Component) (e : Expr) (t s : Int) : ℚ :=
  x.fixedPart c e t s + ∑ᶠ k : TermKey, keep (x.coefficient c e t s k) * σ { k with time := k.time.map (· % x.T) }

/-- `q` is accepted for variable `v`: 0 and 1 for a boolean, whatever its bounds; otherwise, values of its type within its bounds -/
def enforcedVar (M : MCtx) (v : Variable) (q : ℚ) (t s : Int) : Prop :=
  match v.dataType with
  | .boolean => q = 0 ∨ q = 1
  | ty => aboveOpt M v.lowerBound q t s ∧ belowOpt M v.upperBound q t s ∧ ofType ty q

/-- What the program requires of the values `σ` of the instances of the selected variables: at every timestep of the block and every
scenario, bounds and types, except the bounds of booleans; and all selected constraints, without their tiny coefficients, at every timestep
if their expression depends on time and otherwise at the first one only, and the same for scenarios. -/
structure KeptFeasible (x : OptCtx) (σ : TermKey → ℚ) : Prop where
  vars : ∀ c ∈ x.network.allComponents, ∀ v ∈ x.strategy.getVariables c.model, ∀ t s : Nat, t < x.T → s < x.scenarios →
    enforcedVar (x.readIn σ c) v (σ (instanceAt c v t s)) t s
  constraints : ∀ c ∈ x.network.allComponents, ∀ k ∈ x.strategy.getConstraints c.model, ∀ t s : Nat,
    x.WrittenAt c k.expression t s →
    aboveBound (x.readIn σ c) k.lowerBound (x.keptValue σ c k.expression t s) t s ∧
    belowBound (x.readIn σ c) k.upperBound (x.keptValue σ c k.expression t s) t s

/-- The cost that the program counts: the sum of all contributions of all components, without their tiny coefficients. -/
noncomputable def keptCost (x : OptCtx) (σ : TermKey → ℚ) : ℚ :=
  (x.network.allComponents.map fun c => ((x.contributions c).map fun e => x.keptValue σ c e 0 0).sum).sum

/-- Studies whose expressions are covered by the theorems on the whole problem: those of C35, with tiny coefficients and with any bounds of
booleans and of constraints. -/
structure Expressible (x : OptCtx) : Prop where
  network : x.NetworkOk
  data : x.DataOk
  scenarios : 0 < x.scenarios
  bounds : ∀ c ∈ x.network.allComponents, ∀ v ∈ x.strategy.getVariables c.model, ∀ b,
    v.lowerBound = some b ∨ v.upperBound = some b → BoundOk b
  constraints : ∀ c ∈ x.network.allComponents, ∀ k ∈ x.strategy.getConstraints c.model,
    ExprOk k.expression ∧ BoundOk k.lowerBound ∧ BoundOk k.upperBound
  objectives : ∀ c ∈ x.network.allComponents, ∀ e ∈ x.contributions c, ExprOk e ∧
    computeIndexation c.model.structures e = .ok ⟨false, false⟩

/-- The hypotheses of the theorems on the problem of a study (C35): a consistent network, finite data, bounds, constraints and objectives
as covered there. -/
structure Regular (x : OptCtx) : Prop where
  network : x.NetworkOk
  data : x.DataOk
  vars : x.VarsOk
  constraints : x.ConstraintsOk
  objectives : x.ObjectivesOk

end Verif.OptCtx
