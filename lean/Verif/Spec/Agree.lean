import Verif.Model.Expand
import Verif.Spec.Den

/-!
# Data shared by the program and the mathematical reading
-/

namespace Verif

/-- The expansion is run with the block length, the number of scenarios, the variable and parameter structures and
the values of shifts and bounds that the mathematical reading uses. -/
structure Agrees (x : ExpandCtx) (D : DenCtx) : Prop where
  vidx : ∀ c n i, x.structs.cvar c n = .ok i → D.vidx c n = i
  pidx : ∀ c n i, x.structs.cpar c n = .ok i → D.pidx c n = i
  T : D.T = x.timesteps
  S : D.S = x.scenarios
  amt : ∀ k n, x.evaluator k = .ok n → D.amt k = n

namespace Expr

/-- symbols and nodes that an instantiated, port-free arithmetic expression does not contain -/
def isModelLevel : Expr → Bool
  | var _ => true
  | par _ => true
  | portField .. => true
  | .cmp .. => true
  | agg .. => true
  | _ => false

/-- nodes that only refer to instances of variables and parameters of the problem -/
def isProblemLevel : Expr → Bool
  | lit _ => true
  | pvar .. => true
  | ppar .. => true
  | neg _ => true
  | add _ => true
  | mul .. => true
  | div .. => true
  | _ => false

end Expr
end Verif
