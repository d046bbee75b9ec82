import Verif.Spec.RepricedAny

/-!
# Problems and studies whose prices are made of those of two others
-/

namespace Verif

/-- the prices in `z` are `a` times those in `x` and `b` times those in `y`, added -/
def OptCtx.PricesAdd (a b : ℚ) (p : Component → String → Prop) (x y z : OptCtx) : Prop :=
  ∀ c ∈ z.network.allComponents, ∀ n, p c n → ∀ t s : Int, 0 ≤ s → s < z.scenarios →
    z.parameterAt c.id n t s = a * x.parameterAt c.id n t s + b * y.parameterAt c.id n t s

/-- The three studies have the same components, connections, steps and scenarios; the prices of `K` are `a` times those of `I` and `b` times those of `J`,
added; and the other parameters have the same values in the three studies. -/
structure StudyInput.PricesAdd (a b : ℚ) (I J K : StudyInput) : Prop where
  first : K.SameParts I
  second : K.SameParts J
  prices : ∀ c ∈ K.declared, ∀ n ∈ prices, ∀ t s : Nat, t < K.steps.length → s < K.scenarios →
    K.parameter c.id n t s = a * I.parameter c.id n t s + b * J.parameter c.id n t s
  others : ∀ c ∈ K.declared, ∀ n, n ∉ Verif.prices → ∀ t s : Nat, t < K.steps.length → s < K.scenarios →
    I.parameter c.id n t s = K.parameter c.id n t s ∧ J.parameter c.id n t s = K.parameter c.id n t s

end Verif
