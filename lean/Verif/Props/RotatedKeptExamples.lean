import Verif.Props.RotatedKept
import Verif.Props.RotatedExamples

/-! Examples for C85 with tiny coefficients: the hypotheses of `c85_kept` and `c85_kept_problem_partial` are met by `study0`. -/

namespace Verif.Props
open Verif Verif.Expr Verif.OptCtx

/-- a check of `Unmixed` for a component -/
def unmixedOf (x : OptCtx) (c : Component) : Bool :=
  (x.strategy.getConstraints c.model).all (fun k => unmixedIn k.expression) && (x.contributions c).all unmixedIn &&
  c.model.portFieldsDefinitions.all fun d => d.2.definition.subs.all fun y => !y.isTimeOp

theorem unmixed_of {x : OptCtx} (hcl : x.Closed) (h : x.network.allComponents.all (unmixedOf x) = true) : x.Unmixed := by
  simp only [unmixedOf, List.all_eq_true, Bool.and_eq_true] at h
  refine ⟨fun c hc k hk => unmixedIn_unmixed ((h c hc).1.1 k hk), fun c hc e he => unmixedIn_unmixed ((h c hc).1.2 e he), fun k hk q f d hq hd y hy => ?_⟩
  have hc : q.component ∈ x.network.allComponents := by
    rcases hq with rfl | rfl
    · exact (hcl k hk).1
    · exact (hcl k hk).2
  unfold PortRef.fieldDef at hd
  obtain ⟨z, hz, rfl⟩ := Option.map_eq_some_iff.1 hd
  simpa using (h _ hc).2 _ (Dict.mem_of_get? hz) y hy

/-- a check of `SteadyBounds`: bounds do not depend on time where the expression does not -/
def steadyOf (x : OptCtx) (c : Component) : Bool := (x.strategy.getConstraints c.model).all fun k => (x.dependence c k.expression).time ||
  (!(x.dependence c k.lowerBound).time && !(x.dependence c k.upperBound).time)

theorem steadyBounds_of {x : OptCtx} (hn : x.NetworkOk) (ho : x.OwnSymbols) (h : x.network.allComponents.all (steadyOf x) = true) : x.SteadyBounds := by
  simp only [steadyOf, List.all_eq_true] at h
  intro c hc k hk hd b hb σ t s _ _
  have := h c hc k hk
  rw [hd, Bool.false_or, Bool.and_eq_true, Bool.not_eq_true', Bool.not_eq_true'] at this
  rcases hb with rfl | rfl
  · exact dependence_value hn σ (ho.constraints c hc k hk _ (.inr (.inl rfl))) this.1 _ _ _
  · exact dependence_value hn σ (ho.constraints c hc k hk _ (.inr (.inr rfl))) this.2 _ _ _

theorem study0_unmixed : study0.Unmixed := unmixed_of study0_closed (by decide +kernel)

theorem study0_steadyBounds : study0.SteadyBounds := steadyBounds_of study0_networkOk study0_ownSymbols (by decide +kernel)

example (σ : TermKey → ℚ) : (turned0.KeptFeasible (later 1 2 σ) ↔ study0.KeptFeasible σ) ∧ turned0.keptCost (later 1 2 σ) = study0.keptCost σ :=
  (c85_kept 1 study0 turned0 turned0_rotated (by decide) study0_networkOk study0_closed study0_ownSymbols study0_clockless study0_unmixed
    study0_steadyBounds).1 σ

example : ∃ st', turned0.buildProblem = .ok st' ∧ ∀ solve, RightSolver solve → ((solve st'.solver).status = 0 ↔ (solve built0.solver).status = 0) := by
  obtain ⟨st', h⟩ := built_of (x := turned0) (by decide +kernel)
  exact ⟨st', h, fun solve hs => ((c85_kept_problem_partial 1 study0 turned0 turned0_rotated (Regular.expressible study0_regular)
    (Regular.expressible turned0_regular) study0_closed study0_ownSymbols study0_clockless study0_unmixed study0_steadyBounds built0 st'
    study0_builds h).2 solve hs).1⟩

end Verif.Props
