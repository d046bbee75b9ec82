import Verif.Lemmas.Created
import Verif.Props.ProblemExamples

/-!
# C61: well-formed studies are always built

The other theorems on solver problems start from a problem that was built.  This one says when there is one: conditions on the study alone
(`Spec/Buildable.lean`) under which the construction raises no exception.
-/

namespace Verif.Props
open Verif Verif.Expr Verif.OptCtx

/-- **C61.** Take any study whose symbols are declared, whose data are complete, whose expressions are linear, with divisors that are
never zero, constant whole time shifts and bounds that are not crossed (`Buildable`).  Building its problem succeeds. -/
theorem c61_builds (x : OptCtx) (hx : x.Buildable) : ∃ st, x.buildProblem = .ok st := problem_ok hx

/-- **C61, meaning.** With the hypotheses of C35 on bounds, indices and tiny coefficients, the problem exists and it is the mathematical
study: same feasible values, same costs. -/
theorem c61_problem (x : OptCtx) (hx : x.Buildable) (hv : x.VarsOk) (hk : x.ConstraintsOk) (ho : x.ObjectivesOk) :
    ∃ st, x.buildProblem = .ok st ∧ ∀ (pt : Nat → ℚ) (σ : TermKey → ℚ), (∀ k i, st.columns.get? k = some i → pt i = σ k) →
      ((st.solver.Feasible pt ↔ x.MathFeasible σ) ∧ st.solver.cost pt = x.mathCost σ) := by
  obtain ⟨st, h⟩ := problem_ok hx
  exact ⟨st, h, c35_build_partial x hx.network hx.data hv hk ho st h⟩

/-! ## Example: `study0` -/

theorem study0_cases {c : Component} (hc : c ∈ study0.network.allComponents) : c = busN ∨ c = unitG ∨ c = demandD := by
  simpa [study0, Network.allComponents, Dict.values] using hc

theorem known_lit (v : Num) : (lit v).Known := by simp [Known, subs, isUnknown]
theorem known_par (n : String) : (par n).Known := by simp [Known, subs, isUnknown]

theorem computable_lit (x : OptCtx) (c : Component) (vary : Idx) (q : ℚ) : x.Computable c vary (lit (.fin q)) := by
  constructor <;> simp [Arith, subs, isArith, FinLits]

theorem computable_par (x : OptCtx) (c : Component) (vary : Idx) {n : String} {p : Parameter} (h : c.model.parameters.get? n = some p)
    (ht : p.structure_.time = true → vary.time = true) (hs : p.structure_.scenario = true → vary.scenario = true) :
    x.Computable c vary (par n) := by
  constructor
  · simp [Arith, subs, isArith]
  · simp [subs, FinLits]
  · intro m hm
    simp only [subs, List.mem_singleton, par.injEq] at hm
    subst hm
    exact ⟨p, h, ht, hs⟩
  · simp [subs]

theorem study0_buildable : study0.Buildable where
  network := study0_networkOk
  data := study0_dataOk
  scenarios := by decide
  parameters c hc := by
    rcases study0_cases hc with rfl | rfl | rfl
    · exact ⟨fun n p h => (by cases h), by decide⟩
    · refine ⟨fun n p h => ?_, by decide⟩
      simp only [unitG, unitModel, Dict.get?] at h
      split_ifs at h <;> (cases h; assumption)
    · refine ⟨fun n p h => ?_, by decide⟩
      simp only [demandD, demandModel, Dict.get?] at h
      split_ifs at h
      cases h
      assumption
  complete c hc n p h := by
    rcases study0_cases hc with rfl | rfl | rfl
    · cases h
    · simp only [unitG, unitModel, Dict.get?] at h
      split_ifs at h with h1 h2
      · cases h
        subst h1
        refine ⟨_, rfl, rfl, fun t ht s hs => ?_⟩
        simp only [study0, List.mem_cons, List.not_mem_nil, or_false] at ht
        rcases ht with rfl | rfl <;> exact ⟨_, rfl⟩
      · cases h
        subst h2
        exact ⟨_, rfl, rfl, fun t ht s hs => ⟨_, rfl⟩⟩
    · simp only [demandD, demandModel, Dict.get?] at h
      split_ifs at h with h1
      cases h
      subst h1
      refine ⟨_, rfl, rfl, fun t ht s hs => ?_⟩
      simp only [study0, List.mem_cons, List.not_mem_nil, or_false] at ht
      rcases ht with rfl | rfl <;> exact ⟨_, rfl⟩
  connections k hk r hr := by
    have hb : busN ∈ study0.network.allComponents := by simp [study0, Network.allComponents, Dict.values]
    have hg : unitG ∈ study0.network.allComponents := by simp [study0, Network.allComponents, Dict.values]
    have hd : demandD ∈ study0.network.allComponents := by simp [study0, Network.allComponents, Dict.values]
    have e1 : ∀ f d, PortRef.fieldDef ⟨busN, "balance"⟩ f = some d → study0.Usable busN d := by
      intro f d h
      simp [PortRef.fieldDef, busN, busModel, Dict.get?] at h
    have e2 : ∀ f d, PortRef.fieldDef ⟨unitG, "balance"⟩ f = some d → study0.Usable unitG d := by
      intro f d h
      simp only [PortRef.fieldDef, unitG, unitModel, Dict.get?] at h
      split_ifs at h
      · cases h
        exact ⟨_, List.mem_cons_self, rfl⟩
      · cases h
    have e3 : ∀ f d, PortRef.fieldDef ⟨demandD, "balance"⟩ f = some d → study0.Usable demandD d := by
      intro f d h
      simp only [PortRef.fieldDef, demandD, demandModel, Dict.get?] at h
      split_ifs at h
      · cases h
        exact ⟨_, rfl⟩
      · cases h
    simp only [study0, List.mem_cons, List.not_mem_nil, or_false] at hk
    rcases hk with rfl | rfl <;> rcases hr with rfl | rfl
    · exact ⟨hb, e1⟩
    · exact ⟨hg, e2⟩
    · exact ⟨hb, e1⟩
    · exact ⟨hd, e3⟩
  variables_ c hc v hv := by
    rcases study0_cases hc with rfl | rfl | rfl
    · cases hv
    · simp only [Strategy.getVariables, unitG, unitModel, Dict.values, List.map_cons, List.map_nil, study0, mergedStrategy,
        List.filter_true, List.mem_cons, List.not_mem_nil, or_false] at hv
      rcases hv with rfl | rfl | rfl
      · refine ⟨?_, ?_, fun t s ht hs => ?_⟩
        · rintro e ⟨⟩
          exact .inr (computable_lit _ _ _ 0)
        · rintro e ⟨⟩
          exact .inr (computable_par _ _ _ (p := ⟨"pmax", .continuous, ⟨true, false⟩⟩) rfl (fun _ => rfl) (fun h => by cases h))
        · have hT : t < 2 := ht
          have : t = 0 ∨ t = 1 := by omega
          have h0 : study0.dataValue "G" "pmax" (some 0) none = 7 := rfl
          have h1 : study0.dataValue "G" "pmax" (some 1) none = 9 := rfl
          refine ⟨0, le_refl (0 : ℚ), ?_⟩
          rcases this with rfl | rfl
          · show (0 : ℚ) ≤ study0.dataValue "G" "pmax" (some 0) none
            rw [h0]
            norm_num
          · show (0 : ℚ) ≤ study0.dataValue "G" "pmax" (some 1) none
            rw [h1]
            norm_num
      · exact ⟨fun e h => (by cases h), fun e h => (by cases h), fun t s _ _ => ⟨0, trivial, trivial⟩⟩
      · refine ⟨?_, fun e h => (by cases h), fun t s _ _ => ⟨0, le_refl (0 : ℚ), trivial⟩⟩
        rintro e ⟨⟩
        exact .inr (computable_lit _ _ _ 0)
    · cases hv
  constraints c hc k hk := by
    have fin : ∀ (c : Component) (q : ℚ), study0.BoundFits c ⟨true, true⟩ (some (.lit (.fin q))) := by
      rintro c q e ⟨⟩
      exact .inr (computable_lit _ _ _ q)
    have inf : ∀ (c : Component) (b : Expr), b.IsInfinite → study0.BoundFits c ⟨true, true⟩ (some b) := by
      rintro c b hb e ⟨⟩
      exact .inl hb
    have g : study0.Leaf unitG (.var "g") := ⟨_, List.mem_cons_self, rfl⟩
    have on : study0.Leaf unitG (.var "on") := ⟨_, List.mem_cons_of_mem _ List.mem_cons_self, rfl⟩
    have n : study0.Leaf unitG (.var "n") := ⟨_, List.mem_cons_of_mem _ (List.mem_cons_of_mem _ List.mem_cons_self), rfl⟩
    rcases study0_cases hc with rfl | rfl | rfl
    · simp only [Strategy.getConstraints, Model.allConstraints, busN, busModel, Dict.values, List.map_cons, List.map_nil, study0, mergedStrategy,
        List.append_nil, List.nil_append, List.filter_true, List.mem_cons, List.not_mem_nil, or_false] at hk
      subst hk
      exact ⟨⟨rfl, _, _, rfl⟩, fin _ 0, fin _ 0, by simp, by simp⟩
    · simp only [Strategy.getConstraints, Model.allConstraints, unitG, unitModel, Dict.values, List.map_cons, List.map_nil, study0, mergedStrategy,
        List.append_nil, List.nil_append, List.filter_true, List.mem_cons, List.not_mem_nil, or_false] at hk
      rcases hk with rfl | rfl | rfl
      · refine ⟨⟨by simp, g, ⟨rfl, on, .inl (known_lit _)⟩, trivial⟩, inf _ _ (.inr rfl), fin _ 0, by simp, by simp⟩
      · refine ⟨⟨by simp, g, ⟨g, ⟨computable_lit _ _ _ (-1), -1, ?_⟩, by simp [subs, isTimeFixing]⟩, trivial⟩, fin _ (-5), fin _ 5, fun h => (by cases h), fun h => (by cases h)⟩
        show (-1 : ℚ) = _
        norm_num
      · refine ⟨n, ?_, inf _ _ (.inl rfl), by simp, by simp⟩
        rintro e ⟨⟩
        exact .inr (computable_par _ _ _ (p := ⟨"cost", .continuous, ⟨false, false⟩⟩) rfl (fun _ => rfl) (fun _ => rfl))
    · cases hk
  objectives c hc e he := by
    rcases study0_cases hc with rfl | rfl | rfl
    · cases he
    · have : study0.contributions unitG = [.allsum (.mul (.par "cost") (.var "g"))] := rfl
      rw [this, List.mem_singleton] at he
      subst he
      exact ⟨⟨⟨_, rfl⟩, ⟨_, List.mem_cons_self, rfl⟩, .inl (known_par _)⟩, by simp [subs, isPortRef], rfl⟩
    · cases he

/-- `study0` satisfies all hypotheses -/
example : ∃ st, study0.buildProblem = .ok st ∧ ∀ (pt : Nat → ℚ) (σ : TermKey → ℚ), (∀ k i, st.columns.get? k = some i → pt i = σ k) →
    ((st.solver.Feasible pt ↔ study0.MathFeasible σ) ∧ st.solver.cost pt = study0.mathCost σ) :=
  c61_problem study0 study0_buildable study0_varsOk study0_constraintsOk study0_objectivesOk

/-! ## The conditions matter -/

/-- a variable `x` between `lo` and `p`, with data `p` -/
def boundedModel (lo : Num) : Model :=
  { id := "M", parameters := [("p", ⟨"p", .continuous, ⟨true, false⟩⟩)]
    variables_ := [("x", ⟨"x", .continuous, some (.lit lo), some (.div (.par "p") (.par "p")), ⟨true, false⟩, .operational⟩)] }

/-- crossed bounds, missing data and zero divisors at any timestep are refused -/
theorem c61_refused :
    (single (boundedModel 0) [(("c", "p"), .timeSeries [(0, 3), (1, 5)])] [0, 1]).buildProblem.isOk = true ∧
    (single (boundedModel 2) [(("c", "p"), .timeSeries [(0, 3), (1, 5)])] [0, 1]).buildProblem =
      .error (.valueError "Upper bound must be strictly greater than lower bound") ∧
    (single (boundedModel 0) [(("c", "p"), .timeSeries [(0, 3)])] [0, 1]).buildProblem.isOk = false ∧
    (single (boundedModel 0) [(("c", "p"), .timeSeries [(0, 3), (1, 0)])] [0, 1]).buildProblem = .error .zeroDivision := by
  decide +kernel

end Verif.Props
