import Verif.Props.Rotated
import Verif.Spec.StepsAny
import Verif.Props.SameProblemExamples

/-! Examples for C85: `study0`, whose unit has a ramp constraint, with its block started at the second timestep. -/

namespace Verif.Props
open Verif Verif.Expr Verif.OptCtx

/-- `study0` with its block started at hour 5 -/
def turned0 : OptCtx := { study0 with timesteps := [5, 4] }

theorem turned0_rotated : study0.Rotated 1 turned0 := c85_timesteps study0 1

theorem turned0_networkOk : turned0.NetworkOk := by
  refine ⟨by decide +kernel, ?_, ?_, ?_, ?_, ?_⟩
  · intro k c h
    simp only [turned0, study0, List.mem_cons, Prod.mk.injEq, List.not_mem_nil, or_false] at h
    rcases h with ⟨rfl, rfl⟩ | ⟨rfl, rfl⟩ | ⟨rfl, rfl⟩ <;> rfl
  · intro c hc n v h
    simp only [turned0, study0, Network.allComponents, Dict.values, List.map_cons, List.map_nil, List.cons_append, List.nil_append,
      List.mem_cons, List.not_mem_nil, or_false] at hc
    rcases hc with rfl | rfl | rfl
    · simp [busN, busModel] at h
    · simp only [unitG, unitModel, List.mem_cons, Prod.mk.injEq, List.not_mem_nil, or_false] at h
      rcases h with ⟨rfl, rfl⟩ | ⟨rfl, rfl⟩ | ⟨rfl, rfl⟩ <;> rfl
    · simp [demandD, demandModel] at h
  · intro c hc
    simp only [turned0, study0, Network.allComponents, Dict.values, List.map_cons, List.map_nil, List.cons_append, List.nil_append,
      List.mem_cons, List.not_mem_nil, or_false] at hc
    rcases hc with rfl | rfl | rfl <;> decide
  · intro c hc
    simp only [turned0, study0, List.mem_cons, List.not_mem_nil, or_false] at hc
    rcases hc with rfl | rfl
    · refine ⟨rfl, ?_, ?_⟩ <;> intro k p h <;> simp [link1, busN, unitG, busModel, unitModel] at h <;> rw [← h.2, ← h.1]
    · refine ⟨rfl, ?_, ?_⟩ <;> intro k p h <;> simp [link2, busN, demandD, busModel, demandModel] at h <;> rw [← h.2, ← h.1]
  · intro c hc r f d hr hd
    simp only [turned0, study0, List.mem_cons, List.not_mem_nil, or_false] at hc
    have hg : ∀ {f d}, PortRef.fieldDef ⟨unitG, "balance"⟩ f = some d → d = .var "g" := by
      intro f d h
      simp only [PortRef.fieldDef, unitG, unitModel, Dict.get?] at h
      split_ifs at h
      · simpa using h.symm
      · cases h
    have hdm : ∀ {f d}, PortRef.fieldDef ⟨demandD, "balance"⟩ f = some d → d = .neg (.par "d") := by
      intro f d h
      simp only [PortRef.fieldDef, demandD, demandModel, Dict.get?] at h
      split_ifs at h
      · simpa using h.symm
      · cases h
    have hn : ∀ {f d}, PortRef.fieldDef ⟨busN, "balance"⟩ f = some d → False := by
      intro f d h
      simp [PortRef.fieldDef, busN, busModel, Dict.get?] at h
    rcases hc with rfl | rfl <;> rcases hr with rfl | rfl
    · exact absurd hd (fun h => hn h)
    · obtain rfl := hg hd
      refine ⟨by simp [subs, isPortRef, isCmp, hasComponent], by simp [subs], ?_, by simp [subs, isTimeFixing, isScen]⟩
      intro v h
      simp [subs] at h
    · exact absurd hd (fun h => hn h)
    · obtain rfl := hdm hd
      refine ⟨by simp [subs, isPortRef, isCmp, hasComponent], by simp [subs], ?_, by simp [subs, isTimeFixing, isScen]⟩
      intro v h
      simp [subs] at h

theorem turned0_dataOk : turned0.DataOk := by
  have hdb : ∀ {c n d}, turned0.database.get? (c, n) = some d →
      (c = "G" ∧ n = "pmax" ∧ d = .timeSeries [(4, 7), (5, 9)]) ∨ (c = "G" ∧ n = "cost" ∧ d = .const 3) ∨
      (c = "D" ∧ n = "d" ∧ d = .timeSeries [(4, 6), (5, 8)]) := by
    intro c n d h
    simp only [turned0, study0, Dict.get?] at h
    split_ifs at h with h1 h2 h3
    · cases h1; cases h; simp
    · cases h2; cases h; simp
    · cases h3; cases h; simp
  refine ⟨rfl, by simp [turned0, study0], ?_, ?_, ?_⟩
  · intro c n d h t s v hv
    have hts : ∀ {a b : Num} {v}, a.isFin = true → b.isFin = true → Data.getValue (.timeSeries [(4, a), (5, b)]) t s "" = .ok v → v.isFin = true := by
      intro a b v ha hb h
      unfold Data.getValue at h
      cases t with
      | none => cases h
      | some t =>
        simp only [Dict.get, Dict.get?] at h
        split_ifs at h
        · cases h; exact ha
        · cases h; exact hb
    rcases hdb h with ⟨rfl, rfl, rfl⟩ | ⟨rfl, rfl, rfl⟩ | ⟨rfl, rfl, rfl⟩
    · exact hts rfl rfl hv
    · cases hv; rfl
    · exact hts rfl rfl hv
  · intro c n k p d hc hp h hd
    rcases hdb h with ⟨rfl, rfl, rfl⟩ | ⟨rfl, rfl, rfl⟩ | ⟨rfl, rfl, rfl⟩
    · cases hc; cases hp; rfl
    · cases hd
    · cases hc; cases hp; rfl
  · intro c n k p d hc hp h hd
    rcases hdb h with ⟨rfl, rfl, rfl⟩ | ⟨rfl, rfl, rfl⟩ | ⟨rfl, rfl, rfl⟩ <;> cases hd

theorem turned0_varsOk : turned0.VarsOk := by
  constructor
  · intro c hc v hv b hb
    simp only [turned0, study0, Network.allComponents, Dict.values, List.map_cons, List.map_nil, List.cons_append, List.nil_append,
      List.mem_cons, List.not_mem_nil, or_false] at hc
    rcases hc with rfl | rfl | rfl
    · simp [Strategy.getVariables, busN, busModel, Dict.values] at hv
    · simp only [Strategy.getVariables, unitG, unitModel, Dict.values, List.map_cons, List.map_nil, turned0, study0, mergedStrategy,
        List.filter_true, List.mem_cons, List.not_mem_nil, or_false] at hv
      rcases hv with rfl | rfl | rfl
      · simp only [Option.some.injEq] at hb
        rcases hb with rfl | rfl <;> exact .inr (exprOk_of rfl)
      · simp at hb
      · simp only [Option.some.injEq, reduceCtorEq, or_false] at hb
        subst hb; exact .inr (exprOk_of rfl)
    · simp [Strategy.getVariables, demandD, demandModel, Dict.values] at hv
  · intro c hc v hv hty σ q t s hq
    simp only [turned0, study0, Network.allComponents, Dict.values, List.map_cons, List.map_nil, List.cons_append, List.nil_append,
      List.mem_cons, List.not_mem_nil, or_false] at hc
    rcases hc with rfl | rfl | rfl
    · simp [Strategy.getVariables, busN, busModel, Dict.values] at hv
    · simp only [Strategy.getVariables, unitG, unitModel, Dict.values, List.map_cons, List.map_nil, turned0, study0, mergedStrategy,
        List.filter_true, List.mem_cons, List.not_mem_nil, or_false] at hv
      rcases hv with rfl | rfl | rfl
      · cases hty
      · exact ⟨trivial, trivial⟩
      · cases hty
    · simp [Strategy.getVariables, demandD, demandModel, Dict.values] at hv

/-- the balance is `g(t) - d(t)` -/
theorem turned0_balance (var : String → String → Option Int → Option Int → ℚ) (t s : Int) :
    mden (turned0.readAs (turned0.unwrapped var) busN) (.agg (.portField "balance" "flow") .portSum) t s =
      -turned0.dataValue "D" "d" (some t) none + var "G" "g" (some t) none := by
  have h1 : link1.hasField "flow" := ⟨flowType, rfl, by simp [flowType]⟩
  have h2 : link2.hasField "flow" := ⟨flowType, rfl, by simp [flowType]⟩
  have v1 : ∀ D, link1.value D "flow" = mden (componentCtx D "G" noPorts) (.var "g") := fun D => rfl
  have v2 : ∀ D, link2.value D "flow" = mden (componentCtx D "D" noPorts) (.neg (.par "d")) := fun D => rfl
  show (((attached (turned0.unwrapped var) [link1, link2] "N") "balance" "flow").map fun v => v t s).sum = _
  simp only [attached, List.flatMap_cons, List.flatMap_nil, PortsConnection.brings, h1, h2, if_true, List.append_nil, v1, v2]
  have e1 : ∀ D : DenCtx, mden (componentCtx D "G" noPorts) (.var "g") t s =
    D.env.var "G" "g" (atT (D.vidx "G" "g") t) (atS (D.vidx "G" "g") s) := fun _ => rfl
  have e2 : ∀ D : DenCtx, mden (componentCtx D "D" noPorts) (.neg (.par "d")) t s =
    -D.env.par "D" "d" (atT (D.pidx "D" "d") t) (atS (D.pidx "D" "d") s) := fun _ => rfl
  simp [link1, link2, busN, unitG, demandD, e1, e2]
  have i1 : turned0.varIdx "G" "g" = ⟨true, false⟩ := rfl
  have i2 : turned0.parIdx "D" "d" = ⟨true, false⟩ := rfl
  show var "G" "g" (atT (turned0.varIdx "G" "g") t) (atS (turned0.varIdx "G" "g") s) +
    -turned0.dataValue "D" "d" (atT (turned0.parIdx "D" "d") t) (atS (turned0.parIdx "D" "d") s) = _
  rw [i1, i2]
  simp only [atT, atS]
  simp
  ring

theorem turned0_constraintsOk : turned0.ConstraintsOk := by
  have hall : ∀ {c k}, c ∈ turned0.network.allComponents → k ∈ turned0.strategy.getConstraints c.model →
      (c = busN ∧ k = { name := "balance", expression := .agg (.portField "balance" "flow") .portSum, lowerBound := .lit 0, upperBound := .lit 0 }) ∨
      (c = unitG ∧ k = { name := "max", expression := .add [.var "g", .neg (.mul (.lit 10) (.var "on"))], upperBound := .lit 0 }) ∨
      (c = unitG ∧ k = { name := "ramp", expression := .add [.var "g", .neg (.shift (.var "g") (.lit (-1)))], lowerBound := .lit (-5), upperBound := .lit 5 }) ∨
      (c = unitG ∧ k = { name := "parts", expression := .var "n", lowerBound := .par "cost" }) := by
    intro c k hc hk
    simp only [turned0, study0, Network.allComponents, Dict.values, List.map_cons, List.map_nil, List.cons_append, List.nil_append,
      List.mem_cons, List.not_mem_nil, or_false] at hc
    rcases hc with rfl | rfl | rfl
    · simp only [Strategy.getConstraints, Model.allConstraints, busN, busModel, Dict.values, List.map_cons, List.map_nil, turned0, study0, mergedStrategy,
        List.append_nil, List.nil_append, List.filter_true, List.mem_cons, List.not_mem_nil, or_false] at hk
      exact .inl ⟨rfl, hk⟩
    · simp only [Strategy.getConstraints, Model.allConstraints, unitG, unitModel, Dict.values, List.map_cons, List.map_nil, turned0, study0, mergedStrategy,
        List.append_nil, List.nil_append, List.filter_true, List.mem_cons, List.not_mem_nil, or_false] at hk
      rcases hk with rfl | rfl | rfl
      · exact .inr (.inl ⟨rfl, rfl⟩)
      · exact .inr (.inr (.inl ⟨rfl, rfl⟩))
      · exact .inr (.inr (.inr ⟨rfl, rfl⟩))
    · simp [Strategy.getConstraints, Model.allConstraints, demandD, demandModel, Dict.values] at hk
  refine ⟨by decide, ?_, ?_, ?_⟩
  · intro c hc k hk
    rcases hall hc hk with ⟨rfl, rfl⟩ | ⟨rfl, rfl⟩ | ⟨rfl, rfl⟩ | ⟨rfl, rfl⟩
    · exact ⟨exprOk_of rfl, .inr (exprOk_of rfl), .inr (exprOk_of rfl)⟩
    · exact ⟨exprOk_of rfl, .inl (.inr rfl), .inr (exprOk_of rfl)⟩
    · exact ⟨exprOk_of rfl, .inr (exprOk_of rfl), .inr (exprOk_of rfl)⟩
    · exact ⟨exprOk_of rfl, .inr (exprOk_of rfl), .inl (.inl rfl)⟩
  · intro c hc k hk t s ht hs
    rcases hall hc hk with ⟨rfl, rfl⟩ | ⟨rfl, rfl⟩ | ⟨rfl, rfl⟩ | ⟨rfl, rfl⟩
    · refine noTiny_of_int (-turned0.dataValue "D" "d" (some t) none) [(⟨"G", "g", some t, none⟩, 1)] fun var => ?_
      rw [turned0_balance]
      simp
    · refine noTiny_of_int 0 [(⟨"G", "g", some t, none⟩, 1), (⟨"G", "on", some t, none⟩, -10)] fun var => ?_
      show var "G" "g" (some t) none + (-(10 * var "G" "on" (some t) none) + 0) = _
      simp
    · refine noTiny_of_int 0 [(⟨"G", "g", some t, none⟩, 1), (⟨"G", "g", some (t + -1), none⟩, -1)] fun var => ?_
      show var "G" "g" (some t) none + (-(var "G" "g" (some (t + (Rat.floor (-1 : ℚ)))) none) + 0) = _
      simp [show Rat.floor (-1 : ℚ) = -1 from by decide +kernel]
    · refine noTiny_of_int 0 [(⟨"G", "n", none, none⟩, 1)] fun var => ?_
      show var "G" "n" none none = _
      simp
  · intro ports hp c hc k hk
    cases hp
    rcases hall hc hk with ⟨rfl, rfl⟩ | ⟨rfl, rfl⟩ | ⟨rfl, rfl⟩ | ⟨rfl, rfl⟩ <;>
    (refine ⟨fun e i he hi h b hb σ t t' s => ?_, fun e i he hi h b hb σ t t' s => ?_⟩ <;>
     (rcases hb with rfl | rfl <;> rfl))

theorem turned0_objectivesOk : turned0.ObjectivesOk := by
  have hall : ∀ {c e}, c ∈ turned0.network.allComponents → e ∈ turned0.contributions c →
      c = unitG ∧ e = .allsum (.mul (.par "cost") (.var "g")) := by
    intro c e hc he
    simp only [turned0, study0, Network.allComponents, Dict.values, List.map_cons, List.map_nil, List.cons_append, List.nil_append,
      List.mem_cons, List.not_mem_nil, or_false] at hc
    rcases hc with rfl | rfl | rfl
    · cases he
    · refine ⟨rfl, ?_⟩
      have : turned0.contributions unitG = [.allsum (.mul (.par "cost") (.var "g"))] := rfl
      rw [this] at he
      simpa using he
    · cases he
  constructor
  · intro c hc e he
    obtain ⟨rfl, rfl⟩ := hall hc he
    refine ⟨exprOk_of rfl, noTiny_of_int 0 [(⟨"G", "g", some 0, none⟩, 3), (⟨"G", "g", some 1, none⟩, 3)] fun var => ?_⟩
    have hc : turned0.dataValue "G" "cost" none none = 3 := rfl
    show ∑ u ∈ Finset.range 2, turned0.dataValue "G" "cost" none none * var "G" "g" (some (u : Int)) none = _
    rw [hc, Finset.sum_range_succ, Finset.sum_range_one]
    simp
  · intro c hc e he
    obtain ⟨rfl, rfl⟩ := hall hc he
    rfl

theorem turned0_regular : turned0.Regular := ⟨turned0_networkOk, turned0_dataOk, turned0_varsOk, turned0_constraintsOk, turned0_objectivesOk⟩

/-- a check of `NoClock` for expressions whose shifts and bounds of sums are numbers -/
def noClock : Expr → Bool
  | .evalT .. => false
  | .shift _ (.lit _) => true
  | .shift _ (.neg (.lit _)) => true
  | .shift .. => false
  | .tsum .. => false
  | _ => true

theorem steady_lit (x : OptCtx) (id : String) (q : Num) : x.Steady id (.lit q) := by
  intro y hy
  simp only [subs, List.mem_singleton] at hy
  subst hy
  exact ⟨rfl, by simp, by simp⟩

theorem steady_neg (x : OptCtx) (id : String) (q : Num) : x.Steady id (.neg (.lit q)) := by
  intro y hy
  simp only [subs, List.mem_cons, List.not_mem_nil, or_false] at hy
  rcases hy with rfl | rfl <;> exact ⟨rfl, by simp, by simp⟩

theorem noClock_of {x : OptCtx} {id : String} {e : Expr} (h : e.subs.all noClock = true) : x.NoClock id e := by
  rw [List.all_eq_true] at h
  refine ⟨fun y k hy => (by cases h _ hy), fun y k hy => ?_, fun y a b hy => (by cases h _ hy)⟩
  have hk := h _ hy
  unfold noClock at hk
  split at hk <;> first | cases hk | skip
  · rename_i he; cases he; exact steady_lit _ _ _
  · rename_i he; cases he; exact steady_neg _ _ _
  · rename_i h1 h2; exact absurd rfl (h1 y k)

/-- a check of `Clockless` for a component -/
def clocklessOf (x : OptCtx) (c : Component) : Bool :=
  ((x.strategy.getVariables c.model).flatMap fun v => v.lowerBound.toList ++ v.upperBound.toList).all (fun b => b.subs.all noClock) &&
  ((x.strategy.getConstraints c.model).flatMap fun k => [k.expression, k.lowerBound, k.upperBound]).all (fun b => b.subs.all noClock) &&
  (x.contributions c).all (fun b => b.subs.all noClock && !(x.dependence c b).time) &&
  c.model.portFieldsDefinitions.all fun d => d.2.definition.subs.all noClock

theorem clockless_of {x : OptCtx} (hcl : x.Closed) (h : x.network.allComponents.all (clocklessOf x) = true) : x.Clockless := by
  rw [List.all_eq_true] at h
  have h : ∀ c ∈ x.network.allComponents, _ := h
  refine ⟨fun c hc v hv b hb => ?_, fun c hc k hk e he => ?_, fun c hc e he => ?_, fun k hk q f d hq hd => ?_⟩
  · have := h c hc
    simp only [clocklessOf, Bool.and_eq_true, List.all_eq_true (p := fun b : Expr => b.subs.all noClock), List.mem_flatMap, List.mem_append,
      Option.mem_toList] at this
    exact noClock_of (this.1.1.1 b ⟨v, hv, hb⟩)
  · have := h c hc
    simp only [clocklessOf, Bool.and_eq_true, List.all_eq_true (p := fun b : Expr => b.subs.all noClock), List.mem_flatMap, List.mem_cons,
      List.not_mem_nil, or_false] at this
    exact noClock_of (this.1.1.2 e ⟨k, hk, he⟩)
  · have := h c hc
    simp only [clocklessOf, Bool.and_eq_true] at this
    have := List.all_eq_true.1 this.1.2 e he
    simp only [Bool.and_eq_true, Bool.not_eq_true'] at this
    exact ⟨noClock_of this.1, this.2⟩
  · have hc : q.component ∈ x.network.allComponents := by
      rcases hq with rfl | rfl
      · exact (hcl k hk).1
      · exact (hcl k hk).2
    have := h _ hc
    simp only [clocklessOf, Bool.and_eq_true] at this
    have := List.all_eq_true.1 this.2
    unfold PortRef.fieldDef at hd
    obtain ⟨z, hz, rfl⟩ := Option.map_eq_some_iff.1 hd
    exact noClock_of (this _ (Dict.mem_of_get? hz))

theorem study0_clockless : study0.Clockless := clockless_of study0_closed (by decide +kernel)

/-- all hypotheses of `c85_same_study` are met by `study0` and `turned0` -/
example (σ : TermKey → ℚ) : (turned0.MathFeasible (later 1 2 σ) ↔ study0.MathFeasible σ) ∧
    turned0.mathCost (later 1 2 σ) = study0.mathCost σ :=
  (c85_same_study 1 study0 turned0 turned0_rotated (by decide) study0_networkOk study0_closed study0_ownSymbols study0_clockless).1 σ

/-- all hypotheses of `c85_problem_partial` are met by `study0` and `turned0`: both problems are built, with the same least cost -/
example : ∃ st', turned0.buildProblem = .ok st' ∧
    ∀ c, LeastCost st'.solver.Feasible st'.solver.cost c ↔ LeastCost built0.solver.Feasible built0.solver.cost c := by
  obtain ⟨st', h⟩ := built_of (x := turned0) (by decide +kernel)
  exact ⟨st', h, (c85_problem_partial 1 study0 turned0 turned0_rotated study0_regular turned0_regular study0_closed study0_ownSymbols
    study0_clockless built0 st' study0_builds h).2.1⟩

/-- **C85 fails** when a bound of a constraint depends on time and its expression does not: the constraint `v <= p(t)` is written for the first
timestep only.  With `p = (10, 5)` the value 8 is feasible for the problem; when the block is started at the second timestep, no value above 5
is. -/
theorem c85_first_timestep : ∃ (x x' : OptCtx) (st st' : OptState), x.Rotated 1 x' ∧ x.Clockless ∧ x.buildProblem = .ok st ∧
    x'.buildProblem = .ok st' ∧ st.solver.Feasible (fun _ => 8) ∧ ¬ st'.solver.Feasible (fun _ => 8) := by
  refine ⟨single capModel [(("c", "p"), .timeSeries [(0, 10), (1, 5)])] [0, 1], single capModel [(("c", "p"), .timeSeries [(0, 10), (1, 5)])] [1, 0],
    { solver := { vars := [⟨"c_v", .ninf, .pinf, false⟩], rows := [⟨"c_cap_t0_s0", [(0, 1)], .ninf, 10⟩] }
      columns := [(⟨"c", "v", none, none⟩, 0)], infos := [("c_v", ⟨"c_v", 0, false⟩)] },
    { solver := { vars := [⟨"c_v", .ninf, .pinf, false⟩], rows := [⟨"c_cap_t0_s0", [(0, 1)], .ninf, 5⟩] }
      columns := [(⟨"c", "v", none, none⟩, 0)], infos := [("c_v", ⟨"c_v", 0, false⟩)] },
    c85_timesteps _ 1, clockless_of (by intro k hk; cases hk) (by decide +kernel), by decide +kernel, by decide +kernel, ⟨?_, ?_⟩, ?_⟩
  · intro i v h
    cases i with
    | zero => cases h; exact ⟨trivial, trivial, by intro h; cases h⟩
    | succ i => cases h
  · intro r hr
    rcases List.mem_singleton.1 hr with rfl
    refine ⟨trivial, ?_⟩
    show linForm _ (fun _ => 8) ≤ _
    decide +kernel
  · intro h
    have := (h.2 _ (.head _)).2
    have : linForm [(0, 1)] (fun _ => 8) ≤ (5 : ℚ) := this
    revert this
    decide +kernel

/-- the constraint `6e-17 * sum(v) + 6e-17 * v[t+1] <= p(t)` -/
def mixModel : Model :=
  { id := "M"
    parameters := [("p", ⟨"p", .continuous, ⟨true, false⟩⟩)]
    variables_ := [("v", ⟨"v", .continuous, none, none, ⟨true, false⟩, .operational⟩)]
    constraints := [("mix", { name := "mix", expression := .add [.mul (.lit (.fin (6 / 10 ^ 17))) (.allsum (.var "v")),
      .mul (.lit (.fin (6 / 10 ^ 17))) (.shift (.var "v") (.lit 1))], upperBound := .par "p" })] }

/-- **C85 fails** with tiny coefficients when an expression adds to a sum over the block what is read at another timestep.  At the first timestep,
the next one is in the block: its terms are merged, and their coefficient `1.2e-16` is kept.  At the last timestep, the next one is after the end
of the block: its terms are not merged, and both are dropped.  So only `p` at the first timestep counts: with `p = (0, 1)` the values 1 are not
feasible for the problem; when the block is started at the second timestep, they are. -/
theorem c85_mixed : ∃ (x x' : OptCtx) (st st' : OptState), x.Rotated 1 x' ∧ x.Clockless ∧ x.SteadyBounds ∧ x.buildProblem = .ok st ∧
    x'.buildProblem = .ok st' ∧ ¬ st.solver.Feasible (fun _ => 1) ∧ st'.solver.Feasible (fun _ => 1) := by
  refine ⟨single mixModel [(("c", "p"), .timeSeries [(0, 0), (1, 1)])] [0, 1], single mixModel [(("c", "p"), .timeSeries [(0, 0), (1, 1)])] [1, 0],
    { solver := { vars := [⟨"c_v_t0", .ninf, .pinf, false⟩, ⟨"c_v_t1", .ninf, .pinf, false⟩],
                  rows := [⟨"c_mix_t0_s0", [(1, .fin (12 / 10 ^ 17))], .ninf, 0⟩, ⟨"c_mix_t1_s0", [], .ninf, 1⟩] }
      columns := [(⟨"c", "v", some 0, none⟩, 0), (⟨"c", "v", some 1, none⟩, 1)]
      infos := [("c_v_t0", ⟨"c_v_t0", 0, false⟩), ("c_v_t1", ⟨"c_v_t1", 1, false⟩)] },
    { solver := { vars := [⟨"c_v_t0", .ninf, .pinf, false⟩, ⟨"c_v_t1", .ninf, .pinf, false⟩],
                  rows := [⟨"c_mix_t0_s0", [(1, .fin (12 / 10 ^ 17))], .ninf, 1⟩, ⟨"c_mix_t1_s0", [], .ninf, 0⟩] }
      columns := [(⟨"c", "v", some 0, none⟩, 0), (⟨"c", "v", some 1, none⟩, 1)]
      infos := [("c_v_t0", ⟨"c_v_t0", 0, false⟩), ("c_v_t1", ⟨"c_v_t1", 1, false⟩)] },
    c85_timesteps _ 1, clockless_of (by intro k hk; cases hk) (by decide +kernel), ?_, by decide +kernel, by decide +kernel, ?_, ?_, ?_⟩
  · intro c hc k hk hd
    obtain rfl := List.mem_singleton.1 hc
    obtain rfl := List.mem_singleton.1 hk
    exact absurd hd (by decide +kernel)
  · intro h
    have : linForm [(1, .fin (12 / 10 ^ 17))] (fun _ => 1) ≤ (0 : ℚ) := (h.2 _ (.head _)).2
    revert this
    decide +kernel
  · intro i v h
    cases i with
    | zero => cases h; exact ⟨trivial, trivial, by intro h; cases h⟩
    | succ i =>
      cases i with
      | zero => cases h; exact ⟨trivial, trivial, by intro h; cases h⟩
      | succ i => cases h
  · intro r hr
    simp only [List.mem_cons, List.not_mem_nil, or_false] at hr
    rcases hr with rfl | rfl
    · refine ⟨trivial, ?_⟩
      show linForm [(1, .fin (12 / 10 ^ 17))] (fun _ => 1) ≤ (1 : ℚ)
      decide +kernel
    · refine ⟨trivial, ?_⟩
      show linForm [] (fun _ => 1) ≤ (0 : ℚ)
      decide +kernel

end Verif.Props
