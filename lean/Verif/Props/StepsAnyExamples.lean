import Verif.Props.StepsAny
import Verif.Props.SameProblemExamples

/-! Examples for C88 on any models: a unit that can be switched on and off at each hour, a load and a bus, at two hours. -/

namespace Verif.Props
open Verif Verif.Expr Verif.OptCtx

/-- a unit with an on/off status and an expected cost -/
def hourUnit : Model :=
  { id := "UNIT"
    parameters := [("pmax", ⟨"pmax", .continuous, ⟨true, false⟩⟩), ("cost", ⟨"cost", .continuous, ⟨false, false⟩⟩)]
    variables_ :=
      [("g", ⟨"g", .continuous, some (.lit 0), some (.par "pmax"), ⟨true, false⟩, .operational⟩),
       ("on", ⟨"on", .boolean, none, none, ⟨true, false⟩, .operational⟩)]
    constraints := [("max", { name := "max", expression := .add [.var "g", .neg (.mul (.lit 10) (.var "on"))], upperBound := .lit 0 })]
    objectiveOperational := some (.scen (.mul (.par "cost") (.allsum (.var "g"))) .expectation)
    ports := [("balance", ⟨flowType, "balance"⟩)]
    portFieldsDefinitions := [(⟨"balance", "flow"⟩, ⟨⟨"balance", "flow"⟩, .var "g"⟩)] }

def unitH : Component := ⟨hourUnit, "G"⟩
def linkH : PortsConnection := ⟨⟨busN, "balance"⟩, ⟨unitH, "balance"⟩, [("flow", ⟨unitH, "balance"⟩)]⟩

/-- a bus, a unit and a load at hours `ts` -/
def hourly (ts : List Int) : OptCtx where
  network := ⟨"net", [("N", busN)], [("G", unitH), ("D", demandD)], [linkH, link2]⟩
  database := [(("G", "pmax"), .timeSeries [(4, 7), (5, 9)]), (("G", "cost"), .const 3), (("D", "d"), .timeSeries [(4, 6), (5, 8)])]
  timesteps := ts
  scenarios := 1

variable (ts : List Int)

theorem hourly_networkOk : (hourly ts).NetworkOk := by
  refine ⟨show (["N", "G", "D"] : List String).Nodup by decide, ?_, ?_, ?_, ?_, ?_⟩
  · intro k c h
    simp only [hourly, List.mem_cons, Prod.mk.injEq, List.not_mem_nil, or_false] at h
    rcases h with ⟨rfl, rfl⟩ | ⟨rfl, rfl⟩ | ⟨rfl, rfl⟩ <;> rfl
  · intro c hc n v h
    simp only [hourly, Network.allComponents, Dict.values, List.map_cons, List.map_nil, List.cons_append, List.nil_append,
      List.mem_cons, List.not_mem_nil, or_false] at hc
    rcases hc with rfl | rfl | rfl
    · simp [busN, busModel] at h
    · simp only [unitH, hourUnit, List.mem_cons, Prod.mk.injEq, List.not_mem_nil, or_false] at h
      rcases h with ⟨rfl, rfl⟩ | ⟨rfl, rfl⟩ <;> rfl
    · simp [demandD, demandModel] at h
  · intro c hc
    simp only [hourly, Network.allComponents, Dict.values, List.map_cons, List.map_nil, List.cons_append, List.nil_append,
      List.mem_cons, List.not_mem_nil, or_false] at hc
    rcases hc with rfl | rfl | rfl <;> decide
  · intro c hc
    simp only [hourly, List.mem_cons, List.not_mem_nil, or_false] at hc
    rcases hc with rfl | rfl
    · refine ⟨rfl, ?_, ?_⟩ <;> intro k p h <;> simp [linkH, busN, unitH, busModel, hourUnit] at h <;> rw [← h.2, ← h.1]
    · refine ⟨rfl, ?_, ?_⟩ <;> intro k p h <;> simp [link2, busN, demandD, busModel, demandModel] at h <;> rw [← h.2, ← h.1]
  · intro c hc r f d hr hd
    simp only [hourly, List.mem_cons, List.not_mem_nil, or_false] at hc
    have hg : ∀ {f d}, PortRef.fieldDef ⟨unitH, "balance"⟩ f = some d → d = .var "g" := by
      intro f d h
      simp only [PortRef.fieldDef, unitH, hourUnit, Dict.get?] at h
      split_ifs at h
      · simpa using h.symm
      · cases h
    have hdm : ∀ {f d}, PortRef.fieldDef ⟨demandD, "balance"⟩ f = some d → d = .neg (.par "d") := by
      intro f d h
      simp only [PortRef.fieldDef, demandD, demandModel, Dict.get?] at h
      split_ifs at h
      · simpa using h.symm
      · cases h
    have hn : ∀ {f d}, PortRef.fieldDef ⟨busN, "balance"⟩ f = some d → False := by
      intro f d h
      simp [PortRef.fieldDef, busN, busModel, Dict.get?] at h
    rcases hc with rfl | rfl <;> rcases hr with rfl | rfl
    · exact absurd hd (fun h => hn h)
    · obtain rfl := hg hd
      refine ⟨by simp [subs, isPortRef, isCmp, hasComponent], by simp [subs], ?_, by simp [subs, isTimeFixing, isScen]⟩
      intro v h
      simp [subs] at h
    · exact absurd hd (fun h => hn h)
    · obtain rfl := hdm hd
      refine ⟨by simp [subs, isPortRef, isCmp, hasComponent], by simp [subs], ?_, by simp [subs, isTimeFixing, isScen]⟩
      intro v h
      simp [subs] at h

theorem hourly_dataOk (hts : ts ≠ []) : (hourly ts).DataOk := by
  have hdb : ∀ {c n d}, (hourly ts).database.get? (c, n) = some d →
      (c = "G" ∧ n = "pmax" ∧ d = .timeSeries [(4, 7), (5, 9)]) ∨ (c = "G" ∧ n = "cost" ∧ d = .const 3) ∨
      (c = "D" ∧ n = "d" ∧ d = .timeSeries [(4, 6), (5, 8)]) := by
    intro c n d h
    simp only [hourly, Dict.get?] at h
    split_ifs at h with h1 h2 h3
    · cases h1; cases h; simp
    · cases h2; cases h; simp
    · cases h3; cases h; simp
  refine ⟨rfl, hts, ?_, ?_, ?_⟩
  · intro c n d h t s v hv
    have hts : ∀ {a b : Num} {v}, a.isFin = true → b.isFin = true → Data.getValue (.timeSeries [(4, a), (5, b)]) t s "" = .ok v → v.isFin = true := by
      intro a b v ha hb h
      unfold Data.getValue at h
      cases t with
      | none => cases h
      | some t =>
        simp only [Dict.get, Dict.get?] at h
        split_ifs at h
        · cases h; exact ha
        · cases h; exact hb
    rcases hdb h with ⟨rfl, rfl, rfl⟩ | ⟨rfl, rfl, rfl⟩ | ⟨rfl, rfl, rfl⟩
    · exact hts rfl rfl hv
    · cases hv; rfl
    · exact hts rfl rfl hv
  · intro c n k p d hc hp h hd
    rcases hdb h with ⟨rfl, rfl, rfl⟩ | ⟨rfl, rfl, rfl⟩ | ⟨rfl, rfl, rfl⟩
    · cases hc; cases hp; rfl
    · cases hd
    · cases hc; cases hp; rfl
  · intro c n k p d hc hp h hd
    rcases hdb h with ⟨rfl, rfl, rfl⟩ | ⟨rfl, rfl, rfl⟩ | ⟨rfl, rfl, rfl⟩ <;> cases hd

theorem hourly_varsOk : (hourly ts).VarsOk := by
  constructor
  · intro c hc v hv b hb
    simp only [hourly, Network.allComponents, Dict.values, List.map_cons, List.map_nil, List.cons_append, List.nil_append,
      List.mem_cons, List.not_mem_nil, or_false] at hc
    rcases hc with rfl | rfl | rfl
    · simp [Strategy.getVariables, busN, busModel, Dict.values] at hv
    · simp only [Strategy.getVariables, unitH, hourUnit, Dict.values, List.map_cons, List.map_nil, hourly, mergedStrategy,
        List.filter_true, List.mem_cons, List.not_mem_nil, or_false] at hv
      rcases hv with rfl | rfl
      · simp only [Option.some.injEq] at hb
        rcases hb with rfl | rfl <;> exact .inr (exprOk_of rfl)
      · simp at hb
    · simp [Strategy.getVariables, demandD, demandModel, Dict.values] at hv
  · intro c hc v hv hty σ q t s hq
    simp only [hourly, Network.allComponents, Dict.values, List.map_cons, List.map_nil, List.cons_append, List.nil_append,
      List.mem_cons, List.not_mem_nil, or_false] at hc
    rcases hc with rfl | rfl | rfl
    · simp [Strategy.getVariables, busN, busModel, Dict.values] at hv
    · simp only [Strategy.getVariables, unitH, hourUnit, Dict.values, List.map_cons, List.map_nil, hourly, mergedStrategy,
        List.filter_true, List.mem_cons, List.not_mem_nil, or_false] at hv
      rcases hv with rfl | rfl
      · cases hty
      · exact ⟨trivial, trivial⟩
    · simp [Strategy.getVariables, demandD, demandModel, Dict.values] at hv

/-- the balance is `g(t) - d(t)` -/
theorem hourly_balance (var : String → String → Option Int → Option Int → ℚ) (t s : Int) :
    mden ((hourly ts).readAs ((hourly ts).unwrapped var) busN) (.agg (.portField "balance" "flow") .portSum) t s =
      -(hourly ts).dataValue "D" "d" (some t) none + var "G" "g" (some t) none := by
  have h1 : linkH.hasField "flow" := ⟨flowType, rfl, by simp [flowType]⟩
  have h2 : link2.hasField "flow" := ⟨flowType, rfl, by simp [flowType]⟩
  have v1 : ∀ D, linkH.value D "flow" = mden (componentCtx D "G" noPorts) (.var "g") := fun D => rfl
  have v2 : ∀ D, link2.value D "flow" = mden (componentCtx D "D" noPorts) (.neg (.par "d")) := fun D => rfl
  show (((attached ((hourly ts).unwrapped var) [linkH, link2] "N") "balance" "flow").map fun v => v t s).sum = _
  simp only [attached, List.flatMap_cons, List.flatMap_nil, PortsConnection.brings, h1, h2, if_true, List.append_nil, v1, v2]
  have e1 : ∀ D : DenCtx, mden (componentCtx D "G" noPorts) (.var "g") t s =
    D.env.var "G" "g" (atT (D.vidx "G" "g") t) (atS (D.vidx "G" "g") s) := fun _ => rfl
  have e2 : ∀ D : DenCtx, mden (componentCtx D "D" noPorts) (.neg (.par "d")) t s =
    -D.env.par "D" "d" (atT (D.pidx "D" "d") t) (atS (D.pidx "D" "d") s) := fun _ => rfl
  simp [linkH, link2, busN, unitH, demandD, e1, e2]
  have i1 : (hourly ts).varIdx "G" "g" = ⟨true, false⟩ := rfl
  have i2 : (hourly ts).parIdx "D" "d" = ⟨true, false⟩ := rfl
  show var "G" "g" (atT ((hourly ts).varIdx "G" "g") t) (atS ((hourly ts).varIdx "G" "g") s) +
    -(hourly ts).dataValue "D" "d" (atT ((hourly ts).parIdx "D" "d") t) (atS ((hourly ts).parIdx "D" "d") s) = _
  rw [i1, i2]
  simp only [atT, atS]
  simp
  ring

theorem hourly_constraintsOk : (hourly ts).ConstraintsOk := by
  have hall : ∀ {c k}, c ∈ (hourly ts).network.allComponents → k ∈ (hourly ts).strategy.getConstraints c.model →
      (c = busN ∧ k = { name := "balance", expression := .agg (.portField "balance" "flow") .portSum, lowerBound := .lit 0, upperBound := .lit 0 }) ∨
      (c = unitH ∧ k = { name := "max", expression := .add [.var "g", .neg (.mul (.lit 10) (.var "on"))], upperBound := .lit 0 }) := by
    intro c k hc hk
    simp only [hourly, Network.allComponents, Dict.values, List.map_cons, List.map_nil, List.cons_append, List.nil_append,
      List.mem_cons, List.not_mem_nil, or_false] at hc
    rcases hc with rfl | rfl | rfl
    · simp only [Strategy.getConstraints, Model.allConstraints, busN, busModel, Dict.values, List.map_cons, List.map_nil, hourly, mergedStrategy,
        List.append_nil, List.nil_append, List.filter_true, List.mem_cons, List.not_mem_nil, or_false] at hk
      exact .inl ⟨rfl, hk⟩
    · simp only [Strategy.getConstraints, Model.allConstraints, unitH, hourUnit, Dict.values, List.map_cons, List.map_nil, hourly, mergedStrategy,
        List.append_nil, List.nil_append, List.filter_true, List.mem_cons, List.not_mem_nil, or_false] at hk
      exact .inr ⟨rfl, hk⟩
    · simp [Strategy.getConstraints, Model.allConstraints, demandD, demandModel, Dict.values] at hk
  refine ⟨Nat.one_pos, ?_, ?_, ?_⟩
  · intro c hc k hk
    rcases hall hc hk with ⟨rfl, rfl⟩ | ⟨rfl, rfl⟩
    · exact ⟨exprOk_of rfl, .inr (exprOk_of rfl), .inr (exprOk_of rfl)⟩
    · exact ⟨exprOk_of rfl, .inl (.inr rfl), .inr (exprOk_of rfl)⟩
  · intro c hc k hk t s ht hs
    rcases hall hc hk with ⟨rfl, rfl⟩ | ⟨rfl, rfl⟩
    · refine noTiny_of_int (-(hourly ts).dataValue "D" "d" (some t) none) [(⟨"G", "g", some t, none⟩, 1)] fun var => ?_
      rw [hourly_balance ts]
      simp
    · refine noTiny_of_int 0 [(⟨"G", "g", some t, none⟩, 1), (⟨"G", "on", some t, none⟩, -10)] fun var => ?_
      show var "G" "g" (some t) none + (-(10 * var "G" "on" (some t) none) + 0) = _
      simp
  · intro ports hp c hc k hk
    cases hp
    rcases hall hc hk with ⟨rfl, rfl⟩ | ⟨rfl, rfl⟩ <;>
    (refine ⟨fun e i he hi h b hb σ t t' s => ?_, fun e i he hi h b hb σ t t' s => ?_⟩ <;>
     (rcases hb with rfl | rfl <;> rfl))

theorem hourly_objectivesOk : (hourly ts).ObjectivesOk := by
  have hall : ∀ {c e}, c ∈ (hourly ts).network.allComponents → e ∈ (hourly ts).contributions c →
      c = unitH ∧ e = .scen (.mul (.par "cost") (.allsum (.var "g"))) .expectation := by
    intro c e hc he
    simp only [hourly, Network.allComponents, Dict.values, List.map_cons, List.map_nil, List.cons_append, List.nil_append,
      List.mem_cons, List.not_mem_nil, or_false] at hc
    rcases hc with rfl | rfl | rfl
    · cases he
    · refine ⟨rfl, ?_⟩
      have : (hourly ts).contributions unitH = [.scen (.mul (.par "cost") (.allsum (.var "g"))) .expectation] := rfl
      rw [this] at he
      simpa using he
    · cases he
  constructor
  · intro c hc e he
    obtain ⟨rfl, rfl⟩ := hall hc he
    refine ⟨exprOk_of rfl, noTiny_of_int 0 ((List.range ts.length).map fun (u : Nat) => (⟨"G", "g", some (u : Int), none⟩, 3)) fun var => ?_⟩
    have hc : (hourly ts).dataValue "G" "cost" none none = 3 := rfl
    show (∑ w ∈ Finset.range 1, (hourly ts).dataValue "G" "cost" none none * ∑ u ∈ Finset.range ts.length, var "G" "g" (some (u : Int)) none) /
      ((1 : Nat) : ℚ) = _
    rw [hc, Finset.sum_range_one]
    have : ∀ (f : Nat → ℚ) n, ∑ u ∈ Finset.range n, f u = ((List.range n).map f).sum := by
      intro f n
      induction n with
      | zero => simp
      | succ n ih => rw [Finset.sum_range_succ, List.range_succ, ih]; simp
    rw [Finset.mul_sum, this]
    simp [Function.comp_def]
  · intro c hc e he
    obtain ⟨rfl, rfl⟩ := hall hc he
    rfl

theorem hourly_regular (hts : ts ≠ []) : (hourly ts).Regular :=
  ⟨hourly_networkOk ts, hourly_dataOk ts hts, hourly_varsOk ts, hourly_constraintsOk ts, hourly_objectivesOk ts⟩

theorem hourly_closed : (hourly ts).Closed := by
  intro k hk
  simp only [hourly, List.mem_cons, List.not_mem_nil, or_false] at hk
  rw [show (hourly ts).network.allComponents = [busN, unitH, demandD] from rfl]
  rcases hk with rfl | rfl <;> simp [linkH, link2]

/-- a check of `Instant` -/
def instantExpr (x : OptCtx) (id : String) (e : Expr) : Bool := e.subs.all fun y => !y.isTimeOp && match y with
  | .var n => (x.varIdx id n).time
  | _ => true

theorem instant_of {x : OptCtx} {id : String} {e : Expr} (h : instantExpr x id e = true) : x.Instant id e := by
  unfold instantExpr at h
  rw [List.all_eq_true] at h
  refine ⟨fun y hy => ?_, fun n hn => ?_⟩
  · have := h y hy
    simp only [Bool.and_eq_true, Bool.not_eq_true'] at this
    exact this.1
  · have := h _ hn
    simp only [Bool.and_eq_true, Bool.not_eq_true'] at this
    exact this.2

/-- a check of `Unlinked` for a component, except its costs -/
def unlinkedOf (x : OptCtx) (c : Component) : Bool :=
  (x.strategy.getVariables c.model).all (·.structure_.time) &&
  ((x.strategy.getVariables c.model).flatMap fun v => v.lowerBound.toList ++ v.upperBound.toList).all (instantExpr x c.id) &&
  ((x.strategy.getConstraints c.model).flatMap fun k => [k.expression, k.lowerBound, k.upperBound]).all (instantExpr x c.id) &&
  c.model.portFieldsDefinitions.all fun d => instantExpr x c.id d.2.definition

theorem unlinked_of {x : OptCtx} (hcl : x.Closed) (h : x.network.allComponents.all (unlinkedOf x) = true)
    (ho : ∀ c ∈ x.network.allComponents, ∀ e ∈ x.contributions c, x.Summed c.id e) : x.Unlinked := by
  rw [List.all_eq_true] at h
  have h : ∀ c ∈ x.network.allComponents, _ := h
  refine ⟨fun c hc v hv => ?_, fun c hc v hv b hb => ?_, fun c hc k hk e he => ?_, ho, fun k hk q f d hq hd => ?_⟩
  · have := h c hc
    simp only [unlinkedOf, Bool.and_eq_true] at this
    exact List.all_eq_true.1 this.1.1.1 v hv
  · have := h c hc
    simp only [unlinkedOf, Bool.and_eq_true, List.all_eq_true (p := instantExpr x c.id), List.mem_flatMap, List.mem_append,
      Option.mem_toList] at this
    exact instant_of (this.1.1.2 b ⟨v, hv, hb⟩)
  · have := h c hc
    simp only [unlinkedOf, Bool.and_eq_true, List.all_eq_true (p := instantExpr x c.id), List.mem_flatMap, List.mem_cons,
      List.not_mem_nil, or_false] at this
    exact instant_of (this.1.2 e ⟨k, hk, he⟩)
  · have hc : q.component ∈ x.network.allComponents := by
      rcases hq with rfl | rfl
      · exact (hcl k hk).1
      · exact (hcl k hk).2
    have := h _ hc
    simp only [unlinkedOf, Bool.and_eq_true] at this
    have := List.all_eq_true.1 this.2
    unfold PortRef.fieldDef at hd
    obtain ⟨z, hz, rfl⟩ := Option.map_eq_some_iff.1 hd
    exact instant_of (this _ (Dict.mem_of_get? hz))

/-- the two hours together -/
def twoHours : OptCtx := hourly [4, 5]

theorem twoHours_unlinked : twoHours.Unlinked := by
  refine unlinked_of (hourly_closed _) (by decide +kernel) ?_
  intro c hc e he
  rw [show twoHours.network.allComponents = [busN, unitH, demandD] from rfl] at hc
  simp only [List.mem_cons, List.not_mem_nil, or_false] at hc
  rcases hc with rfl | rfl | rfl
  · cases he
  · rw [show twoHours.contributions unitH = [.scen (.mul (.par "cost") (.allsum (.var "g"))) .expectation] from rfl] at he
    rw [List.mem_singleton.1 he]
    refine .scen (.mulLeft (instant_of (by decide +kernel)) ?_ (.block (instant_of (by decide +kernel))))
    intro y hy
    simp only [subs, List.mem_singleton] at hy
    subst hy
    refine ⟨rfl, by simp, fun n hn => ?_⟩
    cases hn
    rfl
  · cases he

theorem twoHours_steps : ∀ k < twoHours.T, twoHours.AtStep k (hourly [[4, 5].getD k 0]) := fun k hk => c88_timesteps twoHours k hk

/-- all hypotheses of `c88_any_models` are met by the two hours and each of them -/
example (c : ℚ) : LeastCost twoHours.MathFeasible twoHours.mathCost c ↔
    ∃ cs : Nat → ℚ, (∀ k < 2, LeastCost (hourly [[4, 5].getD k 0]).MathFeasible (hourly [[4, 5].getD k 0]).mathCost (cs k)) ∧
      c = ∑ k ∈ Finset.range 2, cs k :=
  (c88_any_models twoHours (hourly_networkOk _) (hourly_closed _) (ownSymbols_of (by decide +kernel)) twoHours_unlinked Nat.one_pos _ twoHours_steps).2 c

theorem twoHours_steady : twoHours.SteadyBounds := by
  intro c hc k hk _ b hb σ t s _ _
  obtain ⟨v, rfl⟩ : ∃ v, b = .lit v := by
    rw [show twoHours.network.allComponents = [busN, unitH, demandD] from rfl] at hc
    simp only [List.mem_cons, List.not_mem_nil, or_false] at hc
    rcases hc with rfl | rfl | rfl
    · rw [show twoHours.strategy.getConstraints busN.model = busModel.allConstraints from rfl] at hk
      simp only [Model.allConstraints, busModel, Dict.values, List.map_cons, List.map_nil, List.nil_append, List.mem_cons, List.not_mem_nil, or_false] at hk
      subst hk
      rcases hb with rfl | rfl <;> exact ⟨_, rfl⟩
    · rw [show twoHours.strategy.getConstraints unitH.model = hourUnit.allConstraints from rfl] at hk
      simp only [Model.allConstraints, hourUnit, Dict.values, List.map_cons, List.map_nil, List.nil_append, List.mem_cons, List.not_mem_nil, or_false] at hk
      subst hk
      rcases hb with rfl | rfl <;> exact ⟨_, rfl⟩
    · cases hk
  cases v <;> simp [mden]

/-- all hypotheses of `c88_kept` are met by the two hours and each of them -/
example (c : ℚ) : LeastCost twoHours.KeptFeasible twoHours.keptCost c ↔
    ∃ cs : Nat → ℚ, (∀ k < 2, LeastCost (hourly [[4, 5].getD k 0]).KeptFeasible (hourly [[4, 5].getD k 0]).keptCost (cs k)) ∧
      c = ∑ k ∈ Finset.range 2, cs k :=
  (c88_kept twoHours (hourly_networkOk _) (hourly_closed _) (ownSymbols_of (by decide +kernel)) twoHours_unlinked twoHours_steady Nat.one_pos _
    twoHours_steps).2 c

/-- all hypotheses of `c88_problem_partial` are met: the three problems are built, and a right solver of the first finds the sum -/
example (solve : Solver → Answer) (hs : RightSolver solve) : ∃ st st0 st1, twoHours.buildProblem = .ok st ∧ (hourly [4]).buildProblem = .ok st0 ∧
    (hourly [5]).buildProblem = .ok st1 ∧
      ((solve st.solver).status = 0 → (solve st.solver).value = (solve st0.solver).value + (solve st1.solver).value) := by
  obtain ⟨st, h⟩ := built_of (x := twoHours) (by decide +kernel)
  obtain ⟨st0, h0⟩ := built_of (x := hourly [4]) (by decide +kernel)
  obtain ⟨st1, h1⟩ := built_of (x := hourly [5]) (by decide +kernel)
  refine ⟨st, st0, st1, h, h0, h1, fun hopt => ?_⟩
  have := ((c88_problem_partial twoHours (Regular.expressible (hourly_regular _ (by simp))) (hourly_closed _) (ownSymbols_of (by decide +kernel)) twoHours_unlinked
    twoHours_steady _ twoHours_steps (fun k hk => (Regular.expressible (hourly_regular _ (by simp)))) st (fun k => if k = 0 then st0 else st1) h (fun k hk => by
      have hk : k < 2 := hk
      interval_cases k
      · exact h0
      · exact h1)).2 solve hs).2 hopt
  rw [this]
  show ∑ k ∈ Finset.range 2, _ = _
  rw [Finset.sum_range_succ, Finset.sum_range_one]
  rfl

end Verif.Props
