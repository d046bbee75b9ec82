import Verif.Props.ScenariosAny
import Verif.Props.SameProblemExamples

/-! Examples for C81 on any models: a unit, a bus and a load that depends on the scenario. -/

namespace Verif.Props
open Verif Verif.Expr Verif.OptCtx

/-- a unit that produces in each scenario, at an expected cost -/
def weatherUnit : Model :=
  { id := "UNIT"
    parameters := [("pmax", ⟨"pmax", .continuous, ⟨false, false⟩⟩), ("cost", ⟨"cost", .continuous, ⟨false, false⟩⟩)]
    variables_ :=
      [("g", ⟨"g", .continuous, some (.lit 0), some (.par "pmax"), ⟨true, true⟩, .operational⟩),
       ("on", ⟨"on", .boolean, none, none, ⟨true, true⟩, .operational⟩)]
    constraints := [("max", { name := "max", expression := .add [.var "g", .neg (.mul (.lit 10) (.var "on"))], upperBound := .lit 0 })]
    objectiveOperational := some (.mul (.par "cost") (.scen (.allsum (.var "g")) .expectation))
    ports := [("balance", ⟨flowType, "balance"⟩)]
    portFieldsDefinitions := [(⟨"balance", "flow"⟩, ⟨⟨"balance", "flow"⟩, .var "g"⟩)] }

/-- a load that depends on the scenario -/
def weatherLoad : Model :=
  { id := "DEMAND"
    parameters := [("d", ⟨"d", .continuous, ⟨false, true⟩⟩)]
    ports := [("balance", ⟨flowType, "balance"⟩)]
    portFieldsDefinitions := [(⟨"balance", "flow"⟩, ⟨⟨"balance", "flow"⟩, .neg (.par "d")⟩)] }

def unitW : Component := ⟨weatherUnit, "G"⟩
def demandW : Component := ⟨weatherLoad, "D"⟩
def linkW : PortsConnection := ⟨⟨busN, "balance"⟩, ⟨unitW, "balance"⟩, [("flow", ⟨unitW, "balance"⟩)]⟩
def linkV : PortsConnection := ⟨⟨busN, "balance"⟩, ⟨demandW, "balance"⟩, [("flow", ⟨demandW, "balance"⟩)]⟩

/-- `n` scenarios, with the load of the scenarios that `z` tells -/
def seasons (n : Nat) (z : Option Scenarization) : OptCtx where
  network := ⟨"net", [("N", busN)], [("G", unitW), ("D", demandW)], [linkW, linkV]⟩
  database := [(("G", "pmax"), .const 9), (("G", "cost"), .const 12), (("D", "d"), .scenarioSeries [(4, 6), (5, 8)] z)]
  timesteps := [0]
  scenarios := n

variable (n : Nat) (z : Option Scenarization)

theorem seasons_networkOk : (seasons n z).NetworkOk := by
  refine ⟨show (["N", "G", "D"] : List String).Nodup by decide, ?_, ?_, ?_, ?_, ?_⟩
  · intro k c h
    simp only [seasons, List.mem_cons, Prod.mk.injEq, List.not_mem_nil, or_false] at h
    rcases h with ⟨rfl, rfl⟩ | ⟨rfl, rfl⟩ | ⟨rfl, rfl⟩ <;> rfl
  · intro c hc n v h
    simp only [seasons, Network.allComponents, Dict.values, List.map_cons, List.map_nil, List.cons_append, List.nil_append,
      List.mem_cons, List.not_mem_nil, or_false] at hc
    rcases hc with rfl | rfl | rfl
    · simp [busN, busModel] at h
    · simp only [unitW, weatherUnit, List.mem_cons, Prod.mk.injEq, List.not_mem_nil, or_false] at h
      rcases h with ⟨rfl, rfl⟩ | ⟨rfl, rfl⟩ <;> rfl
    · simp [demandW, weatherLoad] at h
  · intro c hc
    simp only [seasons, Network.allComponents, Dict.values, List.map_cons, List.map_nil, List.cons_append, List.nil_append,
      List.mem_cons, List.not_mem_nil, or_false] at hc
    rcases hc with rfl | rfl | rfl <;> decide
  · intro c hc
    simp only [seasons, List.mem_cons, List.not_mem_nil, or_false] at hc
    rcases hc with rfl | rfl
    · refine ⟨rfl, ?_, ?_⟩ <;> intro k p h <;> simp [linkW, busN, unitW, busModel, weatherUnit] at h <;> rw [← h.2, ← h.1]
    · refine ⟨rfl, ?_, ?_⟩ <;> intro k p h <;> simp [linkV, busN, demandW, busModel, weatherLoad] at h <;> rw [← h.2, ← h.1]
  · intro c hc r f d hr hd
    simp only [seasons, List.mem_cons, List.not_mem_nil, or_false] at hc
    have hg : ∀ {f d}, PortRef.fieldDef ⟨unitW, "balance"⟩ f = some d → d = .var "g" := by
      intro f d h
      simp only [PortRef.fieldDef, unitW, weatherUnit, Dict.get?] at h
      split_ifs at h
      · simpa using h.symm
      · cases h
    have hdm : ∀ {f d}, PortRef.fieldDef ⟨demandW, "balance"⟩ f = some d → d = .neg (.par "d") := by
      intro f d h
      simp only [PortRef.fieldDef, demandW, weatherLoad, Dict.get?] at h
      split_ifs at h
      · simpa using h.symm
      · cases h
    have hn : ∀ {f d}, PortRef.fieldDef ⟨busN, "balance"⟩ f = some d → False := by
      intro f d h
      simp [PortRef.fieldDef, busN, busModel, Dict.get?] at h
    rcases hc with rfl | rfl <;> rcases hr with rfl | rfl
    · exact absurd hd (fun h => hn h)
    · obtain rfl := hg hd
      refine ⟨by simp [subs, isPortRef, isCmp, hasComponent], by simp [subs], ?_, by simp [subs, isTimeFixing, isScen]⟩
      intro v h
      simp [subs] at h
    · exact absurd hd (fun h => hn h)
    · obtain rfl := hdm hd
      refine ⟨by simp [subs, isPortRef, isCmp, hasComponent], by simp [subs], ?_, by simp [subs, isTimeFixing, isScen]⟩
      intro v h
      simp [subs] at h

theorem seasons_dataOk : (seasons n z).DataOk := by
  have hdb : ∀ {c p d}, (seasons n z).database.get? (c, p) = some d →
      (c = "G" ∧ p = "pmax" ∧ d = .const 9) ∨ (c = "G" ∧ p = "cost" ∧ d = .const 12) ∨
      (c = "D" ∧ p = "d" ∧ d = .scenarioSeries [(4, 6), (5, 8)] z) := by
    intro c p d h
    simp only [seasons, Dict.get?] at h
    split_ifs at h with h1 h2 h3
    · cases h1; cases h; simp
    · cases h2; cases h; simp
    · cases h3; cases h; simp
  refine ⟨rfl, by simp [seasons], ?_, ?_, ?_⟩
  · intro c p d h t s v hv
    rcases hdb h with ⟨rfl, rfl, rfl⟩ | ⟨rfl, rfl, rfl⟩ | ⟨rfl, rfl, rfl⟩
    · cases hv; rfl
    · cases hv; rfl
    · unfold Data.getValue at hv
      cases s with
      | none => cases hv
      | some s =>
        have hv : (applyScenarization z s >>= fun s => Dict.get [((4 : Int), (6 : Num)), (5, 8)] s) = .ok v := hv
        cases ha : applyScenarization z s with
        | error e => rw [ha] at hv; cases hv
        | ok s =>
          rw [ha] at hv
          have hv : Dict.get [((4 : Int), (6 : Num)), (5, 8)] s = .ok v := hv
          simp only [Dict.get, Dict.get?] at hv
          split_ifs at hv
          · cases hv; rfl
          · cases hv; rfl
  · intro c p k q d hc hp h hd
    rcases hdb h with ⟨rfl, rfl, rfl⟩ | ⟨rfl, rfl, rfl⟩ | ⟨rfl, rfl, rfl⟩ <;> cases hd
  · intro c p k q d hc hp h hd
    rcases hdb h with ⟨rfl, rfl, rfl⟩ | ⟨rfl, rfl, rfl⟩ | ⟨rfl, rfl, rfl⟩
    · cases hd
    · cases hd
    · cases hc; cases hp; rfl

theorem seasons_varsOk : (seasons n z).VarsOk := by
  constructor
  · intro c hc v hv b hb
    simp only [seasons, Network.allComponents, Dict.values, List.map_cons, List.map_nil, List.cons_append, List.nil_append,
      List.mem_cons, List.not_mem_nil, or_false] at hc
    rcases hc with rfl | rfl | rfl
    · simp [Strategy.getVariables, busN, busModel, Dict.values] at hv
    · simp only [Strategy.getVariables, unitW, weatherUnit, Dict.values, List.map_cons, List.map_nil, seasons, mergedStrategy,
        List.filter_true, List.mem_cons, List.not_mem_nil, or_false] at hv
      rcases hv with rfl | rfl
      · simp only [Option.some.injEq] at hb
        rcases hb with rfl | rfl <;> exact .inr (exprOk_of rfl)
      · simp at hb
    · simp [Strategy.getVariables, demandW, weatherLoad, Dict.values] at hv
  · intro c hc v hv hty σ q t s hq
    simp only [seasons, Network.allComponents, Dict.values, List.map_cons, List.map_nil, List.cons_append, List.nil_append,
      List.mem_cons, List.not_mem_nil, or_false] at hc
    rcases hc with rfl | rfl | rfl
    · simp [Strategy.getVariables, busN, busModel, Dict.values] at hv
    · simp only [Strategy.getVariables, unitW, weatherUnit, Dict.values, List.map_cons, List.map_nil, seasons, mergedStrategy,
        List.filter_true, List.mem_cons, List.not_mem_nil, or_false] at hv
      rcases hv with rfl | rfl
      · cases hty
      · exact ⟨trivial, trivial⟩
    · simp [Strategy.getVariables, demandW, weatherLoad, Dict.values] at hv

/-- the balance is `g(t) - d(t)` -/
theorem seasons_balance (var : String → String → Option Int → Option Int → ℚ) (t s : Int) :
    mden ((seasons n z).readAs ((seasons n z).unwrapped var) busN) (.agg (.portField "balance" "flow") .portSum) t s =
      -(seasons n z).dataValue "D" "d" none (some s) + var "G" "g" (some t) (some s) := by
  have h1 : linkW.hasField "flow" := ⟨flowType, rfl, by simp [flowType]⟩
  have h2 : linkV.hasField "flow" := ⟨flowType, rfl, by simp [flowType]⟩
  have v1 : ∀ D, linkW.value D "flow" = mden (componentCtx D "G" noPorts) (.var "g") := fun D => rfl
  have v2 : ∀ D, linkV.value D "flow" = mden (componentCtx D "D" noPorts) (.neg (.par "d")) := fun D => rfl
  show (((attached ((seasons n z).unwrapped var) [linkW, linkV] "N") "balance" "flow").map fun v => v t s).sum = _
  simp only [attached, List.flatMap_cons, List.flatMap_nil, PortsConnection.brings, h1, h2, if_true, List.append_nil, v1, v2]
  have e1 : ∀ D : DenCtx, mden (componentCtx D "G" noPorts) (.var "g") t s =
    D.env.var "G" "g" (atT (D.vidx "G" "g") t) (atS (D.vidx "G" "g") s) := fun _ => rfl
  have e2 : ∀ D : DenCtx, mden (componentCtx D "D" noPorts) (.neg (.par "d")) t s =
    -D.env.par "D" "d" (atT (D.pidx "D" "d") t) (atS (D.pidx "D" "d") s) := fun _ => rfl
  simp [linkW, linkV, busN, unitW, demandW, e1, e2]
  have i1 : (seasons n z).varIdx "G" "g" = ⟨true, true⟩ := rfl
  have i2 : (seasons n z).parIdx "D" "d" = ⟨false, true⟩ := rfl
  show var "G" "g" (atT ((seasons n z).varIdx "G" "g") t) (atS ((seasons n z).varIdx "G" "g") s) +
    -(seasons n z).dataValue "D" "d" (atT ((seasons n z).parIdx "D" "d") t) (atS ((seasons n z).parIdx "D" "d") s) = _
  rw [i1, i2]
  simp only [atT, atS]
  simp
  ring

theorem seasons_constraintsOk (hn : 0 < n) : (seasons n z).ConstraintsOk := by
  have hall : ∀ {c k}, c ∈ (seasons n z).network.allComponents → k ∈ (seasons n z).strategy.getConstraints c.model →
      (c = busN ∧ k = { name := "balance", expression := .agg (.portField "balance" "flow") .portSum, lowerBound := .lit 0, upperBound := .lit 0 }) ∨
      (c = unitW ∧ k = { name := "max", expression := .add [.var "g", .neg (.mul (.lit 10) (.var "on"))], upperBound := .lit 0 }) := by
    intro c k hc hk
    simp only [seasons, Network.allComponents, Dict.values, List.map_cons, List.map_nil, List.cons_append, List.nil_append,
      List.mem_cons, List.not_mem_nil, or_false] at hc
    rcases hc with rfl | rfl | rfl
    · simp only [Strategy.getConstraints, Model.allConstraints, busN, busModel, Dict.values, List.map_cons, List.map_nil, seasons, mergedStrategy,
        List.append_nil, List.nil_append, List.filter_true, List.mem_cons, List.not_mem_nil, or_false] at hk
      exact .inl ⟨rfl, hk⟩
    · simp only [Strategy.getConstraints, Model.allConstraints, unitW, weatherUnit, Dict.values, List.map_cons, List.map_nil, seasons, mergedStrategy,
        List.append_nil, List.nil_append, List.filter_true, List.mem_cons, List.not_mem_nil, or_false] at hk
      exact .inr ⟨rfl, hk⟩
    · simp [Strategy.getConstraints, Model.allConstraints, demandW, weatherLoad, Dict.values] at hk
  refine ⟨hn, ?_, ?_, ?_⟩
  · intro c hc k hk
    rcases hall hc hk with ⟨rfl, rfl⟩ | ⟨rfl, rfl⟩
    · exact ⟨exprOk_of rfl, .inr (exprOk_of rfl), .inr (exprOk_of rfl)⟩
    · exact ⟨exprOk_of rfl, .inl (.inr rfl), .inr (exprOk_of rfl)⟩
  · intro c hc k hk t s ht hs
    rcases hall hc hk with ⟨rfl, rfl⟩ | ⟨rfl, rfl⟩
    · refine noTiny_of_int (-(seasons n z).dataValue "D" "d" none (some s)) [(⟨"G", "g", some t, some s⟩, 1)] fun var => ?_
      rw [seasons_balance n z]
      simp
    · refine noTiny_of_int 0 [(⟨"G", "g", some t, some s⟩, 1), (⟨"G", "on", some t, some s⟩, -10)] fun var => ?_
      show var "G" "g" (some t) (some s) + (-(10 * var "G" "on" (some t) (some s)) + 0) = _
      simp
  · intro ports hp c hc k hk
    cases hp
    rcases hall hc hk with ⟨rfl, rfl⟩ | ⟨rfl, rfl⟩ <;>
    (refine ⟨fun e i he hi h b hb σ t t' s => ?_, fun e i he hi h b hb σ t t' s => ?_⟩ <;>
     (rcases hb with rfl | rfl <;> rfl))

theorem seasons_objectivesOk (hn : n = 1 ∨ n = 2) : (seasons n z).ObjectivesOk := by
  have hall : ∀ {c e}, c ∈ (seasons n z).network.allComponents → e ∈ (seasons n z).contributions c →
      c = unitW ∧ e = .mul (.par "cost") (.scen (.allsum (.var "g")) .expectation) := by
    intro c e hc he
    simp only [seasons, Network.allComponents, Dict.values, List.map_cons, List.map_nil, List.cons_append, List.nil_append,
      List.mem_cons, List.not_mem_nil, or_false] at hc
    rcases hc with rfl | rfl | rfl
    · cases he
    · refine ⟨rfl, ?_⟩
      have : (seasons n z).contributions unitW = [.mul (.par "cost") (.scen (.allsum (.var "g")) .expectation)] := rfl
      rw [this] at he
      simpa using he
    · cases he
  constructor
  · intro c hc e he
    obtain ⟨rfl, rfl⟩ := hall hc he
    refine ⟨exprOk_of rfl, ?_⟩
    have hc : (seasons n z).dataValue "G" "cost" none none = 12 := rfl
    have hval : ∀ var : String → String → Option Int → Option Int → ℚ, mden ((seasons n z).readAs ((seasons n z).unwrapped var) unitW)
        (.mul (.par "cost") (.scen (.allsum (.var "g")) .expectation)) 0 0 = 12 * ((∑ w ∈ Finset.range n, var "G" "g" (some 0) (some (w : Int))) / n) := by
      intro var
      show (seasons n z).dataValue "G" "cost" none none * ((∑ w ∈ Finset.range n, ∑ u ∈ Finset.range 1, var "G" "g" (some (u : Int)) (some (w : Int))) /
        (n : ℚ)) = _
      rw [hc]
      simp only [Finset.sum_range_one]
      rfl
    rcases hn with rfl | rfl
    · refine noTiny_of_int 0 [(⟨"G", "g", some 0, some 0⟩, 12)] fun var => ?_
      rw [hval]
      simp
    · refine noTiny_of_int 0 [(⟨"G", "g", some 0, some 0⟩, 6), (⟨"G", "g", some 0, some 1⟩, 6)] fun var => ?_
      rw [hval, Finset.sum_range_succ, Finset.sum_range_one]
      simp
      ring
  · intro c hc e he
    obtain ⟨rfl, rfl⟩ := hall hc he
    rfl

theorem seasons_regular (hn : n = 1 ∨ n = 2) : (seasons n z).Regular :=
  ⟨seasons_networkOk n z, seasons_dataOk n z, seasons_varsOk n z, seasons_constraintsOk n z (by omega), seasons_objectivesOk n z hn⟩

theorem seasons_closed : (seasons n z).Closed := by
  intro k hk
  simp only [seasons, List.mem_cons, List.not_mem_nil, or_false] at hk
  rw [show (seasons n z).network.allComponents = [busN, unitW, demandW] from rfl]
  rcases hk with rfl | rfl <;> simp [linkW, linkV]

/-- a check of `PerScenario` for expressions without shifts -/
def plainExpr (e : Expr) : Bool := e.subs.all fun y => !y.isScen && match y with
  | .shift .. => false
  | .evalT .. => false
  | .tsum .. => false
  | _ => true

theorem perScenario_of {x : OptCtx} {id : String} {e : Expr} (h : plainExpr e = true) : x.PerScenario id e := by
  unfold plainExpr at h
  rw [List.all_eq_true] at h
  refine ⟨fun y hy => ?_, fun y k hy => ?_, fun y k hy => ?_, fun y a b hy => ?_⟩
  · have := h y hy
    simp only [Bool.and_eq_true, Bool.not_eq_true'] at this
    exact this.1
  all_goals
    have := h _ hy
    simp at this

/-- a check of `Separate` for a component, except its costs -/
def separateOf (x : OptCtx) (c : Component) : Bool :=
  ((x.strategy.getVariables c.model).flatMap fun v => v.lowerBound.toList ++ v.upperBound.toList).all plainExpr &&
  ((x.strategy.getConstraints c.model).flatMap fun k => [k.expression, k.lowerBound, k.upperBound]).all plainExpr &&
  c.model.portFieldsDefinitions.all fun d => plainExpr d.2.definition

theorem separate_of {x : OptCtx} (hcl : x.Closed) (h : x.network.allComponents.all (separateOf x) = true)
    (ho : ∀ c ∈ x.network.allComponents, ∀ e ∈ x.contributions c, x.Expected c.id e) : x.Separate := by
  rw [List.all_eq_true] at h
  have h : ∀ c ∈ x.network.allComponents, _ := h
  refine ⟨fun c hc v hv b hb => ?_, fun c hc k hk e he => ?_, ho, fun k hk q f d hq hd => ?_⟩
  · have := h c hc
    simp only [separateOf, Bool.and_eq_true, List.all_eq_true (p := plainExpr), List.mem_flatMap, List.mem_append,
      Option.mem_toList] at this
    exact perScenario_of (this.1.1 b ⟨v, hv, hb⟩)
  · have := h c hc
    simp only [separateOf, Bool.and_eq_true, List.all_eq_true (p := plainExpr), List.mem_flatMap, List.mem_cons,
      List.not_mem_nil, or_false] at this
    exact perScenario_of (this.1.2 e ⟨k, hk, he⟩)
  · have hc : q.component ∈ x.network.allComponents := by
      rcases hq with rfl | rfl
      · exact (hcl k hk).1
      · exact (hcl k hk).2
    have := h _ hc
    simp only [separateOf, Bool.and_eq_true] at this
    have := List.all_eq_true.1 this.2
    unfold PortRef.fieldDef at hd
    obtain ⟨z, hz, rfl⟩ := Option.map_eq_some_iff.1 hd
    exact perScenario_of (this _ (Dict.mem_of_get? hz))

/-- two scenarios, the first one with the load of column 5, the second one with that of column 4 -/
def twoWeathers : OptCtx := seasons 2 (some [(0, 5), (1, 4)])

theorem twoWeathers_cases {c : Component} (hc : c ∈ twoWeathers.network.allComponents) : c = busN ∨ c = unitW ∨ c = demandW := by
  rw [show twoWeathers.network.allComponents = [busN, unitW, demandW] from rfl] at hc
  simpa using hc

theorem twoWeathers_separate : twoWeathers.Separate := by
  refine separate_of (seasons_closed _ _) (by decide +kernel) ?_
  intro c hc e he
  rcases twoWeathers_cases hc with rfl | rfl | rfl
  · cases he
  · rw [show twoWeathers.contributions unitW = [.mul (.par "cost") (.scen (.allsum (.var "g")) .expectation)] from rfl] at he
    rw [List.mem_singleton.1 he]
    refine .mulLeft (perScenario_of (by decide +kernel)) ?_ (.scen (perScenario_of (by decide +kernel)))
    intro y hy
    simp only [subs, List.mem_singleton] at hy
    subst hy
    refine ⟨rfl, by simp, fun n hn => ?_⟩
    cases hn
    rfl
  · cases he

/-- the load in scenario `k` alone -/
theorem twoWeathers_scenarios : ∀ k < twoWeathers.scenarios, twoWeathers.InScenario k (seasons 1 (some (column k (some [(0, 5), (1, 4)])))) :=
  fun k _ => c81_one_scenario twoWeathers k

example : column (0 : Nat) (some [(0, 5), (1, 4)]) = [(0, 5)] ∧ column (1 : Nat) (some [(0, 5), (1, 4)]) = [(0, 4)] := by decide

/-- a check of `ChosenPerScenario` for a component -/
def chosenOf (x : OptCtx) (c : Component) : Bool :=
  let known := fun e : Expr => e.subs.all fun y => match y with
    | .var n => (x.varIdx c.id n).scenario
    | _ => true
  (x.strategy.getVariables c.model).all (·.structure_.scenario) &&
  ((x.strategy.getVariables c.model).flatMap fun v => v.lowerBound.toList ++ v.upperBound.toList).all known &&
  ((x.strategy.getConstraints c.model).flatMap fun k => [k.expression, k.lowerBound, k.upperBound]).all known &&
  (x.contributions c).all known && c.model.portFieldsDefinitions.all fun d => known d.2.definition

theorem chosen_of {x : OptCtx} (h : x.network.allComponents.all (chosenOf x) = true) : x.ChosenPerScenario := by
  rw [List.all_eq_true] at h
  have h : ∀ c ∈ x.network.allComponents, _ := h
  have known : ∀ {c : Component} {e : Expr}, (e.subs.all fun y => match y with | .var n => (x.varIdx c.id n).scenario | _ => true) = true →
      ∀ n, .var n ∈ e.subs → (x.varIdx c.id n).scenario = true := fun he n hn => List.all_eq_true.1 he _ hn
  refine ⟨fun c hc v hv => ?_, fun c hc e he => ?_⟩
  · have := h c hc
    simp only [chosenOf, Bool.and_eq_true] at this
    exact List.all_eq_true.1 this.1.1.1.1 v hv
  · have := h c hc
    simp only [chosenOf, Bool.and_eq_true] at this
    cases he with
    | bound hv hb =>
      refine known (List.all_eq_true.1 this.1.1.1.2 _ ?_)
      simp only [List.mem_flatMap, List.mem_append, Option.mem_toList]
      exact ⟨_, hv, hb⟩
    | constraint hk hb =>
      refine known (List.all_eq_true.1 this.1.1.2 _ ?_)
      simp only [List.mem_flatMap, List.mem_cons, List.not_mem_nil, or_false]
      exact ⟨_, hk, hb⟩
    | objective he => exact known (List.all_eq_true.1 this.1.2 _ he)
    | port hk hq hc hd =>
      subst hc
      unfold PortRef.fieldDef at hd
      obtain ⟨z, hz, rfl⟩ := Option.map_eq_some_iff.1 hd
      exact known (List.all_eq_true.1 this.2 _ (Dict.mem_of_get? hz))

theorem twoWeathers_chosen : twoWeathers.ChosenPerScenario := chosen_of (by decide +kernel)

/-- all hypotheses of `c81_any_models` are met by the two scenarios and each of them -/
example (c : ℚ) : LeastCost twoWeathers.MathFeasible twoWeathers.mathCost c ↔
    ∃ cs : Nat → ℚ, (∀ k : Nat, k < 2 → LeastCost (seasons 1 (some (column k (some [(0, 5), (1, 4)])))).MathFeasible
      (seasons 1 (some (column k (some [(0, 5), (1, 4)])))).mathCost (cs k)) ∧ c = average 2 cs :=
  (c81_any_models twoWeathers (seasons_networkOk _ _) (seasons_closed _ _) (ownSymbols_of (by decide +kernel)) twoWeathers_separate
    Nat.two_pos _ twoWeathers_scenarios).2.2 twoWeathers_chosen c

/-- a check of `SureBounds`: bounds do not depend on the scenario where the expression does not -/
def sureOf (x : OptCtx) (c : Component) : Bool := (x.strategy.getConstraints c.model).all fun k => (x.dependence c k.expression).scenario ||
  (!(x.dependence c k.lowerBound).scenario && !(x.dependence c k.upperBound).scenario)

theorem sureBounds_of {x : OptCtx} (hn : x.NetworkOk) (ho : x.OwnSymbols) (h : x.network.allComponents.all (sureOf x) = true) : x.SureBounds := by
  simp only [sureOf, List.all_eq_true] at h
  intro c hc k hk hd b hb σ t s _ _
  have := h c hc k hk
  rw [hd, Bool.false_or, Bool.and_eq_true, Bool.not_eq_true', Bool.not_eq_true'] at this
  rcases hb with rfl | rfl
  · exact dependence_scenario hn _ (ho.constraints c hc k hk _ (.inr (.inl rfl))) this.1 _ _ _
  · exact dependence_scenario hn _ (ho.constraints c hc k hk _ (.inr (.inr rfl))) this.2 _ _ _

theorem twoWeathers_sure : twoWeathers.SureBounds := sureBounds_of (seasons_networkOk _ _) (ownSymbols_of (by decide +kernel)) (by decide +kernel)

/-- all hypotheses of `c81_kept` are met -/
example (c : ℚ) : LeastCost twoWeathers.KeptFeasible twoWeathers.keptCost c ↔
    ∃ cs : Nat → ℚ, (∀ k : Nat, k < 2 → LeastCost (seasons 1 (some (column k (some [(0, 5), (1, 4)])))).KeptFeasible
      (seasons 1 (some (column k (some [(0, 5), (1, 4)])))).keptCost (cs k)) ∧ c = average 2 cs :=
  ((c81_kept twoWeathers (seasons_networkOk _ _) (seasons_closed _ _) (ownSymbols_of (by decide +kernel)) twoWeathers_separate
    twoWeathers_sure Nat.two_pos _ twoWeathers_scenarios).2 (fun c hc e he => ((seasons_objectivesOk _ _ (.inr rfl)).exprs c hc e he).2)
    fun k _ c hc e he => ((seasons_objectivesOk _ _ (.inl rfl)).exprs c hc e he).2).2.2 twoWeathers_chosen c

/-- all hypotheses of `c81_problem_partial` are met: the three problems are built, and a right solver of the first finds the average -/
example (solve : Solver → Answer) (hs : RightSolver solve) : ∃ st st0 st1, twoWeathers.buildProblem = .ok st ∧
    (seasons 1 (some [(0, 5)])).buildProblem = .ok st0 ∧ (seasons 1 (some [(0, 4)])).buildProblem = .ok st1 ∧
      ((solve st.solver).status = 0 → (solve st.solver).value = ((solve st0.solver).value + (solve st1.solver).value) / 2) := by
  obtain ⟨st, h⟩ := built_of (x := twoWeathers) (by decide +kernel)
  obtain ⟨st0, h0⟩ := built_of (x := seasons 1 (some [(0, 5)])) (by decide +kernel)
  obtain ⟨st1, h1⟩ := built_of (x := seasons 1 (some [(0, 4)])) (by decide +kernel)
  refine ⟨st, st0, st1, h, h0, h1, fun hopt => ?_⟩
  have := ((c81_problem_partial twoWeathers (Regular.expressible (seasons_regular _ _ (.inr rfl))) (seasons_closed _ _)
    (ownSymbols_of (by decide +kernel)) twoWeathers_separate twoWeathers_sure (fun c hc e he => ((seasons_objectivesOk _ _ (.inr rfl)).exprs c hc e he).2) _
    twoWeathers_scenarios (fun k hk => Regular.expressible (seasons_regular _ _ (.inl rfl)))
    (fun k _ c hc e he => ((seasons_objectivesOk _ _ (.inl rfl)).exprs c hc e he).2) st (fun k => if k = 0 then st0 else st1) h
    (fun k hk => by
      have hk : k < 2 := hk
      interval_cases k
      · exact h0
      · exact h1) solve hs).2 twoWeathers_chosen).2 hopt
  rw [this]
  show average 2 _ = _
  unfold average
  rw [Finset.sum_range_succ, Finset.sum_range_one]
  rfl

end Verif.Props
