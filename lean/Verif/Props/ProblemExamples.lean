import Verif.Props.Problem
import Verif.Lemmas.ExprCheck

/-! A concrete study that satisfies the hypotheses of C30, C33, C34 and C35, and witnesses of the deviations. -/

namespace Verif.Props
open Verif Verif.Expr Verif.OptCtx

/-! ## A study: a node, a generator and a load, two timesteps -/

/-- balance of the node: the flows sum to zero -/
def busModel : Model :=
  { id := "BUS"
    constraints := [("balance", { name := "balance", expression := .agg (.portField "balance" "flow") .portSum, lowerBound := .lit 0, upperBound := .lit 0 })]
    ports := [("balance", ⟨flowType, "balance"⟩)] }

/-- a unit with an on/off status and an integer number `n` of parts, a ramp constraint, and a cost of 3 per unit -/
def unitModel : Model :=
  { id := "UNIT"
    parameters := [("pmax", ⟨"pmax", .continuous, ⟨true, false⟩⟩), ("cost", ⟨"cost", .continuous, ⟨false, false⟩⟩)]
    variables_ :=
      [("g", ⟨"g", .continuous, some (.lit 0), some (.par "pmax"), ⟨true, false⟩, .operational⟩),
       ("on", ⟨"on", .boolean, none, none, ⟨true, false⟩, .operational⟩),
       ("n", ⟨"n", .integer, some (.lit 0), none, ⟨false, false⟩, .operational⟩)]
    constraints :=
      [("max", { name := "max", expression := .add [.var "g", .neg (.mul (.lit 10) (.var "on"))], upperBound := .lit 0 }),
       ("ramp", { name := "ramp", expression := .add [.var "g", .neg (.shift (.var "g") (.lit (-1)))], lowerBound := .lit (-5), upperBound := .lit 5 }),
       ("parts", { name := "parts", expression := .var "n", lowerBound := .par "cost" })]
    objectiveOperational := some (.allsum (.mul (.par "cost") (.var "g")))
    ports := [("balance", ⟨flowType, "balance"⟩)]
    portFieldsDefinitions := [(⟨"balance", "flow"⟩, ⟨⟨"balance", "flow"⟩, .var "g"⟩)] }

def demandModel : Model :=
  { id := "DEMAND"
    parameters := [("d", ⟨"d", .continuous, ⟨true, false⟩⟩)]
    ports := [("balance", ⟨flowType, "balance"⟩)]
    portFieldsDefinitions := [(⟨"balance", "flow"⟩, ⟨⟨"balance", "flow"⟩, .neg (.par "d")⟩)] }

def busN : Component := ⟨busModel, "N"⟩
def unitG : Component := ⟨unitModel, "G"⟩
def demandD : Component := ⟨demandModel, "D"⟩
def link1 : PortsConnection := ⟨⟨busN, "balance"⟩, ⟨unitG, "balance"⟩, [("flow", ⟨unitG, "balance"⟩)]⟩
def link2 : PortsConnection := ⟨⟨busN, "balance"⟩, ⟨demandD, "balance"⟩, [("flow", ⟨demandD, "balance"⟩)]⟩

/-- hours 4 and 5 -/
def study0 : OptCtx where
  network := ⟨"net", [("N", busN)], [("G", unitG), ("D", demandD)], [link1, link2]⟩
  database := [(("G", "pmax"), .timeSeries [(4, 7), (5, 9)]), (("G", "cost"), .const 3), (("D", "d"), .timeSeries [(4, 6), (5, 8)])]
  timesteps := [4, 5]
  scenarios := 1

/-- the problem is built -/
def built0 : OptState := match study0.buildProblem with
  | .ok st => st
  | .error _ => {}

theorem study0_builds : study0.buildProblem = .ok built0 := by
  have : study0.buildProblem.isOk = true := by decide +kernel
  unfold built0
  cases h : study0.buildProblem with
  | ok st => rfl
  | error e => rw [h] at this; cases this

/-- it has 5 columns and 7 rows -/
example : built0.solver.vars.length = 5 ∧ built0.solver.rows.length = 7 ∧
    built0.solver.objective = [(0, 3), (1, 3)] := by decide +kernel

theorem study0_networkOk : study0.NetworkOk := by
  refine ⟨by decide +kernel, ?_, ?_, ?_, ?_, ?_⟩
  · intro k c h
    simp only [study0, List.mem_cons, Prod.mk.injEq, List.not_mem_nil, or_false] at h
    rcases h with ⟨rfl, rfl⟩ | ⟨rfl, rfl⟩ | ⟨rfl, rfl⟩ <;> rfl
  · intro c hc n v h
    simp only [study0, Network.allComponents, Dict.values, List.map_cons, List.map_nil, List.cons_append, List.nil_append,
      List.mem_cons, List.not_mem_nil, or_false] at hc
    rcases hc with rfl | rfl | rfl
    · simp [busN, busModel] at h
    · simp only [unitG, unitModel, List.mem_cons, Prod.mk.injEq, List.not_mem_nil, or_false] at h
      rcases h with ⟨rfl, rfl⟩ | ⟨rfl, rfl⟩ | ⟨rfl, rfl⟩ <;> rfl
    · simp [demandD, demandModel] at h
  · intro c hc
    simp only [study0, Network.allComponents, Dict.values, List.map_cons, List.map_nil, List.cons_append, List.nil_append,
      List.mem_cons, List.not_mem_nil, or_false] at hc
    rcases hc with rfl | rfl | rfl <;> decide
  · intro c hc
    simp only [study0, List.mem_cons, List.not_mem_nil, or_false] at hc
    rcases hc with rfl | rfl
    · refine ⟨rfl, ?_, ?_⟩ <;> intro k p h <;> simp [link1, busN, unitG, busModel, unitModel] at h <;> rw [← h.2, ← h.1]
    · refine ⟨rfl, ?_, ?_⟩ <;> intro k p h <;> simp [link2, busN, demandD, busModel, demandModel] at h <;> rw [← h.2, ← h.1]
  · intro c hc r f d hr hd
    simp only [study0, List.mem_cons, List.not_mem_nil, or_false] at hc
    have hg : ∀ {f d}, PortRef.fieldDef ⟨unitG, "balance"⟩ f = some d → d = .var "g" := by
      intro f d h
      simp only [PortRef.fieldDef, unitG, unitModel, Dict.get?] at h
      split_ifs at h
      · simpa using h.symm
      · cases h
    have hdm : ∀ {f d}, PortRef.fieldDef ⟨demandD, "balance"⟩ f = some d → d = .neg (.par "d") := by
      intro f d h
      simp only [PortRef.fieldDef, demandD, demandModel, Dict.get?] at h
      split_ifs at h
      · simpa using h.symm
      · cases h
    have hn : ∀ {f d}, PortRef.fieldDef ⟨busN, "balance"⟩ f = some d → False := by
      intro f d h
      simp [PortRef.fieldDef, busN, busModel, Dict.get?] at h
    rcases hc with rfl | rfl <;> rcases hr with rfl | rfl
    · exact absurd hd (fun h => hn h)
    · obtain rfl := hg hd
      refine ⟨by simp [subs, isPortRef, isCmp, hasComponent], by simp [subs], ?_, by simp [subs, isTimeFixing, isScen]⟩
      intro v h
      simp [subs] at h
    · exact absurd hd (fun h => hn h)
    · obtain rfl := hdm hd
      refine ⟨by simp [subs, isPortRef, isCmp, hasComponent], by simp [subs], ?_, by simp [subs, isTimeFixing, isScen]⟩
      intro v h
      simp [subs] at h

theorem study0_dataOk : study0.DataOk := by
  have hdb : ∀ {c n d}, study0.database.get? (c, n) = some d →
      (c = "G" ∧ n = "pmax" ∧ d = .timeSeries [(4, 7), (5, 9)]) ∨ (c = "G" ∧ n = "cost" ∧ d = .const 3) ∨
      (c = "D" ∧ n = "d" ∧ d = .timeSeries [(4, 6), (5, 8)]) := by
    intro c n d h
    simp only [study0, Dict.get?] at h
    split_ifs at h with h1 h2 h3
    · cases h1; cases h; simp
    · cases h2; cases h; simp
    · cases h3; cases h; simp
  refine ⟨rfl, by simp [study0], ?_, ?_, ?_⟩
  · intro c n d h t s v hv
    have hts : ∀ {a b : Num} {v}, a.isFin = true → b.isFin = true → Data.getValue (.timeSeries [(4, a), (5, b)]) t s "" = .ok v → v.isFin = true := by
      intro a b v ha hb h
      unfold Data.getValue at h
      cases t with
      | none => cases h
      | some t =>
        simp only [Dict.get, Dict.get?] at h
        split_ifs at h
        · cases h; exact ha
        · cases h; exact hb
    rcases hdb h with ⟨rfl, rfl, rfl⟩ | ⟨rfl, rfl, rfl⟩ | ⟨rfl, rfl, rfl⟩
    · exact hts rfl rfl hv
    · cases hv; rfl
    · exact hts rfl rfl hv
  · intro c n k p d hc hp h hd
    rcases hdb h with ⟨rfl, rfl, rfl⟩ | ⟨rfl, rfl, rfl⟩ | ⟨rfl, rfl, rfl⟩
    · cases hc; cases hp; rfl
    · cases hd
    · cases hc; cases hp; rfl
  · intro c n k p d hc hp h hd
    rcases hdb h with ⟨rfl, rfl, rfl⟩ | ⟨rfl, rfl, rfl⟩ | ⟨rfl, rfl, rfl⟩ <;> cases hd

theorem study0_varsOk : study0.VarsOk := by
  constructor
  · intro c hc v hv b hb
    simp only [study0, Network.allComponents, Dict.values, List.map_cons, List.map_nil, List.cons_append, List.nil_append,
      List.mem_cons, List.not_mem_nil, or_false] at hc
    rcases hc with rfl | rfl | rfl
    · simp [Strategy.getVariables, busN, busModel, Dict.values] at hv
    · simp only [Strategy.getVariables, unitG, unitModel, Dict.values, List.map_cons, List.map_nil, study0, mergedStrategy,
        List.filter_true, List.mem_cons, List.not_mem_nil, or_false] at hv
      rcases hv with rfl | rfl | rfl
      · simp only [Option.some.injEq] at hb
        rcases hb with rfl | rfl <;> exact .inr (exprOk_of rfl)
      · simp at hb
      · simp only [Option.some.injEq, reduceCtorEq, or_false] at hb
        subst hb; exact .inr (exprOk_of rfl)
    · simp [Strategy.getVariables, demandD, demandModel, Dict.values] at hv
  · intro c hc v hv hty σ q t s hq
    simp only [study0, Network.allComponents, Dict.values, List.map_cons, List.map_nil, List.cons_append, List.nil_append,
      List.mem_cons, List.not_mem_nil, or_false] at hc
    rcases hc with rfl | rfl | rfl
    · simp [Strategy.getVariables, busN, busModel, Dict.values] at hv
    · simp only [Strategy.getVariables, unitG, unitModel, Dict.values, List.map_cons, List.map_nil, study0, mergedStrategy,
        List.filter_true, List.mem_cons, List.not_mem_nil, or_false] at hv
      rcases hv with rfl | rfl | rfl
      · cases hty
      · exact ⟨trivial, trivial⟩
      · cases hty
    · simp [Strategy.getVariables, demandD, demandModel, Dict.values] at hv

/-- the balance is `g(t) - d(t)` -/
theorem study0_balance (var : String → String → Option Int → Option Int → ℚ) (t s : Int) :
    mden (study0.readAs (study0.unwrapped var) busN) (.agg (.portField "balance" "flow") .portSum) t s =
      -study0.dataValue "D" "d" (some t) none + var "G" "g" (some t) none := by
  have h1 : link1.hasField "flow" := ⟨flowType, rfl, by simp [flowType]⟩
  have h2 : link2.hasField "flow" := ⟨flowType, rfl, by simp [flowType]⟩
  have v1 : ∀ D, link1.value D "flow" = mden (componentCtx D "G" noPorts) (.var "g") := fun D => rfl
  have v2 : ∀ D, link2.value D "flow" = mden (componentCtx D "D" noPorts) (.neg (.par "d")) := fun D => rfl
  show (((attached (study0.unwrapped var) [link1, link2] "N") "balance" "flow").map fun v => v t s).sum = _
  simp only [attached, List.flatMap_cons, List.flatMap_nil, PortsConnection.brings, h1, h2, if_true, List.append_nil, v1, v2]
  have e1 : ∀ D : DenCtx, mden (componentCtx D "G" noPorts) (.var "g") t s =
    D.env.var "G" "g" (atT (D.vidx "G" "g") t) (atS (D.vidx "G" "g") s) := fun _ => rfl
  have e2 : ∀ D : DenCtx, mden (componentCtx D "D" noPorts) (.neg (.par "d")) t s =
    -D.env.par "D" "d" (atT (D.pidx "D" "d") t) (atS (D.pidx "D" "d") s) := fun _ => rfl
  simp [link1, link2, busN, unitG, demandD, e1, e2]
  have i1 : study0.varIdx "G" "g" = ⟨true, false⟩ := rfl
  have i2 : study0.parIdx "D" "d" = ⟨true, false⟩ := rfl
  show var "G" "g" (atT (study0.varIdx "G" "g") t) (atS (study0.varIdx "G" "g") s) +
    -study0.dataValue "D" "d" (atT (study0.parIdx "D" "d") t) (atS (study0.parIdx "D" "d") s) = _
  rw [i1, i2]
  simp only [atT, atS]
  simp
  ring

theorem study0_constraintsOk : study0.ConstraintsOk := by
  have hall : ∀ {c k}, c ∈ study0.network.allComponents → k ∈ study0.strategy.getConstraints c.model →
      (c = busN ∧ k = { name := "balance", expression := .agg (.portField "balance" "flow") .portSum, lowerBound := .lit 0, upperBound := .lit 0 }) ∨
      (c = unitG ∧ k = { name := "max", expression := .add [.var "g", .neg (.mul (.lit 10) (.var "on"))], upperBound := .lit 0 }) ∨
      (c = unitG ∧ k = { name := "ramp", expression := .add [.var "g", .neg (.shift (.var "g") (.lit (-1)))], lowerBound := .lit (-5), upperBound := .lit 5 }) ∨
      (c = unitG ∧ k = { name := "parts", expression := .var "n", lowerBound := .par "cost" }) := by
    intro c k hc hk
    simp only [study0, Network.allComponents, Dict.values, List.map_cons, List.map_nil, List.cons_append, List.nil_append,
      List.mem_cons, List.not_mem_nil, or_false] at hc
    rcases hc with rfl | rfl | rfl
    · simp only [Strategy.getConstraints, Model.allConstraints, busN, busModel, Dict.values, List.map_cons, List.map_nil, study0, mergedStrategy,
        List.append_nil, List.nil_append, List.filter_true, List.mem_cons, List.not_mem_nil, or_false] at hk
      exact .inl ⟨rfl, hk⟩
    · simp only [Strategy.getConstraints, Model.allConstraints, unitG, unitModel, Dict.values, List.map_cons, List.map_nil, study0, mergedStrategy,
        List.append_nil, List.nil_append, List.filter_true, List.mem_cons, List.not_mem_nil, or_false] at hk
      rcases hk with rfl | rfl | rfl
      · exact .inr (.inl ⟨rfl, rfl⟩)
      · exact .inr (.inr (.inl ⟨rfl, rfl⟩))
      · exact .inr (.inr (.inr ⟨rfl, rfl⟩))
    · simp [Strategy.getConstraints, Model.allConstraints, demandD, demandModel, Dict.values] at hk
  refine ⟨by decide, ?_, ?_, ?_⟩
  · intro c hc k hk
    rcases hall hc hk with ⟨rfl, rfl⟩ | ⟨rfl, rfl⟩ | ⟨rfl, rfl⟩ | ⟨rfl, rfl⟩
    · exact ⟨exprOk_of rfl, .inr (exprOk_of rfl), .inr (exprOk_of rfl)⟩
    · exact ⟨exprOk_of rfl, .inl (.inr rfl), .inr (exprOk_of rfl)⟩
    · exact ⟨exprOk_of rfl, .inr (exprOk_of rfl), .inr (exprOk_of rfl)⟩
    · exact ⟨exprOk_of rfl, .inr (exprOk_of rfl), .inl (.inl rfl)⟩
  · intro c hc k hk t s ht hs
    rcases hall hc hk with ⟨rfl, rfl⟩ | ⟨rfl, rfl⟩ | ⟨rfl, rfl⟩ | ⟨rfl, rfl⟩
    · refine noTiny_of_int (-study0.dataValue "D" "d" (some t) none) [(⟨"G", "g", some t, none⟩, 1)] fun var => ?_
      rw [study0_balance]
      simp
    · refine noTiny_of_int 0 [(⟨"G", "g", some t, none⟩, 1), (⟨"G", "on", some t, none⟩, -10)] fun var => ?_
      show var "G" "g" (some t) none + (-(10 * var "G" "on" (some t) none) + 0) = _
      simp
    · refine noTiny_of_int 0 [(⟨"G", "g", some t, none⟩, 1), (⟨"G", "g", some (t + -1), none⟩, -1)] fun var => ?_
      show var "G" "g" (some t) none + (-(var "G" "g" (some (t + (Rat.floor (-1 : ℚ)))) none) + 0) = _
      simp [show Rat.floor (-1 : ℚ) = -1 from by decide +kernel]
    · refine noTiny_of_int 0 [(⟨"G", "n", none, none⟩, 1)] fun var => ?_
      show var "G" "n" none none = _
      simp
  · intro ports hp c hc k hk
    cases hp
    rcases hall hc hk with ⟨rfl, rfl⟩ | ⟨rfl, rfl⟩ | ⟨rfl, rfl⟩ | ⟨rfl, rfl⟩ <;>
    (refine ⟨fun e i he hi h b hb σ t t' s => ?_, fun e i he hi h b hb σ t t' s => ?_⟩ <;>
     (rcases hb with rfl | rfl <;> rfl))

theorem study0_objectivesOk : study0.ObjectivesOk := by
  have hall : ∀ {c e}, c ∈ study0.network.allComponents → e ∈ study0.contributions c →
      c = unitG ∧ e = .allsum (.mul (.par "cost") (.var "g")) := by
    intro c e hc he
    simp only [study0, Network.allComponents, Dict.values, List.map_cons, List.map_nil, List.cons_append, List.nil_append,
      List.mem_cons, List.not_mem_nil, or_false] at hc
    rcases hc with rfl | rfl | rfl
    · cases he
    · refine ⟨rfl, ?_⟩
      have : study0.contributions unitG = [.allsum (.mul (.par "cost") (.var "g"))] := rfl
      rw [this] at he
      simpa using he
    · cases he
  constructor
  · intro c hc e he
    obtain ⟨rfl, rfl⟩ := hall hc he
    refine ⟨exprOk_of rfl, noTiny_of_int 0 [(⟨"G", "g", some 0, none⟩, 3), (⟨"G", "g", some 1, none⟩, 3)] fun var => ?_⟩
    have hc : study0.dataValue "G" "cost" none none = 3 := rfl
    show ∑ u ∈ Finset.range 2, study0.dataValue "G" "cost" none none * var "G" "g" (some (u : Int)) none = _
    rw [hc, Finset.sum_range_succ, Finset.sum_range_one]
    simp
  · intro c hc e he
    obtain ⟨rfl, rfl⟩ := hall hc he
    rfl

/-- All hypotheses of C30, C33, C34 and C35 are met by `study0`, whose problem is built: its feasible points are those
of the mathematical study. -/
example (pt : Nat → ℚ) (σ : TermKey → ℚ) (h : ∀ k i, built0.columns.get? k = some i → pt i = σ k) :
    (built0.solver.Feasible pt ↔ study0.MathFeasible σ) ∧ built0.solver.cost pt = study0.mathCost σ :=
  c35_build_partial study0 study0_networkOk study0_dataOk study0_varsOk study0_constraintsOk study0_objectivesOk built0
    study0_builds pt σ h

/-- the hypotheses of `c33_written_partial` are met by `study0`, with constraints that depend on time and one that does not -/
example (pt : Nat → ℚ) (σ : TermKey → ℚ) (h : ∀ k i, built0.columns.get? k = some i → pt i = σ k) :
    ((∀ r ∈ built0.solver.rows, r.Sat pt) ↔ ∀ c ∈ study0.network.allComponents, ∀ k ∈ study0.strategy.getConstraints c.model, ∀ t s : Nat,
      study0.WrittenAt c k.expression t s → k.Holds (study0.readIn σ c) t s) ∧
    study0.dependence unitG (.var "n") = ⟨false, false⟩ ∧ study0.dependence unitG (.var "g") = ⟨true, false⟩ ∧
    study0.dependence busN (.agg (.portField "balance" "flow") .portSum) = ⟨true, false⟩ :=
  ⟨c33_written_partial study0 study0_networkOk study0_dataOk study0_constraintsOk.scenarios study0_constraintsOk.exprs
    study0_constraintsOk.noTiny built0 study0_builds pt σ h, rfl, rfl, rfl⟩

/-! ## Deviations -/

/-- a study with one component, without data -/
def single (m : Model) (db : DataBase) (ts : List Int) : OptCtx where
  network := ⟨"net", [], [("c", ⟨m, "c"⟩)], []⟩
  database := db
  timesteps := ts
  scenarios := 1

/-- a boolean variable declared with upper bound 0 -/
def boolModel : Model :=
  { id := "M", variables_ := [("b", ⟨"b", .boolean, some (.lit 0), some (.lit 0), ⟨false, false⟩, .operational⟩)] }

/-- C30 fails for booleans: declared with bounds 0 and 0, the solver variable has bounds 0 and 1, and the problem accepts
the value 1. -/
theorem c30_boolean_bounds_ignored :
    ∃ (x : OptCtx) (st : OptState) (n : Inst) (sv : SolverVar), x.buildProblem = .ok st ∧ n ∈ x.instances ∧
      n.var.upperBound = some (.lit 0) ∧ st.columns.get? n.key = some 0 ∧ st.solver.vars = [sv] ∧ sv.ub = 1 ∧
      st.solver.Feasible (fun _ => 1) ∧ ¬ x.MathFeasible (fun _ => 1) := by
  refine ⟨single boolModel [] [0], _, ⟨⟨boolModel, "c"⟩, ⟨"b", .boolean, some (.lit 0), some (.lit 0), ⟨false, false⟩, .operational⟩, none, none⟩,
    ⟨"c_b", 0, 1, true⟩, rfl, List.mem_singleton.2 rfl, rfl, rfl, rfl, rfl, ⟨?_, ?_⟩, ?_⟩
  · intro i v h
    cases i with
    | zero =>
      cases h
      exact ⟨show (0 : ℚ) ≤ 1 by norm_num, show (1 : ℚ) ≤ 1 by norm_num, fun _ => ⟨1, by simp⟩⟩
    | succ i => cases h
  · intro r hr; cases hr
  · intro h
    have := (h.vars ⟨boolModel, "c"⟩ (List.mem_singleton.2 rfl) _ (List.mem_singleton.2 rfl) 0 0 (by decide) (by decide)).2.1
    exact absurd (show (1 : ℚ) ≤ 0 from this) (by norm_num)

/-- C30 requires distinct ids: a node and a component with the same id give two columns to one instance, of which
one is not registered (the network accepts both, see C22). -/
theorem c30_shared_id :
    ∃ (x : OptCtx) (st : OptState), x.buildProblem = .ok st ∧ st.solver.vars.length = 2 ∧ st.columns.length = 1 := by
  refine ⟨{ single boolModel [] [0] with network := ⟨"net", [("c", ⟨boolModel, "c"⟩)], [("c", ⟨boolModel, "c"⟩)], []⟩ }, _, rfl,
    rfl, rfl⟩

/-- a variable that does not depend on time, with the constraint `v <= p` where `p` depends on time -/
def capModel : Model :=
  { id := "M"
    parameters := [("p", ⟨"p", .continuous, ⟨true, false⟩⟩)]
    variables_ := [("v", ⟨"v", .continuous, none, none, ⟨false, false⟩, .operational⟩)]
    constraints := [("cap", { name := "cap", expression := .var "v", upperBound := .par "p" })] }

/-- C33 fails when a bound depends on time and the expression does not: the constraint `v <= p(t)` with `p = (10, 5)` is
written for the first timestep only, and the value 8 is feasible for the problem although it violates the constraint at
the second timestep.  The model is accepted, and the data are consistent. -/
theorem c33_bound_not_enforced :
    ∃ (x : OptCtx) (st : OptState) (c : Component) (k : Constraint) (t : Nat), x.buildProblem = .ok st ∧
      c ∈ x.network.allComponents ∧ k ∈ x.strategy.getConstraints c.model ∧ t < x.timesteps.length ∧
      st.solver.Feasible (fun _ => 8) ∧ ¬ k.Holds (x.readIn (fun _ => 8) c) t 0 := by
  refine ⟨single capModel [(("c", "p"), .timeSeries [(0, 10), (1, 5)])] [0, 1],
    { solver := { vars := [⟨"c_v", .ninf, .pinf, false⟩], rows := [⟨"c_cap_t0_s0", [(0, 1)], .ninf, 10⟩] }
      columns := [(⟨"c", "v", none, none⟩, 0)], infos := [("c_v", ⟨"c_v", 0, false⟩)] }, ⟨capModel, "c"⟩,
    { name := "cap", expression := .var "v", upperBound := .par "p" }, 1, by decide +kernel, List.mem_singleton.2 rfl, List.mem_singleton.2 rfl,
    by decide, ⟨?_, ?_⟩, ?_⟩
  · intro i v h
    cases i with
    | zero => cases h; exact ⟨trivial, trivial, by intro h; cases h⟩
    | succ i => cases h
  · intro r hr
    rcases List.mem_singleton.1 hr with rfl
    refine ⟨trivial, ?_⟩
    show linForm _ (fun _ => 8) ≤ _
    decide +kernel
  · rintro ⟨-, h⟩
    have : (8 : ℚ) ≤ 5 := h
    norm_num at this

/-- the constraint `1e-17 * v >= 1` -/
def tinyModel : Model :=
  { id := "M"
    variables_ := [("v", ⟨"v", .continuous, none, none, ⟨false, false⟩, .operational⟩)]
    constraints := [("k", { name := "k", expression := .mul (.lit (.fin (1 / 10 ^ 17))) (.var "v"), lowerBound := .lit 1 })] }

/-- C35 fails for coefficients smaller than `1e-16`, which are dropped: with the constraint `1e-17 * v >= 1`, the value
`1e17` is feasible for the study and not for the problem. -/
theorem c35_tiny_coefficient :
    ∃ (x : OptCtx) (st : OptState) (q : ℚ), x.buildProblem = .ok st ∧ x.MathFeasible (fun _ => q) ∧
      ¬ st.solver.Feasible (fun _ => q) := by
  refine ⟨single tinyModel [] [0],
    { solver := { vars := [⟨"c_v", .ninf, .pinf, false⟩], rows := [⟨"c_k_t0_s0", [], 1, .pinf⟩] }
      columns := [(⟨"c", "v", none, none⟩, 0)], infos := [("c_v", ⟨"c_v", 0, false⟩)] }, 10 ^ 17, by decide +kernel, ⟨?_, ?_⟩, ?_⟩
  · intro c hc v hv t s _ _
    rcases List.mem_singleton.1 hc with rfl
    rcases List.mem_singleton.1 hv with rfl
    exact ⟨trivial, trivial, trivial⟩
  · intro c hc k hk t s _ _
    rcases List.mem_singleton.1 hc with rfl
    rcases List.mem_singleton.1 hk with rfl
    refine ⟨?_, trivial⟩
    show (1 : ℚ) ≤ 1 / 10 ^ 17 * 10 ^ 17
    norm_num
  · rintro ⟨-, h⟩
    have := (h _ (List.mem_singleton.2 rfl)).1
    change (_ : ℚ) ≤ _ at this
    revert this
    decide +kernel

end Verif.Props
