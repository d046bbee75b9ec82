import Verif.Props.Kept
import Verif.Props.ProblemExamples

/-! A concrete study for C84, with tiny coefficients and a boolean whose declared bounds exclude 1. -/

namespace Verif.Props
open Verif Verif.Expr Verif.OptCtx

/-- `v` between 0 and 5, a boolean `b` declared with bounds 0 and 0, the constraint `1e-17 v + b >= 1` and the cost `1e-17 v + 2 b` -/
def oddModel : Model :=
  { id := "ODD"
    variables_ := [("v", ⟨"v", .continuous, some (.lit 0), some (.lit 5), ⟨false, false⟩, .operational⟩),
      ("b", ⟨"b", .boolean, some (.lit 0), some (.lit 0), ⟨false, false⟩, .operational⟩)]
    constraints := [("k", { name := "k", expression := .add [.mul (.lit (.fin (1 / 10 ^ 17))) (.var "v"), .var "b"], lowerBound := .lit 1 })]
    objectiveOperational := some (.add [.mul (.lit (.fin (1 / 10 ^ 17))) (.var "v"), .mul (.lit 2) (.var "b")]) }

def oddStudy : OptCtx := single oddModel [] [0]

theorem oddStudy_networkOk : oddStudy.NetworkOk where
  ids := by decide
  keyed := by
    intro k c h
    simp only [oddStudy, single, List.not_mem_nil, false_or, List.mem_singleton, Prod.mk.injEq] at h
    obtain ⟨rfl, rfl⟩ := h
    rfl
  vars := by
    intro c hc n v h
    rcases List.mem_singleton.1 hc with rfl
    simp only [oddModel, List.mem_cons, List.not_mem_nil, or_false, Prod.mk.injEq] at h
    rcases h with ⟨rfl, rfl⟩ | ⟨rfl, rfl⟩ <;> rfl
  varsNodup := by
    intro c hc
    rcases List.mem_singleton.1 hc with rfl
    decide
  accepted := by intro k hk; cases hk
  clean := by intro k hk; cases hk

theorem oddStudy_dataOk : oddStudy.DataOk where
  cycle := rfl
  block := by simp [oddStudy, single]
  finite := by intro c n d h; cases h
  time := by intro c n k p d _ _ h; cases h
  scenario := by intro c n k p d _ _ h; cases h

theorem oddStudy_expressible : oddStudy.Expressible where
  network := oddStudy_networkOk
  data := oddStudy_dataOk
  scenarios := by decide
  bounds := by
    intro c hc v hv b hb
    rcases List.mem_singleton.1 hc with rfl
    have hv : v ∈ [_, _] := hv
    simp only [List.mem_cons, List.not_mem_nil, or_false] at hv
    rcases hv with rfl | rfl <;> rcases hb with hb | hb <;> cases hb <;> exact .inr (exprOk_of rfl)
  constraints := by
    intro c hc k hk
    rcases List.mem_singleton.1 hc with rfl
    rcases List.mem_singleton.1 hk with rfl
    exact ⟨exprOk_of (by decide +kernel), .inr (exprOk_of rfl), .inl (.inl rfl)⟩
  objectives := by
    intro c hc e he
    rcases List.mem_singleton.1 hc with rfl
    have he : e ∈ [_] := he
    rcases List.mem_singleton.1 he with rfl
    exact ⟨exprOk_of (by decide +kernel), by decide +kernel⟩

/-- the built problem: neither `v` nor the declared bounds of `b` are left -/
def oddBuilt : OptState where
  solver :=
    { vars := [⟨"c_v", 0, 5, false⟩, ⟨"c_b", 0, 1, true⟩]
      rows := [⟨"c_k_t0_s0", [(1, 1)], 1, .pinf⟩]
      objective := [(1, 2)] }
  columns := [(⟨"c", "v", none, none⟩, 0), (⟨"c", "b", none, none⟩, 1)]
  infos := [("c_v", ⟨"c_v", 0, false⟩), ("c_b", ⟨"c_b", 1, true⟩)]

theorem oddStudy_built : oddStudy.buildProblem = .ok oddBuilt := by decide +kernel

/-- the values `v = 0` and `b = 1` -/
def oddValues (k : TermKey) : ℚ := if k.var = "b" then 1 else 0

/-- all hypotheses of C84 are met by `oddStudy`: the program accepts these values at cost 2, although `b` is declared to be at most 0 -/
example : oddStudy.KeptFeasible oddValues ∧ oddStudy.keptCost oddValues = 2 ∧ ¬ oddStudy.MathFeasible oddValues := by
  have h := c84_exact_partial oddStudy oddStudy_expressible oddBuilt oddStudy_built (fun i => if i = 1 then 1 else 0) oddValues (by
    intro k i hk
    simp only [oddBuilt, Dict.get?] at hk
    split_ifs at hk with h1 h2
    · cases hk; cases h1; rfl
    · cases hk; cases h2; rfl)
  refine ⟨h.1.1 ⟨?_, ?_⟩, by rw [← h.2]; decide +kernel, fun hm => ?_⟩
  · intro i v hv
    match i, hv with
    | 0, hv => cases hv; exact ⟨show (0 : ℚ) ≤ 0 by norm_num, show (0 : ℚ) ≤ 5 by norm_num, by intro h; cases h⟩
    | 1, hv => cases hv; exact ⟨show (0 : ℚ) ≤ 1 by norm_num, show (1 : ℚ) ≤ 1 by norm_num, fun _ => ⟨1, by simp⟩⟩
    | i + 2, hv => cases hv
  · intro r hr
    rcases List.mem_singleton.1 hr with rfl
    refine ⟨?_, trivial⟩
    show (1 : ℚ) ≤ linForm _ _
    decide +kernel
  · have := (hm.vars ⟨oddModel, "c"⟩ (List.mem_singleton.2 rfl) _ (List.mem_cons_of_mem _ (List.mem_singleton.2 rfl)) 0 0 (by decide) (by decide)).2.1
    exact absurd (show (1 : ℚ) ≤ 0 from this) (by norm_num)

/-- the study of `c33_bound_not_enforced`: `v <= p(t)` with `p = (10, 5)` -/
def capStudy : OptCtx := single capModel [(("c", "p"), .timeSeries [(0, 10), (1, 5)])] [0, 1]

def capBuilt : OptState where
  solver := { vars := [⟨"c_v", .ninf, .pinf, false⟩], rows := [⟨"c_cap_t0_s0", [(0, 1)], .ninf, 10⟩] }
  columns := [(⟨"c", "v", none, none⟩, 0)]
  infos := [("c_v", ⟨"c_v", 0, false⟩)]

theorem capStudy_built : capStudy.buildProblem = .ok capBuilt := by decide +kernel

theorem capStudy_expressible : capStudy.Expressible where
  network := by
    constructor
    · decide
    · intro k c h
      simp only [capStudy, single, List.not_mem_nil, false_or, List.mem_singleton, Prod.mk.injEq] at h
      obtain ⟨rfl, rfl⟩ := h
      rfl
    · intro c hc n v h
      rcases List.mem_singleton.1 hc with rfl
      simp only [capModel, List.mem_cons, List.not_mem_nil, or_false, Prod.mk.injEq] at h
      obtain ⟨rfl, rfl⟩ := h
      rfl
    · intro c hc
      rcases List.mem_singleton.1 hc with rfl
      decide
    · intro k hk; cases hk
    · intro k hk; cases hk
  data := by
    have hdb : ∀ {c n d}, capStudy.database.get? (c, n) = some d → c = "c" ∧ n = "p" ∧ d = .timeSeries [(0, 10), (1, 5)] := by
      intro c n d h
      simp only [capStudy, single, Dict.get?] at h
      split_ifs at h with h1
      cases h1
      cases h
      exact ⟨rfl, rfl, rfl⟩
    constructor
    · rfl
    · simp [capStudy, single]
    · intro c n d h t s v hv
      obtain ⟨rfl, rfl, rfl⟩ := hdb h
      unfold Data.getValue at hv
      cases t with
      | none => cases hv
      | some t =>
        simp only [Dict.get, Dict.get?] at hv
        split_ifs at hv
        · cases hv; rfl
        · cases hv; rfl
    · intro c n k p d hc hp h hd
      obtain ⟨rfl, rfl, rfl⟩ := hdb h
      cases hc; cases hp; rfl
    · intro c n k p d hc hp h hd
      obtain ⟨rfl, rfl, rfl⟩ := hdb h
      cases hd
  scenarios := by decide
  bounds := by
    intro c hc v hv b hb
    rcases List.mem_singleton.1 hc with rfl
    rcases List.mem_singleton.1 hv with rfl
    rcases hb with hb | hb <;> cases hb
  constraints := by
    intro c hc k hk
    rcases List.mem_singleton.1 hc with rfl
    rcases List.mem_singleton.1 hk with rfl
    exact ⟨exprOk_of rfl, .inl (.inr rfl), .inr (exprOk_of rfl)⟩
  objectives := by
    intro c hc e he
    rcases List.mem_singleton.1 hc with rfl
    cases he

/-- all hypotheses of C84 are met by `capStudy`, whose constraint is written at the first timestep only: the program accepts 8, although
the capacity is 5 at the second timestep -/
example : capStudy.KeptFeasible (fun _ => 8) ∧ ¬ capStudy.MathFeasible (fun _ => 8) ∧
    capStudy.dependence ⟨capModel, "c"⟩ (.var "v") = ⟨false, false⟩ ∧ capStudy.dependence ⟨capModel, "c"⟩ (.par "p") = ⟨true, false⟩ := by
  have h := c84_exact_partial capStudy capStudy_expressible capBuilt capStudy_built (fun _ => 8) (fun _ => 8) (fun _ _ _ => rfl)
  refine ⟨h.1.1 ⟨?_, ?_⟩, fun hm => ?_, rfl, rfl⟩
  · intro i v hv
    cases i with
    | zero => cases hv; exact ⟨trivial, trivial, by intro h; cases h⟩
    | succ i => cases hv
  · intro r hr
    rcases List.mem_singleton.1 hr with rfl
    refine ⟨trivial, ?_⟩
    show linForm _ (fun _ => 8) ≤ _
    decide +kernel
  · have := (hm.constraints ⟨capModel, "c"⟩ (List.mem_singleton.2 rfl) _ (List.mem_singleton.2 rfl) 1 0 (by decide) (by decide)).2
    exact absurd (show (8 : ℚ) ≤ 5 from this) (by norm_num)

/-- the hypotheses of `c84_difference_partial` are met by the constraint of `oddStudy`, whose value has a tiny coefficient that is not kept -/
example : ∃ e1 e2 l, instantiate (.add [.mul (.lit (.fin (1 / 10 ^ 17))) (.var "v"), .var "b"]) "c" [] = .ok e1 ∧
    oddStudy.expandOperators e1 = .ok e2 ∧ oddStudy.linearize e2 (some 0) (some 0) = .ok l ∧ l.terms.length = 1 :=
  ⟨.add [.mul (.lit (.fin (1 / 10 ^ 17))) (.cvar "c" "v"), .cvar "c" "b"],
    .add [.mul (.lit (.fin (1 / 10 ^ 17))) (.pvar "c" "v" .none .none), .pvar "c" "b" .none .none],
    ⟨[(⟨"c", "b", none, none⟩, ⟨1, ⟨"c", "b", none, none⟩⟩)], 0⟩, by decide +kernel, by decide +kernel, by decide +kernel, rfl⟩

/-- the hypotheses of `c84_regular_partial` are met by `study0` -/
example (σ : TermKey → ℚ) : (study0.KeptFeasible σ ↔ study0.MathFeasible σ) ∧ study0.keptCost σ = study0.mathCost σ :=
  c84_regular_partial study0 ⟨study0_networkOk, study0_dataOk, study0_varsOk, study0_constraintsOk, study0_objectivesOk⟩ built0 study0_builds σ

/-- a source with an output `g`, brought by the field `flow` of its port -/
def sourceModel : Model :=
  { id := "SOURCE"
    variables_ := [("g", ⟨"g", .continuous, some (.lit 0), none, ⟨true, true⟩, .operational⟩)]
    ports := [("balance", ⟨flowType, "balance"⟩)]
    portFieldsDefinitions := [(⟨"balance", "flow"⟩, ⟨⟨"balance", "flow"⟩, .var "g"⟩)] }

/-- a meter, whose expected cost mentions what its port brings: the check of the model does not see the port field, because `h` already
depends on time and on the scenario -/
def meterModel : Model :=
  { id := "METER"
    variables_ := [("h", ⟨"h", .continuous, some (.lit 1), none, ⟨true, true⟩, .operational⟩)]
    ports := [("balance", ⟨flowType, "balance"⟩)]
    objectiveOperational := some (.scen (.allsum (.add [.var "h", .mul (.lit 4) (.portField "balance" "flow")])) .expectation) }

def sourceS : Component := ⟨sourceModel, "S"⟩
def meterM : Component := ⟨meterModel, "M"⟩
def meterLink : PortsConnection := ⟨⟨meterM, "balance"⟩, ⟨sourceS, "balance"⟩, [("flow", ⟨sourceS, "balance"⟩)]⟩

/-- one timestep, two scenarios -/
def meterStudy : OptCtx where
  network := ⟨"net", [], [("M", meterM), ("S", sourceS)], [meterLink]⟩
  database := []
  timesteps := [0]
  scenarios := 2

theorem meterStudy_comps {c : Component} (h : c ∈ meterStudy.network.allComponents) : c = meterM ∨ c = sourceS := by
  simpa [meterStudy, Network.allComponents, Dict.values] using h

theorem meterStudy_expressible : meterStudy.Expressible where
  network := by
    refine ⟨by decide +kernel, ?_, ?_, ?_, ?_, ?_⟩
    · intro k c h
      simp only [meterStudy, List.mem_cons, Prod.mk.injEq, List.not_mem_nil, or_false, false_or] at h
      rcases h with ⟨rfl, rfl⟩ | ⟨rfl, rfl⟩ <;> rfl
    · intro c hc n v h
      rcases meterStudy_comps hc with rfl | rfl
      · simp only [meterM, meterModel, List.mem_cons, Prod.mk.injEq, List.not_mem_nil, or_false] at h
        obtain ⟨rfl, rfl⟩ := h
        rfl
      · simp only [sourceS, sourceModel, List.mem_cons, Prod.mk.injEq, List.not_mem_nil, or_false] at h
        obtain ⟨rfl, rfl⟩ := h
        rfl
    · intro c hc
      rcases meterStudy_comps hc with rfl | rfl <;> decide
    · intro c hc
      rcases List.mem_singleton.1 hc with rfl
      refine ⟨rfl, ?_, ?_⟩ <;> intro k p h <;> simp [meterLink, sourceS, sourceModel, meterM, meterModel] at h <;> rw [← h.2, ← h.1]
    · intro c hc r f d hr hd
      rcases List.mem_singleton.1 hc with rfl
      rcases hr with rfl | rfl
      · simp [PortRef.fieldDef, meterLink, meterM, meterModel, Dict.get?] at hd
      · have : d = .var "g" := by
          simp only [PortRef.fieldDef, meterLink, sourceS, sourceModel, Dict.get?] at hd
          split_ifs at hd
          · simpa using hd.symm
          · cases hd
        subst this
        refine ⟨by simp [subs, isPortRef, isCmp, hasComponent], by simp [subs], ?_, by simp [subs, isTimeFixing, isScen]⟩
        intro v h
        simp [subs] at h
  data := by
    constructor
    · rfl
    · simp [meterStudy]
    · intro c n d h; cases h
    · intro c n k p d hc hp h; cases h
    · intro c n k p d hc hp h; cases h
  scenarios := by decide
  bounds := by
    intro c hc v hv b hb
    rcases meterStudy_comps hc with rfl | rfl
    · rcases List.mem_singleton.1 hv with rfl
      rcases hb with hb | hb <;> cases hb
      exact .inr (exprOk_of rfl)
    · rcases List.mem_singleton.1 hv with rfl
      rcases hb with hb | hb <;> cases hb
      exact .inr (exprOk_of rfl)
  constraints := by
    intro c hc k hk
    rcases meterStudy_comps hc with rfl | rfl <;> cases hk
  objectives := by
    intro c hc e he
    rcases meterStudy_comps hc with rfl | rfl
    · have he : e ∈ [_] := he
      rcases List.mem_singleton.1 he with rfl
      exact ⟨exprOk_of (by decide +kernel), by decide +kernel⟩
    · cases he

/-- the built problem: the expected cost of `h` and of four times `g` -/
def meterBuilt : OptState := match meterStudy.buildProblem with
  | .ok st => st
  | .error _ => {}

theorem meterStudy_built : meterStudy.buildProblem = .ok meterBuilt := by
  have : meterStudy.buildProblem.isOk = true := by decide +kernel
  unfold meterBuilt
  cases h : meterStudy.buildProblem with
  | ok st => rfl
  | error e => rw [h] at this; cases this

/-- all hypotheses of C84 are met by `meterStudy`, whose objective has a port field; the models are accepted, and the cost counts what the
port brings -/
example : meterModel.make = .ok meterModel ∧ sourceModel.make = .ok sourceModel ∧ meterStudy.keptCost (fun _ => 1) = 5 := by
  have h := c84_exact_partial meterStudy meterStudy_expressible meterBuilt meterStudy_built (fun _ => 1) (fun _ => 1) (fun _ _ _ => rfl)
  exact ⟨by decide +kernel, by decide +kernel, by rw [← h.2]; decide +kernel⟩

end Verif.Props
