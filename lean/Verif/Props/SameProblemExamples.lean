import Verif.Props.SameProblem
import Verif.Props.ProblemExamples

/-! Concrete networks for C82 and C83: `study0` built in another way under other names, and both side by side. -/

namespace Verif.Props
open Verif Verif.Expr Verif.OptCtx

/-! ## `study0`, built in another way -/

/-- other names for the components of `study0` -/
def newName : String → String
  | "N" => "north"
  | "G" => "gas"
  | "D" => "town"
  | n => n

def north : Component := ⟨busModel, "north"⟩
def gas : Component := ⟨unitModel, "gas"⟩
def town : Component := ⟨demandModel, "town"⟩

/-- `study0` under other names: the load comes first, the generator is added as a node, connections are made in the other order, one of them
from the other end -/
def otherStudy : OptCtx where
  network := ⟨"other", [("gas", gas)], [("town", town), ("north", north)],
    [⟨⟨town, "balance"⟩, ⟨north, "balance"⟩, [("flow", ⟨town, "balance"⟩)]⟩, ⟨⟨north, "balance"⟩, ⟨gas, "balance"⟩, [("flow", ⟨gas, "balance"⟩)]⟩]⟩
  database := [(("town", "d"), .timeSeries [(4, 6), (5, 8)]), (("gas", "pmax"), .timeSeries [(4, 7), (5, 9)]), (("gas", "cost"), .const 3)]
  timesteps := [4, 5]
  scenarios := 1

theorem study0_regular : study0.Regular := ⟨study0_networkOk, study0_dataOk, study0_varsOk, study0_constraintsOk, study0_objectivesOk⟩

theorem study0_all : study0.network.allComponents = [busN, unitG, demandD] := rfl

theorem study0_closed : study0.Closed := by
  intro k hk
  simp only [study0, List.mem_cons, List.not_mem_nil, or_false] at hk
  rw [study0_all]
  rcases hk with rfl | rfl <;> simp [link1, link2]

/-- a check of `OwnSymbols` for the expressions of a component -/
def ownSymbolsOf (x : OptCtx) (c : Component) : Bool :=
  ((x.strategy.getVariables c.model).flatMap fun v => v.lowerBound.toList ++ v.upperBound.toList).all (fun b => b.subs.all fun y => !y.hasComponent) &&
  ((x.strategy.getConstraints c.model).flatMap fun k => [k.expression, k.lowerBound, k.upperBound]).all (fun b => b.subs.all fun y => !y.hasComponent) &&
  (x.contributions c).all (fun b => b.subs.all fun y => !y.hasComponent)

theorem ownSymbols_of {x : OptCtx} (h : x.network.allComponents.all (ownSymbolsOf x) = true) : x.OwnSymbols := by
  simp only [List.all_eq_true, ownSymbolsOf, Bool.and_eq_true, List.mem_flatMap, List.mem_append, Option.mem_toList, List.mem_cons,
    List.not_mem_nil, or_false, Bool.not_eq_true', forall_exists_index, and_imp] at h
  exact ⟨fun c hc v hv b hb y hy => (h c hc).1.1 b v hv hb y hy, fun c hc k hk e he y hy => (h c hc).1.2 e k hk he y hy,
    fun c hc e he y hy => (h c hc).2 e he y hy⟩

theorem study0_ownSymbols : study0.OwnSymbols := ownSymbols_of (by decide +kernel)

theorem otherStudy_renamed : study0.Renamed newName otherStudy where
  frame := ⟨rfl, rfl, rfl, rfl, rfl, rfl⟩
  distinct := by
    rw [study0_all]
    intro c hc c' hc' e
    simp only [List.mem_cons, List.not_mem_nil, or_false] at hc hc'
    rcases hc with rfl | rfl | rfl <;> rcases hc' with rfl | rfl | rfl <;> first | rfl | (exact absurd e (by decide))
  components := by
    show [north, gas, town].Perm [gas, town, north]
    exact List.perm_append_comm (l₁ := [north]) (l₂ := [gas, town])
  connections := by
    refine ⟨_, .cons (.inl ⟨rfl, rfl⟩) (.cons (.inr ⟨rfl, rfl⟩) .nil), List.Perm.swap _ _ _⟩
  data := by
    rw [study0_all]
    intro c hc n t s _
    simp only [List.mem_cons, List.not_mem_nil, or_false] at hc
    refine OptCtx.SameFrame.parameterAt (x := study0) (x' := otherStudy) (ρ := newName) ⟨rfl, rfl, rfl, rfl, rfl, rfl⟩ ?_ ?_ ?_ t s
    · rcases hc with rfl | rfl | rfl <;> rfl
    · rcases hc with rfl | rfl | rfl <;> rfl
    · rcases hc with rfl | rfl | rfl
      · simp [otherStudy, study0, Dict.get?, newName, busN]
      · simp [otherStudy, study0, Dict.get?, newName, unitG]
      · simp [otherStudy, study0, Dict.get?, newName, demandD]

theorem otherStudy_assembled : otherStudy.Assembled := by
  constructor
  · intro k c h
    simp only [otherStudy, List.mem_cons, Prod.mk.injEq, List.not_mem_nil, or_false] at h
    rcases h with ⟨rfl, rfl⟩ | ⟨rfl, rfl⟩ | ⟨rfl, rfl⟩ <;> rfl
  · intro k hk
    simp only [otherStudy, List.mem_cons, List.not_mem_nil, or_false] at hk
    rcases hk with rfl | rfl <;> rfl

theorem series_finite {a b v : Num} {t s : Option Int} (ha : a.isFin = true) (hb : b.isFin = true)
    (h : Data.getValue (.timeSeries [(4, a), (5, b)]) t s "" = .ok v) : v.isFin = true := by
  unfold Data.getValue at h
  cases t with
  | none => cases h
  | some t =>
    simp only [Dict.get, Dict.get?] at h
    split_ifs at h
    · cases h; exact ha
    · cases h; exact hb

theorem otherStudy_dataOk : otherStudy.DataOk := by
  have hdb : ∀ {c n d}, otherStudy.database.get? (c, n) = some d →
      (c = "town" ∧ n = "d" ∧ d = .timeSeries [(4, 6), (5, 8)]) ∨ (c = "gas" ∧ n = "pmax" ∧ d = .timeSeries [(4, 7), (5, 9)]) ∨
      (c = "gas" ∧ n = "cost" ∧ d = .const 3) := by
    intro c n d h
    simp only [otherStudy, Dict.get?] at h
    split_ifs at h with h1 h2 h3
    · cases h1; cases h; simp
    · cases h2; cases h; simp
    · cases h3; cases h; simp
  refine ⟨rfl, by simp [otherStudy], ?_, ?_, ?_⟩
  · intro c n d h t s v hv
    rcases hdb h with ⟨rfl, rfl, rfl⟩ | ⟨rfl, rfl, rfl⟩ | ⟨rfl, rfl, rfl⟩
    · exact series_finite rfl rfl hv
    · exact series_finite rfl rfl hv
    · cases hv; rfl
  · intro c n k p d hc hp h hd
    rcases hdb h with ⟨rfl, rfl, rfl⟩ | ⟨rfl, rfl, rfl⟩ | ⟨rfl, rfl, rfl⟩
    · cases hc; cases hp; rfl
    · cases hc; cases hp; rfl
    · cases hd
  · intro c n k p d hc hp h hd
    rcases hdb h with ⟨rfl, rfl, rfl⟩ | ⟨rfl, rfl, rfl⟩ | ⟨rfl, rfl, rfl⟩ <;> cases hd

theorem study0_expressible : study0.Expressible := Regular.expressible study0_regular

theorem otherStudy_expressible : otherStudy.Expressible :=
  renamed_expressible otherStudy_renamed study0_expressible otherStudy_assembled otherStudy_dataOk

theorem built_of {x : OptCtx} (h : x.buildProblem.isOk = true) : ∃ st, x.buildProblem = .ok st := by
  cases e : x.buildProblem with
  | ok st => exact ⟨st, rfl⟩
  | error e' => rw [e] at h; cases h

/-- all hypotheses of C82 are met by `study0` and `otherStudy`: both problems are built, with the same least cost -/
example : ∃ st', otherStudy.buildProblem = .ok st' ∧
    ∀ c, LeastCost st'.solver.Feasible st'.solver.cost c ↔ LeastCost built0.solver.Feasible built0.solver.cost c := by
  obtain ⟨st', h⟩ := built_of (x := otherStudy) (by decide +kernel)
  exact ⟨st', h, (c82_problem_partial newName study0 otherStudy otherStudy_renamed study0_expressible study0_closed study0_ownSymbols
    otherStudy_assembled otherStudy_dataOk built0 st' study0_builds h).2.1⟩

/-! ## Both side by side -/

/-- `study0` and `otherStudy` in one network -/
def bothStudies : OptCtx where
  network := ⟨"both", [("N", busN), ("gas", gas)], [("G", unitG), ("D", demandD), ("town", town), ("north", north)],
    otherStudy.network.connections ++ [link1, link2]⟩
  database := study0.database ++ otherStudy.database
  timesteps := [4, 5]
  scenarios := 1

theorem otherStudy_all : otherStudy.network.allComponents = [gas, town, north] := rfl
theorem bothStudies_all : bothStudies.network.allComponents = [busN, gas, unitG, demandD, town, north] := rfl

theorem otherStudy_closed : otherStudy.Closed := by
  intro k hk
  simp only [otherStudy, List.mem_cons, List.not_mem_nil, or_false] at hk
  rw [otherStudy_all]
  rcases hk with rfl | rfl <;> simp

theorem otherStudy_ownSymbols : otherStudy.OwnSymbols := ownSymbols_of (by decide +kernel)

theorem bothStudies_side : study0.SideBySide otherStudy bothStudies where
  frame1 := ⟨rfl, rfl, rfl, rfl, rfl, rfl⟩
  frame2 := ⟨rfl, rfl, rfl, rfl, rfl, rfl⟩
  distinct := by
    rw [study0_all, otherStudy_all]
    intro c hc c' hc'
    simp only [List.mem_cons, List.not_mem_nil, or_false] at hc hc'
    rcases hc with rfl | rfl | rfl <;> rcases hc' with rfl | rfl | rfl <;> decide
  components := by
    show (busN :: [unitG, demandD] ++ gas :: [town, north]).Perm (busN :: gas :: ([unitG, demandD] ++ [town, north]))
    exact List.Perm.cons _ List.perm_middle
  connections := List.perm_append_comm
  data1 := by
    rw [study0_all]
    intro c hc n t s _
    simp only [List.mem_cons, List.not_mem_nil, or_false] at hc
    refine OptCtx.SameFrame.parameterAt (x := study0) (x' := bothStudies) (ρ := fun n => n) ⟨rfl, rfl, rfl, rfl, rfl, rfl⟩ ?_ ?_ ?_ t s
    · rcases hc with rfl | rfl | rfl <;> rfl
    · rcases hc with rfl | rfl | rfl <;> rfl
    · rcases hc with rfl | rfl | rfl <;> simp [bothStudies, otherStudy, study0, Dict.get?, busN, unitG, demandD]
  data2 := by
    rw [otherStudy_all]
    intro c hc n t s _
    simp only [List.mem_cons, List.not_mem_nil, or_false] at hc
    refine OptCtx.SameFrame.parameterAt (x := otherStudy) (x' := bothStudies) (ρ := fun n => n) ⟨rfl, rfl, rfl, rfl, rfl, rfl⟩ ?_ ?_ ?_ t s
    · rcases hc with rfl | rfl | rfl <;> rfl
    · rcases hc with rfl | rfl | rfl <;> rfl
    · rcases hc with rfl | rfl | rfl <;> simp [bothStudies, otherStudy, study0, Dict.get?, north, gas, town]

theorem bothStudies_assembled : bothStudies.Assembled := by
  constructor
  · intro k c h
    simp only [bothStudies, List.mem_cons, Prod.mk.injEq, List.not_mem_nil, or_false] at h
    rcases h with (⟨rfl, rfl⟩ | ⟨rfl, rfl⟩) | ⟨rfl, rfl⟩ | ⟨rfl, rfl⟩ | ⟨rfl, rfl⟩ | ⟨rfl, rfl⟩ <;> rfl
  · intro k hk
    simp only [bothStudies, otherStudy, List.cons_append, List.nil_append, List.mem_cons, List.not_mem_nil, or_false] at hk
    rcases hk with rfl | rfl | rfl | rfl <;> rfl

theorem bothStudies_dataOk : bothStudies.DataOk := by
  have hdb : ∀ {c n d}, bothStudies.database.get? (c, n) = some d →
      (c = "G" ∧ n = "pmax" ∧ d = .timeSeries [(4, 7), (5, 9)]) ∨ (c = "G" ∧ n = "cost" ∧ d = .const 3) ∨
      (c = "D" ∧ n = "d" ∧ d = .timeSeries [(4, 6), (5, 8)]) ∨
      (c = "town" ∧ n = "d" ∧ d = .timeSeries [(4, 6), (5, 8)]) ∨ (c = "gas" ∧ n = "pmax" ∧ d = .timeSeries [(4, 7), (5, 9)]) ∨
      (c = "gas" ∧ n = "cost" ∧ d = .const 3) := by
    intro c n d h
    simp only [bothStudies, study0, otherStudy, List.cons_append, List.nil_append, Dict.get?] at h
    split_ifs at h with h1 h2 h3 h4 h5 h6
    · cases h1; cases h; simp
    · cases h2; cases h; simp
    · cases h3; cases h; simp
    · cases h4; cases h; simp
    · cases h5; cases h; simp
    · cases h6; cases h; simp
  refine ⟨rfl, by simp [bothStudies], ?_, ?_, ?_⟩
  · intro c n d h t s v hv
    rcases hdb h with ⟨rfl, rfl, rfl⟩ | ⟨rfl, rfl, rfl⟩ | ⟨rfl, rfl, rfl⟩ | ⟨rfl, rfl, rfl⟩ | ⟨rfl, rfl, rfl⟩ | ⟨rfl, rfl, rfl⟩ <;>
      first | exact series_finite rfl rfl hv | (cases hv; rfl)
  · intro c n k p d hc hp h hd
    rcases hdb h with ⟨rfl, rfl, rfl⟩ | ⟨rfl, rfl, rfl⟩ | ⟨rfl, rfl, rfl⟩ | ⟨rfl, rfl, rfl⟩ | ⟨rfl, rfl, rfl⟩ | ⟨rfl, rfl, rfl⟩ <;>
      first | (cases hd; done) | (cases hc; cases hp; rfl)
  · intro c n k p d hc hp h hd
    rcases hdb h with ⟨rfl, rfl, rfl⟩ | ⟨rfl, rfl, rfl⟩ | ⟨rfl, rfl, rfl⟩ | ⟨rfl, rfl, rfl⟩ | ⟨rfl, rfl, rfl⟩ | ⟨rfl, rfl, rfl⟩ <;> cases hd

/-- all hypotheses of C83 are met: the three problems are built, and the least cost of the last is twice that of `study0` -/
example : ∃ st, bothStudies.buildProblem = .ok st ∧
    ∀ c, LeastCost st.solver.Feasible st.solver.cost c ↔ ∃ c1, LeastCost built0.solver.Feasible built0.solver.cost c1 ∧ c = c1 + c1 := by
  obtain ⟨st', h'⟩ := built_of (x := otherStudy) (by decide +kernel)
  obtain ⟨st, h⟩ := built_of (x := bothStudies) (by decide +kernel)
  refine ⟨st, h, fun c => ?_⟩
  rw [(c83_problem_partial study0 otherStudy bothStudies bothStudies_side study0_expressible otherStudy_expressible study0_closed otherStudy_closed
    study0_ownSymbols otherStudy_ownSymbols bothStudies_assembled bothStudies_dataOk built0 st' st study0_builds h' h).1 c]
  have e := (c82_problem_partial newName study0 otherStudy otherStudy_renamed study0_expressible study0_closed study0_ownSymbols
    otherStudy_assembled otherStudy_dataOk built0 st' study0_builds h').2.1
  constructor
  · rintro ⟨c1, c2, h1, h2, rfl⟩
    rw [e] at h2
    exact ⟨c1, h1, by rw [leastCost_unique h2 h1]⟩
  · rintro ⟨c1, h1, rfl⟩
    exact ⟨c1, c1, h1, (e c1).2 h1, rfl⟩

end Verif.Props
