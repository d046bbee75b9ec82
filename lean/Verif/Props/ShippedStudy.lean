import Verif.Lemmas.StudyMeaning
import Mathlib.Tactic.IntervalCases

/-!
# C60: studies made of shipped models

From the files to the solver: the problem built for a system file that uses the libraries that come with the code has exactly the
solutions, costs and optima that the file means (`Spec/ShippedStudy.lean`).
-/

namespace Verif.Props
open Verif Verif.Expr Verif.OptCtx Verif.Shipped

/-! ## Optima -/

/-- **C35 (partial), optima.** Under the hypotheses of `c35_build_partial`: a point is an optimum of the built problem exactly when the
values that it gives to the instances of the variables are an optimum of the study read mathematically. -/
theorem c35_optimum_partial (x : OptCtx) (hn : x.NetworkOk) (hx : x.DataOk) (hv : x.VarsOk) (hk : x.ConstraintsOk)
    (ho : x.ObjectivesOk) (st : OptState) (h : x.buildProblem = .ok st) (pt : Nat → ℚ) (σ : TermKey → ℚ)
    (hσ : ∀ k i, st.columns.get? k = some i → pt i = σ k) :
    (st.solver.Feasible pt ∧ ∀ pt', st.solver.Feasible pt' → st.solver.cost pt ≤ st.solver.cost pt') ↔
      (x.MathFeasible σ ∧ ∀ σ', x.MathFeasible σ' → x.mathCost σ ≤ x.mathCost σ') := by
  have key := c35_build_partial x hn hx hv hk ho st h
  rw [(key pt σ hσ).1, (key pt σ hσ).2]
  refine and_congr_right fun _ => ?_
  obtain ⟨-, -, -, hcol⟩ := build_columns hn h
  constructor
  · intro hopt σ' hf
    have h' : ∀ k i, st.columns.get? k = some i → (fun i => (x.instances[i]?.map fun n => σ' n.key).getD 0) i = σ' k := by
      intro k i hki
      obtain ⟨n, hn, rfl⟩ := (hcol k i).1 hki
      simp [hn]
    rw [← (key _ σ' h').2]
    exact hopt _ ((key _ σ' h').1.2 hf)
  · intro hopt pt' hf
    have h' : ∀ k i, st.columns.get? k = some i → pt' i = (fun k => (((st.columns.get? k).map pt').getD 0)) k := by
      intro k i hki
      simp [hki]
    rw [(key pt' _ h').2]
    exact hopt _ ((key pt' _ h').1.1 hf)

/-! ## Shipped studies -/

/-- **C60 (partial).** Take any well-formed study whose system file is resolved with libraries read from shipped files, and whose problem is
built.  A point of the solver problem is feasible exactly when the values it gives to the instances of the variables obey, for every
declared component, timestep and scenario, the rules of the model that the component names, with the declared parameters and what the
declared connections bring; and its objective value is the sum of the costs of these rules.

Partial: coefficients smaller than `1e-16` are excluded (see `c35_tiny_coefficient`). -/
theorem c60_study_partial (I : StudyInput) (hI : I.Sound) (libs : Dict String Library) (hl : ShippedLibraries libs) (sys : System)
    (h1 : resolveSystem I.system libs = .ok sys) (net : Network) (h2 : buildNetwork sys = .ok net) (db : DataBase)
    (h3 : buildDataBase I.load I.system = .ok db) (x : OptCtx)
    (hx : x = { network := net, database := db, timesteps := I.steps, scenarios := I.scenarios })
    (ht : ∀ c ∈ net.allComponents, (∀ k ∈ c.model.allConstraints, ∀ t s : Nat, t < I.steps.length → s < I.scenarios →
      x.NoTiny c k.expression t s) ∧ ∀ e ∈ c.model.objectives, x.NoTiny c e 0 0)
    (st : OptState) (h : x.buildProblem = .ok st) (pt : Nat → ℚ) (σ : TermKey → ℚ)
    (hσ : ∀ k i, st.columns.get? k = some i → pt i = σ k) :
    (st.solver.Feasible pt ↔ I.Accepts σ) ∧ st.solver.cost pt = I.cost σ := by
  subst hx
  have hk := StudyInput.linked hI hl h1 h2
  have := c35_build_partial (I.context net db) (hk.networkOk db hI) (hk.dataOk hI h3) (hk.varsOk db)
    (hk.constraintsOk db hI fun c hc => (ht c hc).1) (hk.objectivesOk db fun c hc => (ht c hc).2) st h pt σ hσ
  rw [hk.feasible_iff hI h3, hk.cost_eq hI h3] at this
  exact this

/-- **C60 (partial), optima.** Under the same hypotheses, a point is an optimum of the solver problem exactly when the values it gives to
the instances of the variables are an optimum of the study. -/
theorem c60_optimum_partial (I : StudyInput) (hI : I.Sound) (libs : Dict String Library) (hl : ShippedLibraries libs) (sys : System)
    (h1 : resolveSystem I.system libs = .ok sys) (net : Network) (h2 : buildNetwork sys = .ok net) (db : DataBase)
    (h3 : buildDataBase I.load I.system = .ok db) (x : OptCtx)
    (hx : x = { network := net, database := db, timesteps := I.steps, scenarios := I.scenarios })
    (ht : ∀ c ∈ net.allComponents, (∀ k ∈ c.model.allConstraints, ∀ t s : Nat, t < I.steps.length → s < I.scenarios →
      x.NoTiny c k.expression t s) ∧ ∀ e ∈ c.model.objectives, x.NoTiny c e 0 0)
    (st : OptState) (h : x.buildProblem = .ok st) (pt : Nat → ℚ) (σ : TermKey → ℚ)
    (hσ : ∀ k i, st.columns.get? k = some i → pt i = σ k) :
    (st.solver.Feasible pt ∧ ∀ pt', st.solver.Feasible pt' → st.solver.cost pt ≤ st.solver.cost pt') ↔
      (I.Accepts σ ∧ ∀ σ', I.Accepts σ' → I.cost σ ≤ I.cost σ') := by
  subst hx
  have hk := StudyInput.linked hI hl h1 h2
  have := c35_optimum_partial (I.context net db) (hk.networkOk db hI) (hk.dataOk hI h3) (hk.varsOk db)
    (hk.constraintsOk db hI fun c hc => (ht c hc).1) (hk.objectivesOk db fun c hc => (ht c hc).2) st h pt σ hσ
  simp only [hk.feasible_iff hI h3, hk.cost_eq hI h3] at this
  exact this

/-! ## An example -/

/-- an area with a load and a demand response, two timesteps and one scenario -/
def shippedDemoStudy : StudyInput where
  system :=
    { nodes := [⟨"A", "antares-historic.area", none, [⟨"spillage_cost", false, false, .number 1, none⟩, ⟨"ens_cost", false, false, .number 1000, none⟩]⟩]
      components :=
        [⟨"L", "antares-historic.load", none, [⟨"load", true, false, .name "load", none⟩]⟩,
         ⟨"D", "andromede-v1-models.dsr", none, [⟨"max_load", false, false, .number 5, none⟩, ⟨"curtailment_price", false, false, .number 50, none⟩]⟩]
      connections := [⟨"A", "balance_port", "L", "balance_port"⟩, ⟨"D", "balance_port", "A", "balance_port"⟩] }
  load n := if n = "load" then .ok ⟨1, [[0], [10], [20]]⟩ else .error (.exception n)
  steps := [1, 2]
  scenarios := 1

def shippedDemoLibs : Dict String Library := [("antares-historic", antaresLibrary), ("andromede-v1-models", andromedeLibrary)]

theorem shippedDemoLibs_shipped : ShippedLibraries shippedDemoLibs := by
  intro k l h
  have := Dict.mem_of_get? h
  simp only [shippedDemoLibs, List.mem_cons, Prod.mk.injEq, List.not_mem_nil, or_false] at this
  rcases this with ⟨rfl, rfl⟩ | ⟨rfl, rfl⟩
  · exact ⟨antaresInput, by simp, rfl, by decide +kernel⟩
  · exact ⟨andromedeInput, by simp, rfl, by decide +kernel⟩

def shippedDemoA : Component := ⟨antaresAreaModel, "A"⟩
def shippedDemoL : Component := ⟨antaresLoadModel, "L"⟩
def shippedDemoD : Component := ⟨andromedeDsrModel, "D"⟩

/-- the network that is built -/
def shippedDemoNet : Network where
  id := "study"
  nodes := [("A", shippedDemoA)]
  components := [("L", shippedDemoL), ("D", shippedDemoD)]
  connections :=
    [⟨⟨shippedDemoA, "balance_port"⟩, ⟨shippedDemoL, "balance_port"⟩, [("flow", ⟨shippedDemoL, "balance_port"⟩)]⟩,
     ⟨⟨shippedDemoD, "balance_port"⟩, ⟨shippedDemoA, "balance_port"⟩, [("flow", ⟨shippedDemoD, "balance_port"⟩)]⟩]

theorem shippedDemo_resolved : ∃ sys, resolveSystem shippedDemoStudy.system shippedDemoLibs = .ok sys ∧ buildNetwork sys = .ok shippedDemoNet :=
  ⟨_, rfl, rfl⟩

/-- the data base that is built -/
def shippedDemoData : DataBase :=
  [(("L", "load"), .timeSeries [(0, 0), (1, 10), (2, 20)]), (("D", "max_load"), .const 5), (("D", "curtailment_price"), .const 50),
   (("A", "spillage_cost"), .const 1), (("A", "ens_cost"), .const 1000)]

theorem shippedDemo_data : buildDataBase shippedDemoStudy.load shippedDemoStudy.system = .ok shippedDemoData := rfl

/-- the problem that is built -/
def shippedDemoProblem : OptState := match (shippedDemoStudy.context shippedDemoNet shippedDemoData).buildProblem with
  | .ok st => st
  | .error _ => {}

theorem shippedDemo_builds : (shippedDemoStudy.context shippedDemoNet shippedDemoData).buildProblem = .ok shippedDemoProblem := by
  have : (shippedDemoStudy.context shippedDemoNet shippedDemoData).buildProblem.isOk = true := by decide +kernel
  unfold shippedDemoProblem
  cases h : (shippedDemoStudy.context shippedDemoNet shippedDemoData).buildProblem with
  | ok st => rfl
  | error e => rw [h] at this; cases this

theorem declaredEntry_mem {load : String → R Frame} {p : InputParam} {t s : Int} {v : Num} (h : declaredEntry load p t s = some v) :
    p.value = .number v ∨ ∃ n f row, p.value = .name n ∧ load n = .ok f ∧ row ∈ f.rows ∧ v ∈ row := by
  unfold declaredEntry at h
  cases hv : p.value with
  | number w => rw [hv] at h; simp only [Option.some.injEq] at h; subst h; exact .inl rfl
  | name n =>
    rw [hv] at h
    dsimp only at h
    cases hl : load n with
    | error e => rw [hl] at h; cases h
    | ok f =>
      rw [hl] at h
      simp only [Option.bind_eq_some_iff] at h
      obtain ⟨row, h1, h2⟩ := h
      have hm : ∀ {α} {l : List α} {i : Int} {x : α}, atPos l i = some x → x ∈ l := by
        intro α l i x h
        unfold atPos at h
        split_ifs at h
        exact List.mem_of_getElem? h
      exact .inr ⟨n, f, row, rfl, hl, hm h1, hm h2⟩

theorem shippedDemo_sound : shippedDemoStudy.Sound := by
  refine ⟨by decide, by decide, ?_, ?_, by decide, by decide, by decide, ?_⟩
  · intro n f h
    simp only [shippedDemoStudy] at h
    split_ifs at h
    cases h
    simp [Frame.Rectangular]
  · intro c hc p hp t s v h
    rcases declaredEntry_mem h with h | ⟨n, f, row, h, hl, hr, hv⟩
    · simp only [StudyInput.declared, shippedDemoStudy, List.cons_append, List.nil_append, List.mem_cons, List.not_mem_nil, or_false] at hc
      rcases hc with rfl | rfl | rfl <;> simp only [List.mem_cons, List.not_mem_nil, or_false] at hp <;> (try casesm* _ ∨ _) <;> subst hp <;> cases h <;> rfl
    · simp only [shippedDemoStudy] at hl
      split_ifs at hl
      cases hl
      simp only [List.mem_cons, List.not_mem_nil, or_false] at hr
      rcases hr with rfl | rfl | rfl <;> simp only [List.mem_cons, List.not_mem_nil, or_false] at hv <;> subst hv <;> rfl
  · intro c hc p hp r hr q hq hid
    simp only [StudyInput.declared, shippedDemoStudy, List.cons_append, List.nil_append, List.mem_cons, List.not_mem_nil, or_false] at hc
    rcases hc with rfl | rfl | rfl
    · have : r = Rules.area := by cases hr; rfl
      subst this
      simp only [List.mem_cons, List.not_mem_nil, or_false] at hp
      rcases hp with rfl | rfl <;> exact ⟨by simp, by simp⟩
    · have : r = Rules.load := by cases hr; rfl
      subst this
      simp only [List.mem_cons, List.not_mem_nil, or_false] at hp
      subst hp
      simp only [Rules.load, List.mem_cons, List.not_mem_nil, or_false] at hq
      subst hq
      exact ⟨by simp, by simp⟩
    · have : r = Rules.dsr := by cases hr; rfl
      subst this
      simp only [List.mem_cons, List.not_mem_nil, or_false] at hp
      rcases hp with rfl | rfl <;> exact ⟨by simp, by simp⟩

theorem shippedDemo_noTiny : ∀ c ∈ shippedDemoNet.allComponents, (∀ k ∈ c.model.allConstraints, ∀ t s : Nat, t < shippedDemoStudy.steps.length →
    s < shippedDemoStudy.scenarios → (shippedDemoStudy.context shippedDemoNet shippedDemoData).NoTiny c k.expression t s) ∧
    ∀ e ∈ c.model.objectives, (shippedDemoStudy.context shippedDemoNet shippedDemoData).NoTiny c e 0 0 := by
  intro c hc
  simp only [shippedDemoNet, Network.allComponents, Dict.values, List.map_cons, List.map_nil, List.cons_append, List.nil_append,
    List.mem_cons, List.not_mem_nil, or_false] at hc
  rcases hc with rfl | rfl | rfl
  · refine ⟨?_, ?_⟩
    · intro k hk t s _ _
      simp only [shippedDemoA, Model.allConstraints, antaresAreaModel, Dict.values, List.map_cons, List.map_nil, List.append_nil,
        List.mem_cons, List.not_mem_nil, or_false] at hk
      subst hk
      refine noTiny_of_int (-(shippedDemoStudy.context shippedDemoNet shippedDemoData).dataValue "L" "load" (some t) (some s) - 5)
        [(⟨"D", "curtailment", some t, some s⟩, 1), (⟨"A", "spillage", some t, some s⟩, -1), (⟨"A", "unsupplied_energy", some t, some s⟩, 1)]
        fun var => ?_
      show (-(shippedDemoStudy.context shippedDemoNet shippedDemoData).dataValue "L" "load" (some (t : Int)) (some (s : Int)) +
        ((-5 + (var "D" "curtailment" (some (t : Int)) (some (s : Int)) + 0)) + 0)) +
        (-var "A" "spillage" (some (t : Int)) (some (s : Int)) + (- -var "A" "unsupplied_energy" (some (t : Int)) (some (s : Int)) + 0)) = _
      simp only [List.map_cons, List.map_nil, List.sum_cons, List.sum_nil]
      push_cast
      ring
    · intro e he
      simp only [shippedDemoA, Model.objectives, antaresAreaModel, Option.toList, List.append_nil, List.mem_cons, List.not_mem_nil, or_false] at he
      subst he
      refine noTiny_of_int 0
        [(⟨"A", "spillage", some 0, some 0⟩, 1), (⟨"A", "unsupplied_energy", some 0, some 0⟩, 1000),
         (⟨"A", "spillage", some 1, some 0⟩, 1), (⟨"A", "unsupplied_energy", some 1, some 0⟩, 1000)] fun var => ?_
      show (∑ w ∈ Finset.range 1, ∑ u ∈ Finset.range 2, (1 * var "A" "spillage" (some (u : Int)) (some (w : Int)) +
        (1000 * var "A" "unsupplied_energy" (some (u : Int)) (some (w : Int)) + 0))) / ((1 : Nat) : ℚ) = _
      rw [Finset.sum_range_one, Finset.sum_range_succ, Finset.sum_range_one]
      simp only [List.map_cons, List.map_nil, List.sum_cons, List.sum_nil]
      push_cast
      ring
  · refine ⟨?_, ?_⟩
    · intro k hk; simp [shippedDemoL, Model.allConstraints, antaresLoadModel, Dict.values] at hk
    · intro e he; simp [shippedDemoL, Model.objectives, antaresLoadModel] at he
  · refine ⟨?_, ?_⟩
    · intro k hk; simp [shippedDemoD, Model.allConstraints, andromedeDsrModel, Dict.values] at hk
    · intro e he
      simp only [shippedDemoD, Model.objectives, andromedeDsrModel, Option.toList, List.append_nil, List.mem_cons, List.not_mem_nil, or_false] at he
      subst he
      refine noTiny_of_int 0 [(⟨"D", "curtailment", some 0, some 0⟩, 50), (⟨"D", "curtailment", some 1, some 0⟩, 50)] fun var => ?_
      show (∑ w ∈ Finset.range 1, ∑ u ∈ Finset.range 2, var "D" "curtailment" (some (u : Int)) (some (w : Int)) * 50) / ((1 : Nat) : ℚ) = _
      rw [Finset.sum_range_one, Finset.sum_range_succ, Finset.sum_range_one]
      simp only [List.map_cons, List.map_nil, List.sum_cons, List.sum_nil]
      push_cast
      ring

/-- what this study means: the demand response curtails at most its 5, and in the area nothing supplies the load (10 then 20) and what is
left of the 5, so that unsupplied energy and spillage balance them -/
theorem shippedDemo_accepts (σ : TermKey → ℚ) : shippedDemoStudy.Accepts σ ↔ ∀ t : Nat, t < 2 →
    (0 ≤ σ ⟨"D", "curtailment", some t, some 0⟩ ∧ σ ⟨"D", "curtailment", some t, some 0⟩ ≤ 5) ∧
    0 ≤ σ ⟨"A", "spillage", some t, some 0⟩ ∧ 0 ≤ σ ⟨"A", "unsupplied_energy", some t, some 0⟩ ∧
    -(10 * (t + 1)) - (5 - σ ⟨"D", "curtailment", some t, some 0⟩) + σ ⟨"A", "unsupplied_energy", some t, some 0⟩ =
      σ ⟨"A", "spillage", some t, some 0⟩ := by
  have hA : ∀ t : Nat, t < 2 → (Rules.area.accepts (shippedDemoStudy.readings σ "A") t (0 : Nat) ↔
      0 ≤ σ ⟨"A", "spillage", some t, some 0⟩ ∧ 0 ≤ σ ⟨"A", "unsupplied_energy", some t, some 0⟩ ∧
      -(10 * (t + 1)) - (5 - σ ⟨"D", "curtailment", some t, some 0⟩) + σ ⟨"A", "unsupplied_energy", some t, some 0⟩ =
        σ ⟨"A", "spillage", some t, some 0⟩) := by
    intro t ht
    interval_cases t
    · show (0 ≤ σ ⟨"A", "spillage", some 0, some 0⟩ ∧ 0 ≤ σ ⟨"A", "unsupplied_energy", some 0, some 0⟩ ∧
        ((-10 + 0) + ((0 + (σ ⟨"D", "curtailment", some 0, some 0⟩ - 5)) + 0)) + σ ⟨"A", "unsupplied_energy", some 0, some 0⟩ =
          σ ⟨"A", "spillage", some 0, some 0⟩) ↔ _
      refine and_congr_right fun _ => and_congr_right fun _ => ?_
      push_cast
      constructor <;> intro h <;> linarith
    · show (0 ≤ σ ⟨"A", "spillage", some 1, some 0⟩ ∧ 0 ≤ σ ⟨"A", "unsupplied_energy", some 1, some 0⟩ ∧
        ((-20 + 0) + ((0 + (σ ⟨"D", "curtailment", some 1, some 0⟩ - 5)) + 0)) + σ ⟨"A", "unsupplied_energy", some 1, some 0⟩ =
          σ ⟨"A", "spillage", some 1, some 0⟩) ↔ _
      refine and_congr_right fun _ => and_congr_right fun _ => ?_
      push_cast
      constructor <;> intro h <;> linarith
  have hD : ∀ t : Nat, t < 2 → (Rules.dsr.accepts (shippedDemoStudy.readings σ "D") t (0 : Nat) ↔
      0 ≤ σ ⟨"D", "curtailment", some t, some 0⟩ ∧ σ ⟨"D", "curtailment", some t, some 0⟩ ≤ 5) := by
    intro t ht
    interval_cases t <;> exact Iff.rfl
  constructor
  · intro h t ht
    refine ⟨(hD t ht).1 ?_, (hA t ht).1 ?_⟩
    · exact h (shippedDemoStudy.declared[2]'(by decide)) (List.getElem_mem _) Rules.dsr rfl t 0 ht (by decide)
    · exact h (shippedDemoStudy.declared[0]'(by decide)) (List.getElem_mem _) Rules.area rfl t 0 ht (by decide)
  · intro h c hc r hr t s ht hs
    have hs : s = 0 := Nat.lt_one_iff.1 hs
    subst hs
    simp only [StudyInput.declared, shippedDemoStudy, List.cons_append, List.nil_append, List.mem_cons, List.not_mem_nil, or_false] at hc
    rcases hc with rfl | rfl | rfl
    · have : r = Rules.area := by cases hr; rfl
      subst this
      exact (hA t ht).2 (h t ht).2
    · have : r = Rules.load := by cases hr; rfl
      subst this
      trivial
    · have : r = Rules.dsr := by cases hr; rfl
      subst this
      exact (hD t ht).2 (h t ht).1

/-- All hypotheses of C60 are met by this study, so the solver problem accepts exactly the points with this meaning: for example not
supplying 15 then 25 without curtailment, at a cost of 40000. -/
example (pt : Nat → ℚ) (σ : TermKey → ℚ) (hσ : ∀ k i, shippedDemoProblem.columns.get? k = some i → pt i = σ k) :
    (shippedDemoProblem.solver.Feasible pt ↔ shippedDemoStudy.Accepts σ) ∧ shippedDemoProblem.solver.cost pt = shippedDemoStudy.cost σ := by
  obtain ⟨sys, h1, h2⟩ := shippedDemo_resolved
  exact c60_study_partial shippedDemoStudy shippedDemo_sound shippedDemoLibs shippedDemoLibs_shipped sys h1 shippedDemoNet h2 shippedDemoData shippedDemo_data _ rfl shippedDemo_noTiny shippedDemoProblem
    shippedDemo_builds pt σ hσ

example : shippedDemoStudy.Accepts fun k => if k.var = "unsupplied_energy" then (if k.time = some 0 then 15 else 25) else 0 := by
  rw [shippedDemo_accepts]
  intro t ht
  interval_cases t <;> simp <;> norm_num

end Verif.Props
