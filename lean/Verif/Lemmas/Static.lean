import Verif.Lemmas.NoScenario
import Verif.Props.Fusion

/-! The study of a tree node is split between its master problem and its subproblems. -/

namespace Verif
open Expr OptCtx

/-! ## Static expressions have the same value everywhere -/

theorem static_mden {x y : OptCtx} (hnet : y.network = x.network) (hdb : y.database = x.database)
    (hnode : y.treeNode = x.treeNode) (hn : x.NetworkOk) {c : Component} (hc : c ∈ x.network.allComponents)
    (var var' : String → String → Option Int → Option Int → ℚ) 
    (hv : ∀ n v, c.model.variables_.get? n = some v → v.IsDecision → var c.id n none none = var' c.id n none none)
    (t s t' s' : Int) (e : Expr) (hs : c.Static e) :
    mden (x.readAs (x.unwrapped var) c) e t s = mden (y.readAs (y.unwrapped var') c) e t' s' := by
  have hgx := Props.getComponent_of_mem hn hc
  have hgy : y.network.getComponent c.id = .ok c := by rw [hnet]; exact hgx
  obtain ⟨hp, hvr, hpr⟩ := hs
  induction e using Expr.ind with
  | lit v => cases v <;> simp [mden]
  | var n =>
    obtain ⟨v, h1, h2, h3⟩ := hvr n (mem_subs_self _)
    simp only [mden, readAs, componentCtx, unwrapped, varIdx, hgx, hgy, h1, Option.map_some, Option.getD_some, h2, atT, atS]
    exact hv n v h1 h3
  | par n =>
    obtain ⟨v, h1, h2⟩ := hpr n (mem_subs_self _)
    simp only [mden, readAs, componentCtx, unwrapped, parIdx, hgx, hgy, h1, Option.map_some, Option.getD_some, h2, atT, atS]
    simp only [dataValue, hdb, hnode]
    rfl
  | neg e ih =>
    simp only [mden]
    rw [ih (fun y hy => hp y (by simp [subs, hy])) (fun n h => hvr n (by simp [subs, h])) fun n h => hpr n (by simp [subs, h])]
  | add es ih =>
    have h' : ∀ e ∈ es, mden (x.readAs (x.unwrapped var) c) e t s = mden (y.readAs (y.unwrapped var') c) e t' s' := fun e he =>
      ih e he (fun y hy => hp y (mem_subs_add.2 (.inr ⟨e, he, hy⟩))) (fun n h => hvr n (mem_subs_add.2 (.inr ⟨e, he, h⟩)))
        fun n h => hpr n (mem_subs_add.2 (.inr ⟨e, he, h⟩))
    simp only [mden]
    clear ih hp hvr hpr
    induction es with
    | nil => rfl
    | cons e es ihl =>
      simp only [mdenSum]
      rw [h' e (by simp), ihl fun e he => h' e (by simp [he])]
  | mul l r ihl ihr | div l r ihl ihr =>
    simp only [mden]
    rw [ihl (fun y hy => hp y (by simp [subs, hy])) (fun n h => hvr n (by simp [subs, h])) fun n h => hpr n (by simp [subs, h]),
      ihr (fun y hy => hp y (by simp [subs, hy])) (fun n h => hvr n (by simp [subs, h])) fun n h => hpr n (by simp [subs, h])]
  | cvar | cpar | pvar | ppar | portField | cmp | shift | evalT | tsum | allsum | scen | agg =>
    exact absurd (hp _ (mem_subs_self _)) (by simp [isPlain])

theorem aboveBound_congr {M M' : MCtx} {b : Expr} {t s t' s' : Int} (h : mden M b t s = mden M' b t' s') (q : ℚ) :
    aboveBound M b q t s ↔ aboveBound M' b q t' s' := by
  unfold aboveBound
  split <;> simp [h]

theorem belowBound_congr {M M' : MCtx} {b : Expr} {t s t' s' : Int} (h : mden M b t s = mden M' b t' s') (q : ℚ) :
    belowBound M b q t s ↔ belowBound M' b q t' s' := by
  unfold belowBound
  split <;> simp [h]

/-- the reading of a static expression with given values of the instances -/
theorem static_readIn {x y : OptCtx} (hnet : y.network = x.network) (hdb : y.database = x.database)
    (hnode : y.treeNode = x.treeNode) (hn : x.NetworkOk) {c : Component} (hc : c ∈ x.network.allComponents)
    (σ : TermKey → ℚ) (t s t' s' : Int) (e : Expr) (hs : c.Static e) :
    mden (x.readIn σ c) e t s = mden (y.readIn σ c) e t' s' :=
  static_mden hnet hdb hnode hn hc (fun c v t s => σ ⟨c, v, t.map (· % (x.T : Int)), s⟩) (fun c v t s => σ ⟨c, v, t.map (· % (y.T : Int)), s⟩)
    (fun _ _ _ _ => rfl) t s t' s' e hs

/-! ## The contexts of a node -/

theorem isDecision_iff (v : Variable) : investmentStrategy.keep v.context = true ↔ v.IsDecision := by
  unfold Variable.IsDecision investmentStrategy
  cases v.context <;> simp

theorem keepConstraint_iff (k : Constraint) : investmentStrategy.keep k.context = true ↔ k.context ≠ .operational := by
  unfold investmentStrategy
  cases k.context <;> simp

theorem mem_investVariables {m : Model} {v : Variable} :
    v ∈ investmentStrategy.getVariables m ↔ v ∈ m.variables_.values ∧ v.IsDecision := by
  rw [Strategy.getVariables, List.mem_filter, isDecision_iff]

theorem mem_investConstraints {m : Model} {k : Constraint} :
    k ∈ investmentStrategy.getConstraints m ↔ k ∈ m.allConstraints ∧ k.context ≠ .operational := by
  rw [Strategy.getConstraints, List.mem_filter, keepConstraint_iff]

theorem mem_allVariables {m : Model} {v : Variable} : v ∈ mergedStrategy.getVariables m ↔ v ∈ m.variables_.values := by
  rw [Strategy.getVariables, List.mem_filter]
  simp [mergedStrategy]

theorem mem_allConstraints {m : Model} {k : Constraint} : k ∈ mergedStrategy.getConstraints m ↔ k ∈ m.allConstraints := by
  rw [Strategy.getConstraints, List.mem_filter]
  simp [mergedStrategy]

theorem operVariables_mem {m : Model} {v : Variable} (h : v ∈ operationalStrategy.getVariables m) : v ∈ m.variables_.values :=
  (List.mem_filter.1 h).1

theorem operConstraints_mem {m : Model} {k : Constraint} (h : k ∈ operationalStrategy.getConstraints m) : k ∈ m.allConstraints :=
  (List.mem_filter.1 h).1

/-- the master problem of a node, with one scenario -/
def master1 (database : DataBase) (t : DTree) : OptCtx := (masterCtx database t).withScenarios 1

section
variable {db : DataBase} {t : DTree} {b : TimeBlock}

theorem StudyOk.subNetwork (h : StudyOk db t b) : (subproblemCtx db t b).NetworkOk :=
  ⟨h.network.ids, h.network.keyed, h.network.vars, h.network.varsNodup, h.network.accepted, h.network.clean⟩

theorem StudyOk.masterNetwork (h : StudyOk db t b) : (masterCtx db t).NetworkOk :=
  ⟨h.network.ids, h.network.keyed, h.network.vars, h.network.varsNodup, h.network.accepted, h.network.clean⟩

theorem StudyOk.master1Network (h : StudyOk db t b) : (master1 db t).NetworkOk :=
  ⟨h.network.ids, h.network.keyed, h.network.vars, h.network.varsNodup, h.network.accepted, h.network.clean⟩

theorem StudyOk.subData (h : StudyOk db t b) : (subproblemCtx db t b).DataOk :=
  ⟨h.data.cycle, h.data.block, h.data.finite, h.data.time, h.data.scenario⟩

theorem StudyOk.master1Data (h : StudyOk db t b) : (master1 db t).DataOk :=
  ⟨rfl, by simp [master1, masterCtx, withScenarios], h.data.finite, h.data.time, h.data.scenario⟩

theorem StudyOk.subVars (h : StudyOk db t b) : (subproblemCtx db t b).VarsOk :=
  ⟨fun c hc v hv => h.vars.bounds c hc v (mem_allVariables.2 (operVariables_mem hv)),
    fun c hc v hv => h.vars.boolean c hc v (mem_allVariables.2 (operVariables_mem hv))⟩

theorem StudyOk.subConstraints (h : StudyOk db t b) : (subproblemCtx db t b).ConstraintsOk where
  scenarios := h.constraints.scenarios
  exprs c hc k hk := h.constraints.exprs c hc k (mem_allConstraints.2 (operConstraints_mem hk))
  noTiny c hc k hk := h.constraints.noTiny c hc k (mem_allConstraints.2 (operConstraints_mem hk))
  covered ports hreg c hc k hk := by
    obtain ⟨h1, h2⟩ := h.constraints.covered ports hreg c hc k (mem_allConstraints.2 (operConstraints_mem hk))
    exact ⟨h1, h2⟩

theorem sub_contributions {c : Component} {e : Expr} (he : e ∈ (subproblemCtx db t b).contributions c) :
    e ∈ ({ t.study db b with risk := expectedValue t.prob } : OptCtx).contributions c := by
  unfold OptCtx.contributions at he ⊢
  obtain ⟨f, hf, rfl⟩ := List.mem_map.1 he
  refine List.mem_map.2 ⟨f, ?_, rfl⟩
  rw [List.mem_filterMap] at hf ⊢
  obtain ⟨o, ho, hof⟩ := hf
  refine ⟨o, ?_, hof⟩
  have : o ∈ [c.model.objectiveOperational] := ho
  rw [List.mem_singleton] at this
  subst this
  exact List.mem_cons_self

theorem master_contributions {c : Component} {e : Expr} (he : e ∈ (master1 db t).contributions c) :
    e ∈ ({ t.study db b with risk := expectedValue t.prob } : OptCtx).contributions c ∧
      ∃ f, c.model.objectiveInvestment = some f ∧ e = expectedValue t.prob f := by
  unfold OptCtx.contributions at he ⊢
  obtain ⟨f, hf, rfl⟩ := List.mem_map.1 he
  rw [List.mem_filterMap] at hf
  obtain ⟨o, ho, hof⟩ := hf
  have : o ∈ [c.model.objectiveInvestment] := ho
  rw [List.mem_singleton] at this
  subst this
  refine ⟨List.mem_map.2 ⟨f, ?_, rfl⟩, f, hof, rfl⟩
  rw [List.mem_filterMap]
  exact ⟨c.model.objectiveInvestment, List.mem_cons_of_mem _ List.mem_cons_self, hof⟩

theorem StudyOk.subObjectives (h : StudyOk db t b) : (subproblemCtx db t b).ObjectivesOk :=
  ⟨fun c hc e he => h.objectives.exprs c hc e (sub_contributions he), fun c hc e he => h.objectives.index c hc e (sub_contributions he)⟩

theorem static_weighted {c : Component} {f : Expr} {p : Num} (hf : c.Static f) : c.Static (expectedValue p f) := by
  refine ⟨fun y hy => ?_, fun n hn => ?_, fun n hn => ?_⟩
  · simp only [expectedValue, mulOp, subs, List.mem_cons, List.mem_append, List.not_mem_nil, or_false] at hy
    rcases hy with rfl | rfl | hy
    · rfl
    · rfl
    · exact hf.plain y hy
  · simp only [expectedValue, mulOp, subs, List.mem_cons, List.mem_append, List.not_mem_nil, or_false, reduceCtorEq, false_or] at hn
    exact hf.vars n hn
  · simp only [expectedValue, mulOp, subs, List.mem_cons, List.mem_append, List.not_mem_nil, or_false, reduceCtorEq, false_or] at hn
    exact hf.pars n hn

theorem noTiny_static (h : StudyOk db t b) {y : OptCtx} (hnet : y.network = t.network) (hdb : y.database = db)
    (hnode : y.treeNode = t.id) {c : Component} (hc : c ∈ t.network.allComponents) {e : Expr} (hs : c.Static e)
    (a a' i i' : Int) (hno : (t.study db b).NoTiny c e a a') : y.NoTiny c e i i' := by
  intro var k
  have hk := hno var k
  have key : ∀ v, mden (y.readAs (y.unwrapped v) c) e i i' = mden ((t.study db b).readAs ((t.study db b).unwrapped v) c) e a a' :=
    fun v => (static_mden hnet hdb hnode h.network hc v v (fun _ _ _ _ => rfl) a a' i i' e hs).symm
  simp only [key] at hk ⊢
  exact hk

theorem StudyOk.master1Vars (h : StudyOk db t b) (hs : t.network.Strategic) : (master1 db t).VarsOk where
  bounds c hc v hv := h.vars.bounds c hc v (mem_allVariables.2 (mem_investVariables.1 hv).1)
  boolean c hc v hv hb σ q i j hq := by
    obtain ⟨hv1, hv2⟩ := mem_investVariables.1 hv
    obtain ⟨h1, h2⟩ := h.vars.boolean c hc v (mem_allVariables.2 hv1) hb σ q 0 0 hq
    have hst := hs.bounds c hc v hv1 hv2
    constructor
    · unfold aboveOpt at h1 ⊢
      cases hl : v.lowerBound with
      | none => trivial
      | some e =>
        rw [hl] at h1
        exact (aboveBound_congr (static_readIn (x := t.study db b) (y := master1 db t) rfl rfl rfl h.network hc σ 0 0 i j e
          (hst e (.inl hl))) q).1 h1
    · unfold belowOpt at h2 ⊢
      cases hl : v.upperBound with
      | none => trivial
      | some e =>
        rw [hl] at h2
        exact (belowBound_congr (static_readIn (x := t.study db b) (y := master1 db t) rfl rfl rfl h.network hc σ 0 0 i j e
          (hst e (.inr hl))) q).1 h2

theorem StudyOk.master1Constraints (h : StudyOk db t b) (hs : t.network.Strategic) : (master1 db t).ConstraintsOk where
  scenarios := Nat.one_pos
  exprs c hc k hk := h.constraints.exprs c hc k (mem_allConstraints.2 (mem_investConstraints.1 hk).1)
  noTiny c hc k hk i j _ _ := by
    obtain ⟨h1, h2⟩ := mem_investConstraints.1 hk
    refine noTiny_static h rfl rfl rfl hc (hs.constraints c hc k h1 h2).1 _ _ _ _
      (h.constraints.noTiny c hc k (mem_allConstraints.2 h1) 0 0 (T_pos h.data) h.constraints.scenarios)
  covered ports _ c hc k hk := by
    obtain ⟨h1, h2⟩ := mem_investConstraints.1 hk
    obtain ⟨-, hl, hu⟩ := hs.constraints c hc k h1 h2
    have hb : ∀ b, b = k.lowerBound ∨ b = k.upperBound → c.Static b := by
      rintro b (rfl | rfl)
      · exact hl
      · exact hu
    exact ⟨fun e i _ _ _ b' hb' σ u u' s => static_readIn rfl rfl rfl h.master1Network hc σ u s u' s b' (hb b' hb'),
      fun e i _ _ _ b' hb' σ u s s' => static_readIn rfl rfl rfl h.master1Network hc σ u s u s' b' (hb b' hb')⟩

theorem StudyOk.master1Objectives (h : StudyOk db t b) (hs : t.network.Strategic) : (master1 db t).ObjectivesOk where
  exprs c hc e he := by
    obtain ⟨h1, f, hf, rfl⟩ := master_contributions (b := b) he
    obtain ⟨h2, h3⟩ := h.objectives.exprs c hc _ h1
    exact ⟨h2, noTiny_static h rfl rfl rfl hc (static_weighted (hs.objective c hc f hf)) _ _ _ _ h3⟩
  index c hc e he := h.objectives.index c hc e (master_contributions (b := b) he).1

theorem StudyOk.selectsStatic (hs : t.network.Strategic) : (masterCtx db t).SelectsStatic where
  structure_ c hc v hv := hs.structure_ c hc v (mem_investVariables.1 hv).1 (mem_investVariables.1 hv).2
  constraints c hc k hk := (hs.constraints c hc k (mem_investConstraints.1 hk).1 (mem_investConstraints.1 hk).2).1
  objective c hc e he := by
    have : some e ∈ [c.model.objectiveInvestment] := he
    rw [List.mem_singleton] at this
    exact static_weighted (hs.objective c hc e this.symm)

/-- the master problem is what it would be with one scenario -/
theorem StudyOk.masterBuild (h : StudyOk db t b) (hs : t.network.Strategic) :
    (masterCtx db t).buildProblem = (master1 db t).buildProblem :=
  (build_scenarios h.masterNetwork (StudyOk.selectsStatic hs) 1).symm

/-! ## The split -/

theorem static_holds {x y : OptCtx} (hnet : y.network = x.network) (hdb : y.database = x.database)
    (hnode : y.treeNode = x.treeNode) (hn : x.NetworkOk) {c : Component} (hc : c ∈ x.network.allComponents)
    (σ : TermKey → ℚ) (t s t' s' : Int) (k : Constraint) (hs : c.Static k.expression ∧ c.Static k.lowerBound ∧ c.Static k.upperBound) :
    k.Holds (x.readIn σ c) t s ↔ k.Holds (y.readIn σ c) t' s' := by
  unfold Constraint.Holds
  rw [static_readIn hnet hdb hnode hn hc σ t s t' s' _ hs.1,
    aboveBound_congr (static_readIn hnet hdb hnode hn hc σ t s t' s' _ hs.2.1),
    belowBound_congr (static_readIn hnet hdb hnode hn hc σ t s t' s' _ hs.2.2)]

theorem keep_cases (k : ProblemContext) : (operationalStrategy.keep k = true) ∨ (k ≠ .operational) := by
  cases k <;> simp [operationalStrategy]

theorem aboveOpt_congr {M M' : MCtx} {b : Option Expr} {t s t' s' : Int} (h : ∀ e, b = some e → mden M e t s = mden M' e t' s')
    (q : ℚ) : aboveOpt M b q t s ↔ aboveOpt M' b q t' s' := by
  cases b with
  | none => exact Iff.rfl
  | some e => exact aboveBound_congr (h e rfl) q

theorem belowOpt_congr {M M' : MCtx} {b : Option Expr} {t s t' s' : Int} (h : ∀ e, b = some e → mden M e t s = mden M' e t' s')
    (q : ℚ) : belowOpt M b q t s ↔ belowOpt M' b q t' s' := by
  cases b with
  | none => exact Iff.rfl
  | some e => exact belowBound_congr (h e rfl) q

/-- The study of a node is satisfied exactly when its investment part and its operational part are. -/
theorem study_split (h : StudyOk db t b) (hs : t.network.Strategic) (σ : TermKey → ℚ) :
    (t.study db b).MathFeasible σ ↔ (master1 db t).MathFeasible σ ∧ (subproblemCtx db t b).MathFeasible σ := by
  have hT := T_pos h.data
  have hS := h.constraints.scenarios
  have hvar : ∀ c ∈ t.network.allComponents, ∀ v ∈ c.model.variables_.values, v.IsDecision → ∀ i j i' j' : Int,
      (aboveOpt ((t.study db b).readIn σ c) v.lowerBound (σ (instanceAt c v i j)) i j ∧
        belowOpt ((t.study db b).readIn σ c) v.upperBound (σ (instanceAt c v i j)) i j ∧ ofType v.dataType (σ (instanceAt c v i j))) ↔
      (aboveOpt ((master1 db t).readIn σ c) v.lowerBound (σ (instanceAt c v i' j')) i' j' ∧
        belowOpt ((master1 db t).readIn σ c) v.upperBound (σ (instanceAt c v i' j')) i' j' ∧ ofType v.dataType (σ (instanceAt c v i' j'))) := by
    intro c hc v hv hd i j i' j'
    have hst := hs.structure_ c hc v hv hd
    have hi : instanceAt c v i j = instanceAt c v i' j' := by
      unfold instanceAt
      rw [hst]
      rfl
    rw [hi]
    have hb := hs.bounds c hc v hv hd
    rw [aboveOpt_congr (M' := (master1 db t).readIn σ c) (t' := i') (s' := j')
        fun e he => static_readIn (x := t.study db b) (y := master1 db t) rfl rfl rfl h.network hc σ i j i' j' e (hb e (.inl he)),
      belowOpt_congr (M' := (master1 db t).readIn σ c) (t' := i') (s' := j')
        fun e he => static_readIn (x := t.study db b) (y := master1 db t) rfl rfl rfl h.network hc σ i j i' j' e (hb e (.inr he))]
  constructor
  · rintro ⟨h1, h2⟩
    refine ⟨⟨fun c hc v hv i j hi hj => ?_, fun c hc k hk i j hi hj => ?_⟩, ⟨fun c hc v hv => ?_, fun c hc k hk => ?_⟩⟩
    · obtain ⟨hv1, hv2⟩ := mem_investVariables.1 hv
      exact (hvar c hc v hv1 hv2 0 0 i j).1 (h1 c hc v (mem_allVariables.2 hv1) 0 0 hT hS)
    · obtain ⟨hk1, hk2⟩ := mem_investConstraints.1 hk
      exact (static_holds (x := t.study db b) (y := master1 db t) rfl rfl rfl h.network hc σ 0 0 i j k (hs.constraints c hc k hk1 hk2)).1
        (h2 c hc k (mem_allConstraints.2 hk1) 0 0 hT hS)
    · exact h1 c hc v (mem_allVariables.2 (operVariables_mem hv))
    · exact h2 c hc k (mem_allConstraints.2 (operConstraints_mem hk))
  · rintro ⟨⟨h1, h2⟩, ⟨h3, h4⟩⟩
    refine ⟨fun c hc v hv i j hi hj => ?_, fun c hc k hk i j hi hj => ?_⟩
    · have hv1 := mem_allVariables.1 hv
      rcases keep_cases v.context with ho | hd
      · exact h3 c hc v (List.mem_filter.2 ⟨hv1, ho⟩) i j hi hj
      · exact (hvar c hc v hv1 hd i j 0 0).2 (h1 c hc v (mem_investVariables.2 ⟨hv1, hd⟩) 0 0 Nat.one_pos Nat.one_pos)
    · have hk1 := mem_allConstraints.1 hk
      rcases keep_cases k.context with ho | hd
      · exact h4 c hc k (List.mem_filter.2 ⟨hk1, ho⟩) i j hi hj
      · exact (static_holds (x := t.study db b) (y := master1 db t) rfl rfl rfl h.network hc σ i j 0 0 k (hs.constraints c hc k hk1 hd)).2
          (h2 c hc k (mem_investConstraints.2 ⟨hk1, hd⟩) 0 0 Nat.one_pos Nat.one_pos)

theorem mden_weighted (M : MCtx) (p : Num) (e : Expr) (i j : Int) :
    mden M (expectedValue p e) i j = p.toQ * mden M e i j := by
  simp only [expectedValue, mulOp, mden]
  cases p <;> simp [mden, Num.toQ]

theorem sum_weighted {α} (p : ℚ) (l : List α) (f : α → ℚ) : (l.map fun a => p * f a).sum = p * (l.map f).sum := by
  rw [List.sum_map_mul_left]

/-- cost of the subproblem -/
theorem sub_cost (σ : TermKey → ℚ) : (subproblemCtx db t b).mathCost σ = t.prob.toQ * (t.study db b).operationalCost σ := by
  unfold OptCtx.mathCost OptCtx.operationalCost
  rw [← sum_weighted]
  congr 1
  refine List.map_congr_left fun c _ => ?_
  show ((((([c.model.objectiveOperational] : List (Option Expr)).filterMap id).map (expectedValue t.prob)).map
    fun e => mden ((t.study db b).readIn σ c) e 0 0).sum) = _
  cases ho : c.model.objectiveOperational with
  | none => simp [OptCtx.costIn]
  | some e => simp [OptCtx.costIn, mden_weighted]

/-- cost of the master problem -/
theorem master_cost (h : StudyOk db t b) (hs : t.network.Strategic) (σ : TermKey → ℚ) :
    (master1 db t).mathCost σ = t.prob.toQ * (t.study db b).investmentCost σ := by
  unfold OptCtx.mathCost OptCtx.investmentCost
  rw [← sum_weighted]
  congr 1
  refine List.map_congr_left fun c hc => ?_
  show ((((([c.model.objectiveInvestment] : List (Option Expr)).filterMap id).map (expectedValue t.prob)).map
    fun e => mden ((master1 db t).readIn σ c) e 0 0).sum) = _
  cases ho : c.model.objectiveInvestment with
  | none => simp [OptCtx.costIn]
  | some e =>
    simp only [List.filterMap_cons, id, List.filterMap_nil, List.map_cons, List.map_nil, List.sum_cons, List.sum_nil, add_zero,
      OptCtx.costIn, mden_weighted]
    rw [← static_readIn (x := t.study db b) (y := master1 db t) rfl rfl rfl h.network hc σ 0 0 0 0 e (hs.objective c hc e ho)]

end

/-! ## Named points -/

/-- the point given by the values of the names, when the values of the names are those of the instances -/
theorem pointOf_key {x : OptCtx} (hn : x.NetworkOk) {st : OptState} (h : x.buildProblem = .ok st) {val : String → ℚ}
    {σ : TermKey → ℚ} (hval : ∀ n ∈ x.instances, val (x.instName n) = σ n.key) (k : TermKey) (i : Nat)
    (hk : st.columns.get? k = some i) : st.solver.pointOf val i = σ k := by
  obtain ⟨_, _, _, hcols⟩ := build_columns hn h
  obtain ⟨n, hi, rfl⟩ := (hcols k i).1 hk
  have hnames := congrArg (·[i]?) (build_names hn h)
  simp only [List.getElem?_map, hi, Option.map_some] at hnames
  unfold Solver.pointOf
  cases hv : st.solver.vars[i]? with
  | none => rw [hv] at hnames; cases hnames
  | some v =>
    rw [hv] at hnames
    simp only [Option.map_some, Option.some.injEq] at hnames
    simp only [hnames]
    exact hval n (List.mem_of_getElem? hi)

/-- what a built problem means for values given to names -/
theorem build_named {x : OptCtx} (hn : x.NetworkOk) (hx : x.DataOk) (hv : x.VarsOk) (hk : x.ConstraintsOk)
    (ho : x.ObjectivesOk) {st : OptState} (h : x.buildProblem = .ok st) {val : String → ℚ}
    {σ : TermKey → ℚ} (hval : ∀ n ∈ x.instances, val (x.instName n) = σ n.key) :
    (st.solver.Holds val ↔ x.MathFeasible σ) ∧ st.solver.costOf val = x.mathCost σ :=
  Props.c35_build_partial x hn hx hv hk ho st h _ σ (pointOf_key hn h hval)

end Verif
