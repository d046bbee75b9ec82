import Verif.Lemmas.RotatedKept
import Verif.Lemmas.RotatedShipped
import Verif.Lemmas.Accepted
import Verif.Props.Rotated
import Verif.Props.StepsShipped

/-!
# C85 for what the program keeps of a study, and for what the command prints, with tiny coefficients
-/

namespace Verif.Props
open Verif Verif.Expr Verif.OptCtx Verif.Shipped

/-- the dependence of expressions is that of the block -/
theorem rotated_dependence {x x' : OptCtx} {r : Int} (h : x.Rotated r x') (c : Component) (e : Expr) : x'.dependence c e = x.dependence c e := by
  have h := h.network
  have hv : ∀ c n, x'.varIdx c n = x.varIdx c n := fun c n => by unfold OptCtx.varIdx; rw [h]
  have hp : ∀ c n, x'.parIdx c n = x.parIdx c n := fun c n => by unfold OptCtx.parIdx; rw [h]
  have hs : ∀ c P, x'.symbols c P = x.symbols c P := by
    intro c P
    unfold OptCtx.symbols
    congr 1 <;> first | (funext n; first | exact hv c n | exact hp c n) | (funext c n; first | exact hv c n | exact hp c n)
  unfold OptCtx.dependence
  rw [hs]
  congr 2
  funext p f
  unfold OptCtx.portDepends OptCtx.bringsDep OptCtx.fieldDepends
  simp only [h, hs]

/-- the timesteps of a cyclic block are those of the block started later -/
theorem turned_all {T : Nat} (A : Nat → Prop) (r : Int) : (∀ t : Nat, t < T → A (((t : Int) + r) % T).toNat) ↔ ∀ t : Nat, t < T → A t := by
  constructor
  · intro h t ht
    have hT : (0 : Int) < T := by omega
    have g0 := Int.emod_nonneg ((t : Int) - r) hT.ne'
    have g1 := Int.emod_lt_of_pos ((t : Int) - r) hT
    have := h (((t : Int) - r) % T).toNat (by omega)
    rw [Int.toNat_of_nonneg g0, Int.emod_add_emod, sub_add_cancel, Int.emod_eq_of_lt (by positivity) (by exact_mod_cast ht), Int.toNat_natCast] at this
    exact this
  · intro h t ht
    have hT : (0 : Int) < T := by omega
    have g0 := Int.emod_nonneg ((t : Int) + r) hT.ne'
    have g1 := Int.emod_lt_of_pos ((t : Int) + r) hT
    exact h _ (by omega)

/-- what is kept of a block and of the same block started later -/
theorem rotated_kept {r : Int} {x x' : OptCtx} (h : x.Rotated r x') (hS : 0 < x.scenarios) (hn : x.NetworkOk) (hcl : x.Closed) (ho : x.OwnSymbols)
    (hck : x.Clockless) (hm : x.Unmixed) (hb : x.SteadyBounds) {σ σ' : TermKey → ℚ} (ha : x.LaterBy r σ σ') :
    (x'.KeptFeasible σ' ↔ x.KeptFeasible σ) ∧ x'.keptCost σ' = x.keptCost σ := by
  -- timestep `t`, read `r` timesteps later
  let w : Nat → Nat := fun t => (((t : Int) + r) % x.T).toNat
  have hw : ∀ t, t < x.T → ((w t : Nat) : Int) = ((t : Int) + r) % x.T ∧ w t < x.T := by
    intro t ht
    have hT : (0 : Int) < x.T := by omega
    have g0 := Int.emod_nonneg ((t : Int) + r) hT.ne'
    have g1 := Int.emod_lt_of_pos ((t : Int) + r) hT
    exact ⟨Int.toNat_of_nonneg g0, by show (((t : Int) + r) % x.T).toNat < x.T; omega⟩
  have read : ∀ c ∈ x.network.allComponents, ∀ b, (∀ y ∈ b.subs, y.hasComponent = false) → x.NoClock c.id b → ∀ t s : Nat, t < x.T → s < x.scenarios →
      mden (x'.readIn σ' c) b t s = mden (x.readIn σ c) b (w t) s := by
    intro c hc b hown hk t s ht hs
    rw [h.read hn hcl hck ha hc hown hk t s ⟨by positivity, by exact_mod_cast hs⟩, (hw t ht).1]
    -- periodic
    have per : ∀ (m : Nat) (u : Int), mden (x.readIn σ c) b (u + x.T * m) s = mden (x.readIn σ c) b u s := by
      intro m
      induction m with
      | zero => intro u; simp
      | succ m ih =>
        intro u
        rw [← ih u, ← read_periodic hn σ c hown (u + x.T * m) s]
        congr 1
        push_cast
        ring
    have e := Int.emod_add_mul_ediv ((t : Int) + r) x.T
    rcases Int.eq_nat_or_neg (((t : Int) + r) / x.T) with ⟨m, q | q⟩ <;> rw [q] at e
    · rw [← per m ((t + r) % x.T), e]
    · rw [← per m (t + r)]
      congr 1
      linarith
  have inst : ∀ (c : Component) (v : Variable) (t s : Nat), t < x.T → σ' (instanceAt c v t s) = σ (instanceAt c v (w t) s) := by
    intro c v t s ht
    unfold instanceAt atT
    split_ifs
    · have := (ha c.id v.name (atS v.structure_ s)).2 t
      rw [Int.emod_eq_of_lt (by positivity) (by exact_mod_cast ht)] at this
      rw [(hw t ht).1]
      exact this
    · exact (ha c.id v.name _).1
  have hvar : ∀ c ∈ x.network.allComponents, ∀ v ∈ x.strategy.getVariables c.model, ∀ t s : Nat, t < x.T → s < x.scenarios →
      (enforcedVar (x'.readIn σ' c) v (σ' (instanceAt c v t s)) t s ↔ enforcedVar (x.readIn σ c) v (σ (instanceAt c v (w t) s)) (w t) s) := by
    intro c hc v hv t s ht hs
    rw [inst c v t s ht]
    have hb := fun b hb' => read c hc b (ho.bounds c hc v hv b hb') (hck.bounds c hc v hv b hb') t s ht hs
    have e1 : ∀ q, aboveOpt (x'.readIn σ' c) v.lowerBound q t s ↔ aboveOpt (x.readIn σ c) v.lowerBound q (w t) s := by
      intro q
      unfold aboveOpt
      cases hl : v.lowerBound with
      | none => rfl
      | some b => exact aboveBound_read (hb b (.inl hl)) rfl
    have e2 : ∀ q, belowOpt (x'.readIn σ' c) v.upperBound q t s ↔ belowOpt (x.readIn σ c) v.upperBound q (w t) s := by
      intro q
      unfold belowOpt
      cases hl : v.upperBound with
      | none => rfl
      | some b => exact belowBound_read (hb b (.inr hl)) rfl
    unfold enforcedVar
    cases v.dataType <;> simp only [e1, e2]
  let holds : Component → Constraint → Nat → Nat → Prop := fun c z t s =>
    aboveBound (x.readIn σ c) z.lowerBound (x.keptValue σ c z.expression t s) t s ∧
    belowBound (x.readIn σ c) z.upperBound (x.keptValue σ c z.expression t s) t s
  have con : ∀ c ∈ x.network.allComponents, ∀ z ∈ x.strategy.getConstraints c.model, ∀ t s : Nat, t < x.T → s < x.scenarios →
      ((aboveBound (x'.readIn σ' c) z.lowerBound (x'.keptValue σ' c z.expression t s) t s ∧
        belowBound (x'.readIn σ' c) z.upperBound (x'.keptValue σ' c z.expression t s) t s) ↔ holds c z (w t) s) := by
    intro c hc z hz t s ht hs
    have hb := fun e he => read c hc e (ho.constraints c hc z hz e he) (hck.constraints c hc z hz e he) t s ht hs
    have hv := h.kept hn hcl hck hm ha hc (ho.constraints c hc z hz _ (.inl rfl)) (hck.constraints c hc z hz _ (.inl rfl)) (hm.constraints c hc z hz)
      t s (.inr ⟨by positivity, by exact_mod_cast ht⟩) ⟨by positivity, by exact_mod_cast hs⟩
    rw [← (hw t ht).1] at hv
    exact and_congr (aboveBound_read (hb _ (.inr (.inl rfl))) hv) (belowBound_read (hb _ (.inr (.inr rfl))) hv)
  have still : ∀ c ∈ x.network.allComponents, ∀ z ∈ x.strategy.getConstraints c.model, (x.dependence c z.expression).time = false →
      ∀ t s : Nat, t < x.T → s < x.scenarios → (holds c z t s ↔ holds c z 0 s) := by
    intro c hc z hz hd t s ht hs
    have hv : x.keptValue σ c z.expression t s = x.keptValue σ c z.expression (0 : Nat) s :=
      keptValue_congr rfl (fun var => dependence_valueAs hn var (ho.constraints c hc z hz _ (.inl rfl)) hd _ _ _) σ
    exact and_congr (aboveBound_read (hb c hc z hz hd _ (.inl rfl) σ t s ht hs) hv) (belowBound_read (hb c hc z hz hd _ (.inr rfl) σ t s ht hs) hv)
  constructor
  · have v1 : (∀ c ∈ x.network.allComponents, ∀ v ∈ x.strategy.getVariables c.model, ∀ t s : Nat, t < x.T → s < x.scenarios →
          enforcedVar (x'.readIn σ' c) v (σ' (instanceAt c v t s)) t s) ↔
        ∀ c ∈ x.network.allComponents, ∀ v ∈ x.strategy.getVariables c.model, ∀ t s : Nat, t < x.T → s < x.scenarios →
          enforcedVar (x.readIn σ c) v (σ (instanceAt c v t s)) t s := by
      refine forall_congr' fun c => forall_congr' fun hc => forall_congr' fun v => forall_congr' fun hv => ?_
      constructor
      · intro g t s ht hs
        exact (turned_all (fun t => enforcedVar (x.readIn σ c) v (σ (instanceAt c v t s)) t s) r).1
          (fun t ht => (hvar c hc v hv t s ht hs).1 (g t s ht hs)) t ht
      · intro g t s ht hs
        exact (hvar c hc v hv t s ht hs).2 (g _ s (hw t ht).2 hs)
    have written : ∀ c e t s, x'.WrittenAt c e t s ↔ x.WrittenAt c e t s := by
      intro c e t s
      unfold OptCtx.WrittenAt
      rw [h.T_eq, h.scenarios, rotated_dependence h]
    constructor
    · rintro ⟨g1, g2⟩
      rw [h.network, h.strategy] at g1 g2
      rw [h.T_eq, h.scenarios] at g1
      refine ⟨v1.1 g1, fun c hc z hz t s hws => ?_⟩
      obtain ⟨w1, w2, w3, w4⟩ := hws
      show holds c z t s
      by_cases hd : (x.dependence c z.expression).time = false
      · obtain rfl := w3 hd
        have := (con c hc z hz 0 s w1 w2).1 (g2 c hc z hz 0 s ((written _ _ _ _).2 ⟨w1, w2, w3, w4⟩))
        exact (still c hc z hz hd _ s (hw 0 w1).2 w2).1 this
      · refine (turned_all (fun t => holds c z t s) r).1 (fun t ht => ?_) t w1
        exact (con c hc z hz t s ht w2).1 (g2 c hc z hz t s ((written _ _ _ _).2 ⟨ht, w2, fun q => absurd q hd, w4⟩))
    · rintro ⟨g1, g2⟩
      refine ⟨?_, ?_⟩
      · rw [h.network, h.strategy, h.T_eq, h.scenarios]
        exact v1.2 g1
      · rw [h.network, h.strategy]
        intro c hc z hz t s hws
        obtain ⟨w1, w2, w3, w4⟩ := (written _ _ _ _).1 hws
        rw [con c hc z hz t s w1 w2]
        by_cases hd : (x.dependence c z.expression).time = false
        · obtain rfl := w3 hd
          exact (still c hc z hz hd _ s (hw 0 w1).2 w2).2 (g2 c hc z hz 0 s ⟨w1, w2, fun _ => rfl, w4⟩)
        · exact g2 c hc z hz _ s ⟨(hw t w1).2, w2, fun q => absurd q hd, w4⟩
  · unfold OptCtx.keptCost
    rw [h.network]
    congr 1
    refine List.map_congr_left fun c hc => ?_
    have e : x'.contributions c = x.contributions c := by
      unfold OptCtx.contributions
      rw [h.strategy, h.risk]
    rw [e]
    congr 1
    refine List.map_congr_left fun e he => ?_
    have hT : x.T = 0 ∨ (0 : Int) ≤ 0 ∧ (0 : Int) < x.T := by omega
    obtain ⟨h1, h2⟩ := hck.objectives c hc e he
    have hown := ho.objectives c hc e he
    rw [h.kept hn hcl hck hm ha hc hown h1 (hm.objectives c hc e he) 0 0 hT ⟨le_rfl, by exact_mod_cast hS⟩]
    exact keptValue_congr rfl (fun var => dependence_valueAs hn var hown h2 _ _ _) σ

/-- **C85, what the program keeps.** The same of what the program keeps of a study, which drops tiny coefficients.  Bounds of a constraint must not
depend on time if its expression does not (only the first ones count), and no expression adds to a sum over the block something that is read at
another timestep (the program merges their terms at some timesteps and not at others). -/
theorem c85_kept (r : Int) (x x' : OptCtx) (h : x.Rotated r x') (hS : 0 < x.scenarios) (hn : x.NetworkOk) (hcl : x.Closed) (ho : x.OwnSymbols)
    (hck : x.Clockless) (hm : x.Unmixed) (hb : x.SteadyBounds) :
    (∀ σ, (x'.KeptFeasible (later r x.T σ) ↔ x.KeptFeasible σ) ∧ x'.keptCost (later r x.T σ) = x.keptCost σ) ∧
    ∀ c, LeastCost x'.KeptFeasible x'.keptCost c ↔ LeastCost x.KeptFeasible x.keptCost c := by
  have key := fun {σ σ' : TermKey → ℚ} (ha : x.LaterBy r σ σ') => rotated_kept h hS hn hcl ho hck hm hb ha
  refine ⟨fun σ => key (later_by r x σ), fun c => ?_⟩
  have f1 : ∀ σ, x.KeptFeasible σ → ∃ σ', x'.KeptFeasible σ' ∧ x'.keptCost σ' = x.keptCost σ := fun σ hσ =>
    ⟨_, (key (later_by r x σ)).1.2 hσ, (key (later_by r x σ)).2⟩
  have f2 : ∀ σ', x'.KeptFeasible σ' → ∃ σ, x.KeptFeasible σ ∧ x.keptCost σ = x'.keptCost σ' := fun σ' hσ' =>
    ⟨_, (key (earlier_by r x σ')).1.1 hσ', (key (earlier_by r x σ')).2.symm⟩
  exact ⟨LeastCost.transfer f2 f1, LeastCost.transfer f1 f2⟩

/-- **C85 (partial), the problem given to the solver, with tiny coefficients.** When the problem of a study is built, and that of the study with all
time series read `r` timesteps later, both have the same least cost and a right solver answers the same.

Missing: expressions that are not covered (`Expressible`), bounds of constraints that depend on time when the expression does not
(`SteadyBounds`, see `c85_first_timestep`), and expressions that add to a sum over the block what is read at another timestep (`Unmixed`, see
`c85_mixed`). -/
theorem c85_kept_problem_partial (r : Int) (x x' : OptCtx) (h : x.Rotated r x') (hx : x.Expressible) (hx' : x'.Expressible) (hcl : x.Closed)
    (ho : x.OwnSymbols) (hck : x.Clockless) (hm : x.Unmixed) (hb : x.SteadyBounds) (st st' : OptState) (hst : x.buildProblem = .ok st)
    (hst' : x'.buildProblem = .ok st') :
    (∀ c, LeastCost st'.solver.Feasible st'.solver.cost c ↔ LeastCost st.solver.Feasible st.solver.cost c) ∧
    ∀ solve, RightSolver solve → ((solve st'.solver).status = 0 ↔ (solve st.solver).status = 0) ∧
      ((solve st'.solver).status = 0 → (solve st'.solver).value = (solve st.solver).value) := by
  have e : ∀ c, LeastCost st'.solver.Feasible st'.solver.cost c ↔ LeastCost st.solver.Feasible st.solver.cost c := fun c => by
    rw [kept_leastCost hx' hst', kept_leastCost hx hst]
    exact (c85_kept r x x' h hx.scenarios hx.network hcl ho hck hm hb).2 c
  refine ⟨e, fun solve hs => ?_⟩
  have es : (solve st'.solver).status = 0 ↔ (solve st.solver).status = 0 := by
    rw [hs.optimal, hs.optimal]
    exact exists_congr e
  exact ⟨es, fun h0 => leastCost_unique ((e _).1 (hs.value _ h0)) (hs.value _ (es.1 h0))⟩

/-! ## The shipped models -/

/-- `e` is made of numbers and of parameters that do not depend on time -/
def steadyIn (m : Model) (e : Expr) : Bool := e.subs.all fun y => !y.isPortRef && match y with
  | .var _ => false
  | .par n => ((m.parameters.get? n).map (!·.structure_.time)).getD false
  | _ => true

/-- `e` singles out no timestep -/
def clocklessIn (m : Model) (e : Expr) : Bool := e.subs.all fun y => match y with
  | .evalT .. => false
  | .shift _ k => steadyIn m k
  | .tsum _ a b => steadyIn m a && steadyIn m b
  | _ => true

/-- a check of `Unmixed` -/
def unmixedIn (e : Expr) : Bool :=
  e.subs.all (fun y => match y with
    | .allsum _ => false
    | _ => true) ||
  e.subs.all (fun y => match y with
    | .shift .. => false
    | .tsum .. => false
    | _ => true)

/-- a check of `Clockless` and `Unmixed` for a model -/
def clocklessModel (m : Model) : Bool :=
  m.variables_.values.all (fun v => v.lowerBound.toList.all (clocklessIn m) && v.upperBound.toList.all (clocklessIn m)) &&
  m.allConstraints.all (fun k => clocklessIn m k.expression && unmixedIn k.expression) &&
  m.objectives.all (fun e => clocklessIn m e && unmixedIn e) &&
  m.portFieldsDefinitions.values.all fun d => d.definition.subs.all fun y => !y.isTimeOp

theorem shipped_clockless : ∀ e ∈ shippedModels, e.1 ≠ "antares-historic.short-term-storage" → clocklessModel e.2.1 = true := by
  have : (shippedModels.all fun e => decide (e.1 = "antares-historic.short-term-storage") || clocklessModel e.2.1) = true := by decide +kernel
  intro e he h
  have := List.all_eq_true.1 this e he
  simpa [h] using this

section
variable {I J : StudyInput} {net : Network} {db db' : DataBase}

theorem steadyIn_steady (hs : I.Sound) (l : I.Linked net) {c : Component} (hc : c ∈ net.allComponents) {e : Expr}
    (h : steadyIn c.model e = true) : (I.context net db).Steady c.id e := by
  have hg : (I.context net db).network.getComponent c.id = .ok c := getComponent_of_mem (l.networkOk db hs) hc
  unfold steadyIn at h
  rw [List.all_eq_true] at h
  intro y hy
  have := h y hy
  simp only [Bool.and_eq_true, Bool.not_eq_true'] at this
  refine ⟨this.1, ?_, ?_⟩
  · rintro n rfl
    simp at this
  · rintro n rfl
    have := this.2
    unfold OptCtx.parIdx
    rw [hg]
    cases hv : Dict.get? c.model.parameters n with
    | none => simp [hv] at this
    | some v => simpa [hv] using this

theorem clocklessIn_noClock (hs : I.Sound) (l : I.Linked net) {c : Component} (hc : c ∈ net.allComponents) {e : Expr}
    (h : clocklessIn c.model e = true) : (I.context net db).NoClock c.id e := by
  unfold clocklessIn at h
  rw [List.all_eq_true] at h
  refine ⟨fun y k hy => (by cases h _ hy), fun y k hy => steadyIn_steady hs l hc (h _ hy), fun y a b hy => ?_⟩
  have := h _ hy
  simp only [Bool.and_eq_true] at this
  exact ⟨steadyIn_steady hs l hc this.1, steadyIn_steady hs l hc this.2⟩

theorem unmixedIn_unmixed {e : Expr} (h : unmixedIn e = true) : e.Unmixed := by
  unfold unmixedIn at h
  rw [Bool.or_eq_true, List.all_eq_true, List.all_eq_true] at h
  rcases h with h | h
  · exact .inl fun y hy => by cases h _ hy
  · exact .inr ⟨fun y k hy => (by cases h _ hy), fun y a b hy => (by cases h _ hy)⟩

theorem clockless_model (hck : I.Clockless) (l : I.Linked net) {c : Component} (hc : c ∈ net.allComponents) : clocklessModel c.model = true := by
  obtain ⟨ic, hic, -, r, hr⟩ := l.rules hc
  exact shipped_clockless _ hr (hck ic hic)

theorem clockless_context (hck : I.Clockless) (hs : I.Sound) (l : I.Linked net) (hdb : buildDataBase I.load I.system = .ok db) :
    (I.context net db).Clockless ∧ (I.context net db).Unmixed := by
  have port : ∀ k ∈ (I.context net db).network.connections, ∀ q f d, (q = k.port1 ∨ q = k.port2) → q.fieldDef f = some d →
      ∀ y ∈ d.subs, y.isTimeOp = false := by
    intro k hk q f d hq hd y hy
    have hcl := l.closed (db := db) hs k hk
    have hc : q.component ∈ net.allComponents := by
      rcases hq with rfl | rfl
      · exact hcl.1
      · exact hcl.2
    have := clockless_model hck l hc
    simp only [clocklessModel, Bool.and_eq_true, List.all_eq_true] at this
    unfold PortRef.fieldDef at hd
    obtain ⟨z, hz, rfl⟩ := Option.map_eq_some_iff.1 hd
    simpa using this.2 _ (List.mem_map.2 ⟨_, Dict.mem_of_get? hz, rfl⟩) y hy
  refine ⟨⟨fun c hc v hv b hb => ?_, fun c hc k hk e he => ?_, fun c hc e he => ?_, fun k hk q f d hq hd => ?_⟩,
    fun c hc k hk => ?_, fun c hc e he => ?_, port⟩
  · rw [context_variables] at hv
    have := clockless_model hck l hc
    simp only [clocklessModel, Bool.and_eq_true, List.all_eq_true] at this
    have := this.1.1.1 v hv
    rcases hb with hb | hb
    · exact clocklessIn_noClock hs l hc (this.1 b (by simp [hb]))
    · exact clocklessIn_noClock hs l hc (this.2 b (by simp [hb]))
  · rw [context_constraints] at hk
    have := clockless_model hck l hc
    simp only [clocklessModel, Bool.and_eq_true, List.all_eq_true] at this
    have hkk := (l.checked hc).constraint_ok hk
    have lit : ∀ v, (I.context net db).NoClock c.id (.lit v) := fun v => clocklessIn_noClock hs l hc (by simp [clocklessIn, subs])
    rcases he with rfl | rfl | rfl
    · exact clocklessIn_noClock hs l hc (this.1.1.2 k hk).1
    · obtain ⟨v, hv⟩ := (isBoundLit_ok hkk.2.2.1).2
      rw [hv]; exact lit v
    · obtain ⟨v, hv⟩ := (isBoundLit_ok hkk.2.2.2).2
      rw [hv]; exact lit v
  · have hi := (l.expressible hs hdb).objectives c hc e he
    rw [context_contributions] at he
    have := clockless_model hck l hc
    simp only [clocklessModel, Bool.and_eq_true, List.all_eq_true] at this
    refine ⟨clocklessIn_noClock hs l hc (this.1.2 e he).1, ?_⟩
    unfold OptCtx.dependence
    rw [accepted_dependence (getComponent_of_mem (l.networkOk db hs) hc) _ e _ hi.2]
  · obtain ⟨-, o1, o2, o3⟩ := Rotated.noTimeOp (port k hk q f d hq hd)
    exact ⟨o1, fun y k hy => absurd hy (o2 y k), fun y a b hy => absurd hy (o3 y a b)⟩
  · rw [context_constraints] at hk
    have := clockless_model hck l hc
    simp only [clocklessModel, Bool.and_eq_true, List.all_eq_true] at this
    exact unmixedIn_unmixed (this.1.1.2 k hk).2
  · rw [context_contributions] at he
    have := clockless_model hck l hc
    simp only [clocklessModel, Bool.and_eq_true, List.all_eq_true] at this
    exact unmixedIn_unmixed (this.1.2 e he).2

theorem rotated_linked {r : Int} (h : I.Rotated r J) (l : I.Linked net) : J.Linked net := by
  refine ⟨?_, l.keyed, ?_⟩
  · rw [h.declared]
    exact l.comps
  · rw [h.system]
    exact l.conns

theorem rotated_context {r : Int} (h : I.Rotated r J) (hs : I.Sound) (hs' : J.Sound) (l : I.Linked net)
    (hdb : buildDataBase I.load I.system = .ok db) (hdb' : buildDataBase J.load J.system = .ok db') :
    (I.context net db).Rotated r (J.context net db') where
  network := rfl
  length := h.length
  scenarios := h.scenarios
  strategy := rfl
  risk := rfl
  data c hc n t s hs0 hs1 := by
    have e1 := (rotated_linked h l).dataValue_eq hs' hdb' hc n t s hs0
    have e2 := l.dataValue_eq hs hdb hc n (t + r) s hs0
    refine e1.trans (Eq.trans ?_ e2.symm)
    obtain ⟨w, rfl⟩ : ∃ w : Nat, s = w := ⟨s.toNat, by omega⟩
    exact h.parameter c.id n t w (by exact_mod_cast hs1)

end

/-- **C85, the command.** Two commands on the same system file, without short-term storages, with tables that are read `r` timesteps later in the
second one.  Both end without an error and print the same status, and the same cost when it is 0; also with tiny coefficients, which are dropped
in both problems. -/
theorem c85_command (solve : Solver → Answer) (hsolve : RightSolver solve) (os : Nat → SetOrder) (ho : ∀ i, (os i).Valid) (fuel : Nat)
    (d d' : Disk) (f f' : CliFlags) {paths paths' : List String} {comp comp' : String} {tables tables' : Option String} {ls ls' : List InputLibrary}
    {s : InputSystem} (h : ShippedCommand d f paths comp tables ls s) (hfuel : 3 * ls.length + 2 ≤ fuel)
    (h' : ShippedCommand d' f' paths' comp' tables' ls' s) (hfuel' : 3 * ls'.length + 2 ≤ fuel) (r : Int)
    (hr : (d.study s tables f).Rotated r (d'.study s tables' f')) (hck : (d.study s tables f).Clockless) :
    ∃ o o', mainOutput solve textParser os fuel d f = some (.ok o) ∧ mainOutput solve textParser os fuel d' f' = some (.ok o') ∧
      (o'.status = 0 ↔ o.status = 0) ∧ (o.status = 0 → o'.cost = o.cost) := by
  obtain ⟨net, db, o, l1, b1, h1, s1, -⟩ := shipped_prints hsolve ho h hfuel
  obtain ⟨net', db', o', l2, b2, h1', s2, -⟩ := shipped_prints hsolve ho h' hfuel'
  refine ⟨o, o', h1, h1', ?_⟩
  have l3 := rotated_linked hr l1
  have hsame : s.Renamed (fun n => n) s := rearranged_refl s
  have hren := renamed_networks hsame (renamed_part (I := d'.study s tables' f') hsame) h'.sound h'.sound h'.joins l3 l2 b2 b2
  have key := renamed_leastCost hren (fun _ _ ha => renamed_net_kept hren (l3.networkOk db' h'.sound) (l2.networkOk db' h'.sound)
    (l3.closed h'.sound) l3.ownSymbols ha)
  obtain ⟨c1, c2⟩ := clockless_context hck h.sound l1 b1
  have e := (c85_kept r _ _ (rotated_context hr h.sound h'.sound l1 b1 b2) h.sound.scenarios (l1.networkOk db h.sound) (l1.closed h.sound)
    l1.ownSymbols c1 c2 (steadyBounds_context l1 db)).2
  have hst : o'.status = 0 ↔ o.status = 0 := by
    rw [s1.solved, s2.solved]
    exact exists_congr fun c => (key c).trans (e c)
  exact ⟨hst, fun h0 => leastCost_unique ((e _).1 ((key _).1 (s2.least (hst.2 h0)))) (s1.least h0)⟩

end Verif.Props
