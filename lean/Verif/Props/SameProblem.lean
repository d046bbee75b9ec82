import Verif.Props.Kept

/-!
# C82, C83: the order of construction of a network, the names of its components, and networks side by side

As C78, C79 and C80, for networks of any models.
-/

namespace Verif.Props
open Verif Verif.OptCtx

theorem leastCost_unique {α : Type} {A : α → Prop} {f : α → ℚ} {c c' : ℚ} (h : LeastCost A f c) (h' : LeastCost A f c') : c = c' := by
  obtain ⟨⟨a, ha, rfl⟩, m⟩ := h
  obtain ⟨⟨b, hb, rfl⟩, m'⟩ := h'
  exact le_antisymm (m b hb) (m' a ha)

/-! ## The same network, built in another way -/

theorem renamed_net_part {ρ : String → String} {x x' : OptCtx} (h : x.Renamed ρ x') : OptCtx.Part ρ x x' where
  frame := h.frame
  distinct := h.distinct
  components _ hc := h.components.subset (mem_map_called hc)
  connections := by
    obtain ⟨m, h1, h2⟩ := h.connections
    exact ⟨m, [], h1, by rw [List.append_nil]; exact h2, fun k hk => by cases hk⟩
  data := h.data

/-- what holds of all components, and sums over all components -/
theorem renamed_net_all {ρ : String → String} {x x' : OptCtx} (h : x.Renamed ρ x') {A A' : Component → Prop} {f f' : Component → ℚ}
    (hA : ∀ c ∈ x.network.allComponents, A' (c.called ρ) ↔ A c) (hf : ∀ c ∈ x.network.allComponents, f' (c.called ρ) = f c) :
    ((∀ c ∈ x'.network.allComponents, A' c) ↔ ∀ c ∈ x.network.allComponents, A c) ∧
      (x'.network.allComponents.map f').sum = (x.network.allComponents.map f).sum := by
  constructor
  · constructor
    · intro g c hc
      exact (hA c hc).1 (g _ (h.components.subset (mem_map_called hc)))
    · intro g c' hc'
      obtain ⟨c, hc, rfl⟩ := List.mem_map.1 (h.components.symm.subset hc')
      exact (hA c hc).2 (g c hc)
  · rw [← (h.components.map _).sum_eq, List.map_map]
    congr 1
    exact List.map_congr_left fun c hc => hf c hc

theorem renamed_net_same {ρ : String → String} {x x' : OptCtx} (h : x.Renamed ρ x') (hn : x.NetworkOk) (hn' : x'.NetworkOk)
    (hcl : x.Closed) (ho : x.OwnSymbols) {σ σ' : TermKey → ℚ} (ha : OptCtx.Part.Agree ρ x σ σ') :
    (x'.MathFeasible σ' ↔ x.MathFeasible σ) ∧ x'.mathCost σ' = x.mathCost σ := by
  have hp := renamed_net_part h
  rw [mathFeasible_iff, mathFeasible_iff]
  exact renamed_net_all h (fun c hc => hp.satisfied hn hn' hcl ho ha hc) fun c hc => hp.costOf hn hn' hcl ho ha hc

theorem renamed_net_kept {ρ : String → String} {x x' : OptCtx} (h : x.Renamed ρ x') (hn : x.NetworkOk) (hn' : x'.NetworkOk)
    (hcl : x.Closed) (ho : x.OwnSymbols) {σ σ' : TermKey → ℚ} (ha : OptCtx.Part.Agree ρ x σ σ') :
    (x'.KeptFeasible σ' ↔ x.KeptFeasible σ) ∧ x'.keptCost σ' = x.keptCost σ := by
  have hp := renamed_net_part h
  rw [keptFeasible_iff, keptFeasible_iff]
  exact renamed_net_all h (fun c hc => hp.keptSatisfied hn hn' hcl ho ha hc) fun c hc => hp.keptCostOf hn hn' hcl ho ha hc

/-- values of the variables of a network, read under other names -/
theorem renamed_agree (ρ : String → String) {x : OptCtx} (h : ∀ c ∈ x.network.allComponents, ∀ c' ∈ x.network.allComponents, ρ c.id = ρ c'.id → c.id = c'.id)
    (σ : TermKey → ℚ) : ∃ σ', OptCtx.Part.Agree ρ x σ σ' := by
  classical
  refine ⟨fun k => if hk : ∃ c ∈ x.network.allComponents, ρ c.id = k.component then σ { k with component := hk.choose.id } else 0, ?_⟩
  intro c hc n t s
  have hk : ∃ c' ∈ x.network.allComponents, ρ c'.id = ρ c.id := ⟨c, hc, rfl⟩
  simp only [hk, dif_pos]
  rw [h _ hk.choose_spec.1 _ hc hk.choose_spec.2]

theorem renamed_leastCost {ρ : String → String} {x x' : OptCtx} (h : x.Renamed ρ x') {F F' : (TermKey → ℚ) → Prop} {f f' : (TermKey → ℚ) → ℚ}
    (hF : ∀ σ σ', OptCtx.Part.Agree ρ x σ σ' → (F' σ' ↔ F σ) ∧ f' σ' = f σ) (c : ℚ) : LeastCost F' f' c ↔ LeastCost F f c := by
  have f1 : ∀ σ, F σ → ∃ σ', F' σ' ∧ f' σ' = f σ := by
    intro σ hσ
    obtain ⟨σ', ha⟩ := renamed_agree ρ h.distinct σ
    exact ⟨σ', (hF σ σ' ha).1.2 hσ, (hF σ σ' ha).2⟩
  have f2 : ∀ σ', F' σ' → ∃ σ, F σ ∧ f σ = f' σ' := by
    intro σ' hσ'
    have := hF (fun k => σ' { k with component := ρ k.component }) σ' fun _ _ _ _ _ => rfl
    exact ⟨_, this.1.1 hσ', this.2.symm⟩
  exact ⟨LeastCost.transfer f2 f1, LeastCost.transfer f1 f2⟩

/-- **C82, the mathematical study.** Building a network in another order, adding components as nodes or not, connecting ports from the other
end, and naming components otherwise does not change the mathematical study: the same values are feasible, under the other names, at the
same cost, and the least cost is the same.  For all models, all networks, all data, strategies and risks. -/
theorem c82_same_study (ρ : String → String) (x x' : OptCtx) (h : x.Renamed ρ x') (hn : x.NetworkOk) (hn' : x'.NetworkOk)
    (hcl : x.Closed) (ho : x.OwnSymbols) :
    (∀ σ', (x'.MathFeasible σ' ↔ x.MathFeasible fun k => σ' { k with component := ρ k.component }) ∧
      x'.mathCost σ' = x.mathCost fun k => σ' { k with component := ρ k.component }) ∧
    ∀ c, LeastCost x'.MathFeasible x'.mathCost c ↔ LeastCost x.MathFeasible x.mathCost c :=
  ⟨fun _ => renamed_net_same h hn hn' hcl ho fun _ _ _ _ _ => rfl, renamed_leastCost h fun _ _ ha => renamed_net_same h hn hn' hcl ho ha⟩

theorem renamed_expressible {ρ : String → String} {x x' : OptCtx} (h : x.Renamed ρ x') (hx : x.Expressible)
    (ha : x'.Assembled) (hd : x'.DataOk) : x'.Expressible := by
  have hf : ∀ c' ∈ x'.network.allComponents, x'.FromCovered c' := by
    intro c' hc'
    obtain ⟨c, hc, rfl⟩ := List.mem_map.1 (h.components.symm.subset hc')
    exact ⟨ρ, x, c, renamed_net_part h, hx, hc, rfl⟩
  refine expressible_of_parts (networkOk_of_covered ha ?_ hf fun k' hk' => ?_) hd (by rw [h.frame.scenarios]; exact hx.scenarios) hf
  · refine (h.components.map _).nodup_iff.1 ?_
    have e : (x.network.allComponents.map (Component.called ρ)).map (·.id) = (x.network.allComponents.map (·.id)).map ρ := by
      rw [List.map_map, List.map_map]
      rfl
    rw [e]
    refine List.Nodup.map_on ?_ hx.network.ids
    intro a ha b hb q
    obtain ⟨c, hc, rfl⟩ := List.mem_map.1 ha
    obtain ⟨c', hc', rfl⟩ := List.mem_map.1 hb
    exact h.distinct c hc c' hc' q
  · obtain ⟨k, hk, e⟩ := h.connections.mem_right hk'
    exact ⟨ρ, x, k, hx.network, hk, e⟩

/-- **C82 (partial), the problem given to the solver.** Take a network of any models with covered expressions, and the same network built in
another way, by adding components and connecting ports.  If both problems are built, they have the same feasible values, under the other
names, at the same cost, and the same least cost; a right solver answers the same.  Coefficients below `1e-16` are dropped in both, and
the bounds of booleans are ignored in both.

Missing: expressions that are not covered (`Expressible`). -/
theorem c82_problem_partial (ρ : String → String) (x x' : OptCtx) (h : x.Renamed ρ x') (hx : x.Expressible) (hcl : x.Closed) (ho : x.OwnSymbols)
    (ha : x'.Assembled) (hd : x'.DataOk) (st st' : OptState) (hst : x.buildProblem = .ok st)
    (hst' : x'.buildProblem = .ok st') :
    (∀ (pt pt' : Nat → ℚ), (∀ c ∈ x.network.allComponents, ∀ n t s i i', st.columns.get? ⟨c.id, n, t, s⟩ = some i →
        st'.columns.get? ⟨ρ c.id, n, t, s⟩ = some i' → pt' i' = pt i) →
      (st'.solver.Feasible pt' ↔ st.solver.Feasible pt) ∧ st'.solver.cost pt' = st.solver.cost pt) ∧
    (∀ c, LeastCost st'.solver.Feasible st'.solver.cost c ↔ LeastCost st.solver.Feasible st.solver.cost c) ∧
    ∀ solve, RightSolver solve → ((solve st'.solver).status = 0 ↔ (solve st.solver).status = 0) ∧
      ((solve st'.solver).status = 0 → (solve st'.solver).value = (solve st.solver).value) := by
  have hx' := renamed_expressible h hx ha hd
  have e : ∀ c, LeastCost st'.solver.Feasible st'.solver.cost c ↔ LeastCost st.solver.Feasible st.solver.cost c := fun c => by
    rw [kept_leastCost hx' hst', kept_leastCost hx hst]
    exact renamed_leastCost h (fun _ _ ha => renamed_net_kept h hx.network hx'.network hcl ho ha) c
  have es : ∀ solve, RightSolver solve → ((solve st'.solver).status = 0 ↔ (solve st.solver).status = 0) := by
    intro solve hs
    rw [hs.optimal, hs.optimal]
    exact exists_congr e
  refine ⟨?_, e, fun solve hs => ⟨es solve hs, fun h0 => ?_⟩⟩
  · intro pt pt' hpt
    obtain ⟨-, -, -, hcols⟩ := build_columns hx.network hst
    obtain ⟨-, -, -, hcols'⟩ := build_columns hx'.network hst'
    let σ' : TermKey → ℚ := fun k => ((st'.columns.get? k).map pt').getD 0
    have hσ' : ∀ k i, st'.columns.get? k = some i → pt' i = σ' k := fun k i hk => by simp only [σ', hk]; rfl
    have hσ : ∀ k i, st.columns.get? k = some i → pt i = σ' { k with component := ρ k.component } := by
      intro k i hk
      obtain ⟨n, hn, rfl⟩ := (hcols k i).1 hk
      obtain ⟨hc, hv, ht, hs⟩ := mem_instances.1 (List.mem_of_getElem? hn)
      have hin : (⟨n.comp.called ρ, n.var, n.t, n.s⟩ : Inst) ∈ x'.instances := by
        rw [mem_instances]
        dsimp only
        rw [(renamed_net_part h).T_eq, h.frame.scenarios, h.frame.strategy]
        exact ⟨h.components.subset (mem_map_called hc), hv, ht, hs⟩
      obtain ⟨i', hlt, hget⟩ := List.getElem_of_mem hin
      have hi' := (hcols' ⟨ρ n.comp.id, n.var.name, n.t, n.s⟩ i').2 ⟨_, by rw [List.getElem?_eq_getElem hlt, hget], rfl⟩
      rw [← hpt n.comp hc n.var.name n.t n.s i i' hk hi']
      exact hσ' _ _ hi'
    obtain ⟨a, b⟩ := c84_exact_partial x hx st hst pt _ hσ
    obtain ⟨a', b'⟩ := c84_exact_partial x' hx' st' hst' pt' σ' hσ'
    obtain ⟨u, v⟩ := renamed_net_kept (σ := fun k => σ' { k with component := ρ k.component }) (σ' := σ') h hx.network hx'.network hcl ho
      fun _ _ _ _ _ => rfl
    exact ⟨a'.trans (u.trans a.symm), b'.trans (v.trans b.symm)⟩
  have a := (e _).1 (hs.value _ h0)
  have b := hs.value _ ((es solve hs).1 h0)
  exact leastCost_unique a b

/-! ## Networks side by side -/

theorem side_net_part1 {x1 x2 x : OptCtx} (h : x1.SideBySide x2 x) (hc2 : x2.Closed) : OptCtx.Part (fun n => n) x1 x where
  frame := h.frame1
  distinct _ _ _ _ e := e
  components c hc := h.components.subset (List.mem_append_left _ hc)
  connections := by
    refine ⟨x1.network.connections, x2.network.connections, ?_, h.connections, fun k hk c hc => ?_⟩
    · exact List.forall₂_same.2 fun k _ => .inl ⟨rfl, rfl⟩
    · obtain ⟨a, b⟩ := hc2 k hk
      exact ⟨fun e => h.distinct c hc _ a e.symm, fun e => h.distinct c hc _ b e.symm⟩
  data := h.data1

theorem sideBySide_symm {x1 x2 x : OptCtx} (h : x1.SideBySide x2 x) : x2.SideBySide x1 x where
  frame1 := h.frame2
  frame2 := h.frame1
  distinct c hc c' hc' e := h.distinct c' hc' c hc e.symm
  components := List.perm_append_comm.trans h.components
  connections := List.perm_append_comm.trans h.connections
  data1 := h.data2
  data2 := h.data1

theorem side_net_all {x1 x2 x : OptCtx} (h : x1.SideBySide x2 x) {A A1 A2 : Component → Prop} {f f1 f2 : Component → ℚ}
    (h1 : ∀ c ∈ x1.network.allComponents, (A c ↔ A1 c) ∧ f c = f1 c) (h2 : ∀ c ∈ x2.network.allComponents, (A c ↔ A2 c) ∧ f c = f2 c) :
    ((∀ c ∈ x.network.allComponents, A c) ↔ (∀ c ∈ x1.network.allComponents, A1 c) ∧ ∀ c ∈ x2.network.allComponents, A2 c) ∧
      (x.network.allComponents.map f).sum = (x1.network.allComponents.map f1).sum + (x2.network.allComponents.map f2).sum := by
  constructor
  · constructor
    · exact fun g => ⟨fun c hc => (h1 c hc).1.1 (g _ (h.components.subset (List.mem_append_left _ hc))),
        fun c hc => (h2 c hc).1.1 (g _ (h.components.subset (List.mem_append_right _ hc)))⟩
    · rintro ⟨g1, g2⟩ c hc
      rcases List.mem_append.1 (h.components.symm.subset hc) with hc | hc
      · exact (h1 c hc).1.2 (g1 c hc)
      · exact (h2 c hc).1.2 (g2 c hc)
  · rw [← (h.components.map _).sum_eq, List.map_append, List.sum_append]
    congr 2
    · exact List.map_congr_left fun c hc => (h1 c hc).2
    · exact List.map_congr_left fun c hc => (h2 c hc).2

theorem side_net_same {x1 x2 x : OptCtx} (h : x1.SideBySide x2 x) (hn1 : x1.NetworkOk) (hn2 : x2.NetworkOk) (hn : x.NetworkOk)
    (hc1 : x1.Closed) (hc2 : x2.Closed) (ho1 : x1.OwnSymbols) (ho2 : x2.OwnSymbols) {σ1 σ2 σ : TermKey → ℚ}
    (a1 : OptCtx.Part.Agree (fun n => n) x1 σ1 σ) (a2 : OptCtx.Part.Agree (fun n => n) x2 σ2 σ) :
    (x.MathFeasible σ ↔ x1.MathFeasible σ1 ∧ x2.MathFeasible σ2) ∧ x.mathCost σ = x1.mathCost σ1 + x2.mathCost σ2 := by
  have p1 := side_net_part1 h hc2
  have p2 := side_net_part1 (sideBySide_symm h) hc1
  rw [mathFeasible_iff, mathFeasible_iff, mathFeasible_iff]
  exact side_net_all h (fun c hc => ⟨p1.satisfied hn1 hn hc1 ho1 a1 hc, p1.costOf hn1 hn hc1 ho1 a1 hc⟩)
    fun c hc => ⟨p2.satisfied hn2 hn hc2 ho2 a2 hc, p2.costOf hn2 hn hc2 ho2 a2 hc⟩

theorem side_net_kept {x1 x2 x : OptCtx} (h : x1.SideBySide x2 x) (hn1 : x1.NetworkOk) (hn2 : x2.NetworkOk) (hn : x.NetworkOk)
    (hc1 : x1.Closed) (hc2 : x2.Closed) (ho1 : x1.OwnSymbols) (ho2 : x2.OwnSymbols) {σ1 σ2 σ : TermKey → ℚ}
    (a1 : OptCtx.Part.Agree (fun n => n) x1 σ1 σ) (a2 : OptCtx.Part.Agree (fun n => n) x2 σ2 σ) :
    (x.KeptFeasible σ ↔ x1.KeptFeasible σ1 ∧ x2.KeptFeasible σ2) ∧ x.keptCost σ = x1.keptCost σ1 + x2.keptCost σ2 := by
  have p1 := side_net_part1 h hc2
  have p2 := side_net_part1 (sideBySide_symm h) hc1
  rw [keptFeasible_iff, keptFeasible_iff, keptFeasible_iff]
  exact side_net_all h (fun c hc => ⟨p1.keptSatisfied hn1 hn hc1 ho1 a1 hc, p1.keptCostOf hn1 hn hc1 ho1 a1 hc⟩)
    fun c hc => ⟨p2.keptSatisfied hn2 hn hc2 ho2 a2 hc, p2.keptCostOf hn2 hn hc2 ho2 a2 hc⟩

/-- the least cost of two independent choices -/
theorem leastCost_split {α : Type} {A A1 A2 : α → Prop} {f f1 f2 : α → ℚ} (h : ∀ σ, (A σ ↔ A1 σ ∧ A2 σ) ∧ f σ = f1 σ + f2 σ)
    (hm : ∀ σ1 σ2, ∃ σ, (A σ ↔ A1 σ1 ∧ A2 σ2) ∧ f σ = f1 σ1 + f2 σ2) (c : ℚ) :
    LeastCost A f c ↔ ∃ c1 c2, LeastCost A1 f1 c1 ∧ LeastCost A2 f2 c2 ∧ c = c1 + c2 := by
  constructor
  · rintro ⟨⟨σ, hσ, rfl⟩, hmin⟩
    obtain ⟨B1, B2⟩ := (h σ).1.1 hσ
    refine ⟨_, _, ⟨⟨σ, B1, rfl⟩, fun τ hτ => ?_⟩, ⟨⟨σ, B2, rfl⟩, fun τ hτ => ?_⟩, (h σ).2⟩
    · obtain ⟨ω, e1, e2⟩ := hm τ σ
      have := hmin ω (e1.2 ⟨hτ, B2⟩)
      rw [e2, (h σ).2] at this
      exact le_of_add_le_add_right this
    · obtain ⟨ω, e1, e2⟩ := hm σ τ
      have := hmin ω (e1.2 ⟨B1, hτ⟩)
      rw [e2, (h σ).2] at this
      exact le_of_add_le_add_left this
  · rintro ⟨c1, c2, ⟨⟨σ1, B1, rfl⟩, m1⟩, ⟨⟨σ2, B2, rfl⟩, m2⟩, rfl⟩
    obtain ⟨ω, e1, e2⟩ := hm σ1 σ2
    refine ⟨⟨ω, e1.2 ⟨B1, B2⟩, e2⟩, fun τ hτ => ?_⟩
    obtain ⟨C1, C2⟩ := (h τ).1.1 hτ
    rw [(h τ).2]
    exact add_le_add (m1 τ C1) (m2 τ C2)

theorem side_leastCost {x1 x2 x : OptCtx} (h : x1.SideBySide x2 x) {F F1 F2 : (TermKey → ℚ) → Prop} {f f1 f2 : (TermKey → ℚ) → ℚ}
    (hF : ∀ σ1 σ2 σ, OptCtx.Part.Agree (fun n => n) x1 σ1 σ → OptCtx.Part.Agree (fun n => n) x2 σ2 σ →
      (F σ ↔ F1 σ1 ∧ F2 σ2) ∧ f σ = f1 σ1 + f2 σ2) (c : ℚ) :
    LeastCost F f c ↔ ∃ c1 c2, LeastCost F1 f1 c1 ∧ LeastCost F2 f2 c2 ∧ c = c1 + c2 := by
  refine leastCost_split (fun σ => hF σ σ σ (fun _ _ _ _ _ => rfl) fun _ _ _ _ _ => rfl) (fun σ1 σ2 => ?_) c
  classical
  refine ⟨fun k => if ∃ c ∈ x1.network.allComponents, c.id = k.component then σ1 k else σ2 k,
    hF σ1 σ2 _ (fun c hc n t s => if_pos ⟨c, hc, rfl⟩) fun c hc n t s => if_neg ?_⟩
  rintro ⟨c', hc', e⟩
  exact h.distinct c' hc' c hc e

/-- **C83, the mathematical study.** In a network made of two networks without a common component, values are feasible if and only if they
are feasible in both, the cost is the sum of the costs, and the least cost is the sum of the least costs.  For all models, all networks,
all data, strategies and risks. -/
theorem c83_same_study (x1 x2 x : OptCtx) (h : x1.SideBySide x2 x) (hn1 : x1.NetworkOk) (hn2 : x2.NetworkOk) (hn : x.NetworkOk)
    (hc1 : x1.Closed) (hc2 : x2.Closed) (ho1 : x1.OwnSymbols) (ho2 : x2.OwnSymbols) :
    (∀ σ, (x.MathFeasible σ ↔ x1.MathFeasible σ ∧ x2.MathFeasible σ) ∧ x.mathCost σ = x1.mathCost σ + x2.mathCost σ) ∧
    ∀ c, LeastCost x.MathFeasible x.mathCost c ↔
      ∃ c1 c2, LeastCost x1.MathFeasible x1.mathCost c1 ∧ LeastCost x2.MathFeasible x2.mathCost c2 ∧ c = c1 + c2 :=
  ⟨fun _ => side_net_same h hn1 hn2 hn hc1 hc2 ho1 ho2 (fun _ _ _ _ _ => rfl) fun _ _ _ _ _ => rfl,
    side_leastCost h fun _ _ _ a1 a2 => side_net_same h hn1 hn2 hn hc1 hc2 ho1 ho2 a1 a2⟩

theorem side_expressible {x1 x2 x : OptCtx} (h : x1.SideBySide x2 x) (hx1 : x1.Expressible) (hx2 : x2.Expressible) (hc1 : x1.Closed)
    (hc2 : x2.Closed) (ha : x.Assembled) (hd : x.DataOk) : x.Expressible := by
  have hf : ∀ c' ∈ x.network.allComponents, x.FromCovered c' := by
    intro c hc
    rcases List.mem_append.1 (h.components.symm.subset hc) with hc | hc
    · exact ⟨_, x1, c, side_net_part1 h hc2, hx1, hc, rfl⟩
    · exact ⟨_, x2, c, side_net_part1 (sideBySide_symm h) hc1, hx2, hc, rfl⟩
  refine expressible_of_parts (networkOk_of_covered ha ?_ hf fun k' hk' => ?_) hd (by rw [h.frame1.scenarios]; exact hx1.scenarios) hf
  · refine (h.components.map _).nodup_iff.1 ?_
    rw [List.map_append, List.nodup_append]
    refine ⟨hx1.network.ids, hx2.network.ids, fun a ha b hb => ?_⟩
    obtain ⟨c, hc, rfl⟩ := List.mem_map.1 ha
    obtain ⟨c', hc', rfl⟩ := List.mem_map.1 hb
    exact h.distinct c hc c' hc'
  · rcases List.mem_append.1 (h.connections.symm.subset hk') with hk | hk
    · exact ⟨fun n => n, x1, k', hx1.network, hk, .inl ⟨rfl, rfl⟩⟩
    · exact ⟨fun n => n, x2, k', hx2.network, hk, .inl ⟨rfl, rfl⟩⟩

/-- **C83 (partial), the problem given to the solver.** Take two networks of any models with covered expressions, without a common
component, and the network with the components, connections and data of both, built by adding components and connecting ports.  If the
three problems are built, the third has an optimum if and only if the two others have, and it is the sum of theirs; and a right solver
answers so.  Coefficients below `1e-16` are dropped, and the bounds of booleans ignored, in all three.

Missing: expressions that are not covered, as in C82. -/
theorem c83_problem_partial (x1 x2 x : OptCtx) (h : x1.SideBySide x2 x) (hx1 : x1.Expressible) (hx2 : x2.Expressible) (hc1 : x1.Closed)
    (hc2 : x2.Closed) (ho1 : x1.OwnSymbols) (ho2 : x2.OwnSymbols) (ha : x.Assembled) (hd : x.DataOk)
    (st1 st2 st : OptState) (hst1 : x1.buildProblem = .ok st1) (hst2 : x2.buildProblem = .ok st2) (hst : x.buildProblem = .ok st) :
    (∀ c, LeastCost st.solver.Feasible st.solver.cost c ↔ ∃ c1 c2, LeastCost st1.solver.Feasible st1.solver.cost c1 ∧
      LeastCost st2.solver.Feasible st2.solver.cost c2 ∧ c = c1 + c2) ∧
    ∀ solve, RightSolver solve →
      ((solve st.solver).status = 0 ↔ (solve st1.solver).status = 0 ∧ (solve st2.solver).status = 0) ∧
      ((solve st.solver).status = 0 → (solve st.solver).value = (solve st1.solver).value + (solve st2.solver).value) := by
  have hx := side_expressible h hx1 hx2 hc1 hc2 ha hd
  have e : ∀ c, LeastCost st.solver.Feasible st.solver.cost c ↔ ∃ c1 c2, LeastCost st1.solver.Feasible st1.solver.cost c1 ∧
      LeastCost st2.solver.Feasible st2.solver.cost c2 ∧ c = c1 + c2 := fun c => by
    rw [kept_leastCost hx hst, side_leastCost h (fun _ _ _ a1 a2 => side_net_kept h hx1.network hx2.network hx.network hc1 hc2 ho1 ho2 a1 a2) c]
    simp only [kept_leastCost hx1 hst1, kept_leastCost hx2 hst2]
  have es : ∀ solve, RightSolver solve → ((solve st.solver).status = 0 ↔ (solve st1.solver).status = 0 ∧ (solve st2.solver).status = 0) := by
    intro solve hs
    rw [hs.optimal, hs.optimal, hs.optimal]
    constructor
    · rintro ⟨c, hc⟩
      obtain ⟨c1, c2, h1, h2, -⟩ := (e c).1 hc
      exact ⟨⟨c1, h1⟩, c2, h2⟩
    · rintro ⟨⟨c1, h1⟩, c2, h2⟩
      exact ⟨c1 + c2, (e _).2 ⟨c1, c2, h1, h2, rfl⟩⟩
  refine ⟨e, fun solve hs => ⟨es solve hs, fun h0 => ?_⟩⟩
  obtain ⟨z1, z2⟩ := (es solve hs).1 h0
  exact leastCost_unique (hs.value _ h0) ((e _).2 ⟨_, _, hs.value _ z1, hs.value _ z2, rfl⟩)

end Verif.Props
