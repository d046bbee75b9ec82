import Verif.Lemmas.StepsKept
import Verif.Props.Rotated
import Verif.Props.Kept
import Verif.Spec.Steps

/-!
# C88 for any models: a block whose timesteps nothing links, against its timesteps one by one
-/

namespace Verif.Props
open Verif Verif.OptCtx

/-- the least cost of choices that can be made separately -/
theorem leastCost_sum {α β : Type} (T : Nat) {allowed : α → Prop} {cost : α → ℚ} {allowed' : Nat → β → Prop} {cost' : Nat → β → ℚ}
    (part : Nat → α → β) (join : (Nat → β) → α)
    (hp : ∀ σ, (allowed σ ↔ ∀ k < T, allowed' k (part k σ)) ∧ cost σ = ∑ k ∈ Finset.range T, cost' k (part k σ))
    (hj : ∀ τ, (allowed (join τ) ↔ ∀ k < T, allowed' k (τ k)) ∧ cost (join τ) = ∑ k ∈ Finset.range T, cost' k (τ k)) (b : β) (c : ℚ) :
    LeastCost allowed cost c ↔ ∃ cs : Nat → ℚ, (∀ k < T, LeastCost (allowed' k) (cost' k) (cs k)) ∧ c = ∑ k ∈ Finset.range T, cs k := by
  constructor
  · rintro ⟨⟨σ, hσ, rfl⟩, hm⟩
    obtain ⟨h1, h2⟩ := hp σ
    refine ⟨_, fun k hk => ⟨⟨part k σ, h1.1 hσ k hk, rfl⟩, fun υ hυ => ?_⟩, h2⟩
    let τ : Nat → β := Function.update (fun k => part k σ) k υ
    obtain ⟨g1, g2⟩ := hj τ
    have hτ : allowed (join τ) := g1.2 fun k' hk' => by
      by_cases e : k' = k
      · subst e
        simpa [τ] using hυ
      · simpa [τ, Function.update_of_ne e] using h1.1 hσ k' hk'
    have hle := hm _ hτ
    rw [g2, h2] at hle
    have hmem : k ∈ Finset.range T := Finset.mem_range.2 hk
    rw [← Finset.add_sum_erase _ _ hmem, ← Finset.add_sum_erase _ _ hmem] at hle
    have e : ∑ i ∈ (Finset.range T).erase k, cost' i (part i σ) = ∑ i ∈ (Finset.range T).erase k, cost' i (τ i) :=
      Finset.sum_congr rfl fun i hi => by simp [τ, Function.update_of_ne (Finset.ne_of_mem_erase hi)]
    rw [e] at hle
    have := le_of_add_le_add_right hle
    simpa [τ] using this
  · rintro ⟨cs, hcs, rfl⟩
    have hex : ∀ k, ∃ τ, k < T → allowed' k τ ∧ cost' k τ = cs k := by
      intro k
      by_cases hk : k < T
      · obtain ⟨⟨τ, h1, h2⟩, -⟩ := hcs k hk
        exact ⟨τ, fun _ => ⟨h1, h2⟩⟩
      · exact ⟨b, fun h => absurd h hk⟩
    choose τ hτ using hex
    obtain ⟨g1, g2⟩ := hj τ
    refine ⟨⟨join τ, g1.2 fun k hk => (hτ k hk).1, ?_⟩, fun σ hσ => ?_⟩
    · rw [g2]
      exact Finset.sum_congr rfl fun k hk => (hτ k (Finset.mem_range.1 hk)).2
    · obtain ⟨h1, h2⟩ := hp σ
      rw [h2]
      exact Finset.sum_le_sum fun k hk => (hcs k (Finset.mem_range.1 hk)).2 _ (h1.1 hσ k (Finset.mem_range.1 hk))

theorem list_sum_swap {α : Type} (T : Nat) (l : List α) (f : α → ℚ) (g : α → Nat → ℚ) (h : ∀ a ∈ l, f a = ∑ k ∈ Finset.range T, g a k) :
    (l.map f).sum = ∑ k ∈ Finset.range T, (l.map fun a => g a k).sum := by
  induction l with
  | nil => simp
  | cons a l ih =>
    simp only [List.map_cons, List.sum_cons]
    rw [ih fun a ha => h a (List.mem_cons_of_mem _ ha), Finset.sum_add_distrib, h a List.mem_cons_self]

theorem moments_same {x : OptCtx} (hn : x.NetworkOk) (hcl : x.Closed) (ho : x.OwnSymbols) (hu : x.Unlinked) (hS : 0 < x.scenarios) {xs : Nat → OptCtx}
    (h : ∀ k < x.T, x.AtStep k (xs k)) {σ : TermKey → ℚ} {σs : Nat → TermKey → ℚ} (ha : ∀ k < x.T, MomentOf k σ (σs k)) :
    (x.MathFeasible σ ↔ ∀ k < x.T, (xs k).MathFeasible (σs k)) ∧ x.mathCost σ = ∑ k ∈ Finset.range x.T, (xs k).mathCost (σs k) := by
  constructor
  · simp only [mathFeasible_iff]
    constructor
    · intro g k hk c hc
      rw [(h k hk).network] at hc
      rw [(h k hk).satisfied hk hn hcl ho hu (ha k hk) hc]
      exact fun s hs => (satisfied_iff.1 (g c hc)) s k hs hk
    · intro g c hc
      rw [satisfied_iff]
      intro s k hs hk
      have := g k hk c (by rw [(h k hk).network]; exact hc)
      rw [(h k hk).satisfied hk hn hcl ho hu (ha k hk) hc] at this
      exact this s hs
  · unfold OptCtx.mathCost
    rw [list_sum_swap x.T _ _ (fun c k => ((x.contributions c).map fun e => mden ((xs k).readIn (σs k) c) e 0 0).sum)]
    · refine Finset.sum_congr rfl fun k hk => ?_
      have hk := h k (Finset.mem_range.1 hk)
      rw [hk.network]
      have e : ∀ c, (xs k).contributions c = x.contributions c := by
        intro c
        unfold OptCtx.contributions
        rw [hk.strategy, hk.risk]
      simp only [e]
    · intro c hc
      refine list_sum_swap x.T _ _ (fun e k => mden ((xs k).readIn (σs k) c) e 0 0) fun e he => ?_
      exact (hu.objectives c hc e he).value h hn hcl hu ha hc (ho.objectives c hc e he) 0 ⟨le_rfl, by exact_mod_cast hS⟩

/-- the dependence of expressions is that of the block -/
theorem atStep_dependence {x x' : OptCtx} {k : Nat} (h : x.AtStep k x') (c : Component) (e : Expr) : x'.dependence c e = x.dependence c e := by
  have h := h.network
  have hv : ∀ c n, x'.varIdx c n = x.varIdx c n := fun c n => by unfold OptCtx.varIdx; rw [h]
  have hp : ∀ c n, x'.parIdx c n = x.parIdx c n := fun c n => by unfold OptCtx.parIdx; rw [h]
  have hs : ∀ c P, x'.symbols c P = x.symbols c P := by
    intro c P
    unfold OptCtx.symbols
    congr 1 <;> first | (funext n; first | exact hv c n | exact hp c n) | (funext c n; first | exact hv c n | exact hp c n)
  unfold OptCtx.dependence
  rw [hs]
  congr 2
  funext p f
  unfold OptCtx.portDepends OptCtx.bringsDep OptCtx.fieldDepends
  simp only [h, hs]

/-- what is kept of the block and of its timesteps -/
theorem moments_kept {x : OptCtx} (hn : x.NetworkOk) (hcl : x.Closed) (ho : x.OwnSymbols) (hu : x.Unlinked) (hb : x.SteadyBounds)
    (hS : 0 < x.scenarios) {xs : Nat → OptCtx} (h : ∀ k < x.T, x.AtStep k (xs k)) {σ : TermKey → ℚ} {σs : Nat → TermKey → ℚ}
    (ha : ∀ k < x.T, MomentOf k σ (σs k)) :
    (x.KeptFeasible σ ↔ ∀ k < x.T, (xs k).KeptFeasible (σs k)) ∧ x.keptCost σ = ∑ k ∈ Finset.range x.T, (xs k).keptCost (σs k) := by
  have inst : ∀ k < x.T, ∀ c ∈ x.network.allComponents, ∀ v ∈ x.strategy.getVariables c.model, ∀ s : Nat,
      σs k (instanceAt c v (0 : Nat) s) = σ (instanceAt c v k s) := by
    intro k hk c hc v hv s
    unfold instanceAt atT
    rw [if_pos (hu.variables_ c hc v hv), if_pos (hu.variables_ c hc v hv)]
    exact ha k hk _ _ _
  have var : ∀ k < x.T, ∀ c ∈ x.network.allComponents, ∀ v ∈ x.strategy.getVariables c.model, ∀ s : Nat, s < x.scenarios →
      (enforcedVar ((xs k).readIn (σs k) c) v (σs k (instanceAt c v (0 : Nat) s)) (0 : Nat) s ↔ enforcedVar (x.readIn σ c) v (σ (instanceAt c v k s)) k s) := by
    intro k hk c hc v hv s hs
    rw [inst k hk c hc v hv s]
    have hb := fun b hb' => (h k hk).read hk hn hcl hu (ha k hk) hc (ho.bounds c hc v hv b hb') (hu.bounds c hc v hv b hb') s
      ⟨by positivity, by exact_mod_cast hs⟩
    have e1 : ∀ q, aboveOpt ((xs k).readIn (σs k) c) v.lowerBound q (0 : Nat) s ↔ aboveOpt (x.readIn σ c) v.lowerBound q k s := by
      intro q
      unfold aboveOpt
      cases hl : v.lowerBound with
      | none => rfl
      | some b => exact aboveBound_read (hb b (.inl hl)) rfl
    have e2 : ∀ q, belowOpt ((xs k).readIn (σs k) c) v.upperBound q (0 : Nat) s ↔ belowOpt (x.readIn σ c) v.upperBound q k s := by
      intro q
      unfold belowOpt
      cases hl : v.upperBound with
      | none => rfl
      | some b => exact belowBound_read (hb b (.inr hl)) rfl
    unfold enforcedVar
    cases v.dataType <;> simp only [e1, e2]
  have con : ∀ k < x.T, ∀ c ∈ x.network.allComponents, ∀ z ∈ x.strategy.getConstraints c.model, ∀ s : Nat, s < x.scenarios →
      ((aboveBound ((xs k).readIn (σs k) c) z.lowerBound ((xs k).keptValue (σs k) c z.expression (0 : Nat) s) (0 : Nat) s ∧
        belowBound ((xs k).readIn (σs k) c) z.upperBound ((xs k).keptValue (σs k) c z.expression (0 : Nat) s) (0 : Nat) s) ↔
       (aboveBound (x.readIn σ c) z.lowerBound (x.keptValue σ c z.expression k s) k s ∧
        belowBound (x.readIn σ c) z.upperBound (x.keptValue σ c z.expression k s) k s)) := by
    intro k hk c hc z hz s hs
    have hs' : (0 : Int) ≤ s ∧ (s : Int) < x.scenarios := ⟨by positivity, by exact_mod_cast hs⟩
    have hb := fun e he => (h k hk).read hk hn hcl hu (ha k hk) hc (ho.constraints c hc z hz e he) (hu.constraints c hc z hz e he) s hs'
    have hv := (h k hk).kept hk hn hcl hu (ha k hk) hc (ho.constraints c hc z hz _ (.inl rfl)) (hu.constraints c hc z hz _ (.inl rfl)) s hs'
    exact and_congr (aboveBound_read (hb _ (.inr (.inl rfl))) hv) (belowBound_read (hb _ (.inr (.inr rfl))) hv)
  have still : ∀ k < x.T, ∀ c ∈ x.network.allComponents, ∀ z ∈ x.strategy.getConstraints c.model, (x.dependence c z.expression).time = false →
      ∀ s : Nat, s < x.scenarios →
      ((aboveBound (x.readIn σ c) z.lowerBound (x.keptValue σ c z.expression k s) k s ∧
        belowBound (x.readIn σ c) z.upperBound (x.keptValue σ c z.expression k s) k s) ↔
       (aboveBound (x.readIn σ c) z.lowerBound (x.keptValue σ c z.expression (0 : Nat) s) (0 : Nat) s ∧
        belowBound (x.readIn σ c) z.upperBound (x.keptValue σ c z.expression (0 : Nat) s) (0 : Nat) s)) := by
    intro k hk c hc z hz hd s hs
    have hv : x.keptValue σ c z.expression k s = x.keptValue σ c z.expression (0 : Nat) s :=
      keptValue_congr rfl (fun var => dependence_valueAs hn var (ho.constraints c hc z hz _ (.inl rfl)) hd _ _ _) σ
    exact and_congr (aboveBound_read (hb c hc z hz hd _ (.inl rfl) σ k s hk hs) hv) (belowBound_read (hb c hc z hz hd _ (.inr rfl) σ k s hk hs) hv)
  constructor
  · constructor
    · rintro ⟨g1, g2⟩ k hk
      refine ⟨?_, ?_⟩
      · rw [(h k hk).network, (h k hk).strategy, (h k hk).T_eq, (h k hk).scenarios]
        intro c hc v hv t s ht hs
        obtain rfl : t = 0 := by omega
        exact (var k hk c hc v hv s hs).2 (g1 c hc v hv k s hk hs)
      · rw [(h k hk).network, (h k hk).strategy]
        rintro c hc z hz t s ⟨w1, w2, w3, w4⟩
        rw [(h k hk).T_eq] at w1
        rw [(h k hk).scenarios] at w2
        rw [atStep_dependence (h k hk)] at w4
        obtain rfl : t = 0 := by omega
        rw [con k hk c hc z hz s w2]
        by_cases hd : (x.dependence c z.expression).time = false
        · rw [still k hk c hc z hz hd s w2]
          exact g2 c hc z hz 0 s ⟨by omega, w2, fun _ => rfl, w4⟩
        · exact g2 c hc z hz k s ⟨hk, w2, fun q => absurd q hd, w4⟩
    · intro g
      refine ⟨?_, ?_⟩
      · intro c hc v hv t s ht hs
        have := (g t ht).vars
        rw [(h t ht).network, (h t ht).strategy, (h t ht).T_eq, (h t ht).scenarios] at this
        exact (var t ht c hc v hv s hs).1 (this c hc v hv 0 s Nat.one_pos hs)
      · rintro c hc z hz t s ⟨w1, w2, w3, w4⟩
        have := (g t w1).constraints
        rw [(h t w1).network, (h t w1).strategy] at this
        refine (con t w1 c hc z hz s w2).1 (this c hc z hz 0 s ⟨?_, ?_, fun _ => rfl, ?_⟩)
        · rw [(h t w1).T_eq]; exact Nat.one_pos
        · rw [(h t w1).scenarios]; exact w2
        · rw [atStep_dependence (h t w1)]; exact w4
  · unfold OptCtx.keptCost
    rw [list_sum_swap x.T _ _ (fun c k => ((x.contributions c).map fun e => (xs k).keptValue (σs k) c e 0 0).sum)]
    · refine Finset.sum_congr rfl fun k hk => ?_
      have hk := h k (Finset.mem_range.1 hk)
      rw [hk.network]
      have e : ∀ c, (xs k).contributions c = x.contributions c := by
        intro c
        unfold OptCtx.contributions
        rw [hk.strategy, hk.risk]
      simp only [e]
    · intro c hc
      refine list_sum_swap x.T _ _ (fun e k => (xs k).keptValue (σs k) c e 0 0) fun e he => ?_
      exact (hu.objectives c hc e he).kept h hn hcl hu ha hc (ho.objectives c hc e he) 0 ⟨le_rfl, by exact_mod_cast hS⟩

theorem atStep_moment (k : Nat) (σ : TermKey → ℚ) : MomentOf k σ (atStep k σ) := fun _ _ _ => rfl

/-- values for all timesteps from values for each of them -/
def together (τ : Nat → TermKey → ℚ) : TermKey → ℚ := fun x => τ ((x.time.getD 0).toNat) { x with time := x.time.map fun _ => 0 }

theorem together_moment (k : Nat) (τ : Nat → TermKey → ℚ) : MomentOf k (together τ) (τ k) := fun _ _ _ => rfl

/-- **C88, any models.** Take a network of any models where nothing links the timesteps of the block: variables have one value for each timestep,
bounds, constraints and what goes through ports have no time operator, and costs are sums over the block.  Values of the variables satisfy the
study exactly when, at each timestep, what they are at this timestep satisfies the study over this timestep alone; their cost is the sum of these
costs; and the least cost is the sum of the least costs. -/
theorem c88_any_models (x : OptCtx) (hn : x.NetworkOk) (hcl : x.Closed) (ho : x.OwnSymbols) (hu : x.Unlinked) (hS : 0 < x.scenarios) (xs : Nat → OptCtx)
    (h : ∀ k < x.T, x.AtStep k (xs k)) :
    (∀ σ, (x.MathFeasible σ ↔ ∀ k < x.T, (xs k).MathFeasible (atStep k σ)) ∧
      x.mathCost σ = ∑ k ∈ Finset.range x.T, (xs k).mathCost (atStep k σ)) ∧
    ∀ c, LeastCost x.MathFeasible x.mathCost c ↔
      ∃ cs : Nat → ℚ, (∀ k < x.T, LeastCost (xs k).MathFeasible (xs k).mathCost (cs k)) ∧ c = ∑ k ∈ Finset.range x.T, cs k := by
  have hp := fun σ => moments_same hn hcl ho hu hS h (σ := σ) (σs := fun k => atStep k σ) fun k _ => atStep_moment k σ
  refine ⟨hp, fun c => leastCost_sum x.T atStep together hp (fun τ => ?_) (fun _ => 0) c⟩
  exact moments_same hn hcl ho hu hS h fun k _ => together_moment k τ

/-- **C88, what the program keeps.** The same of what the program keeps of the study: tiny coefficients are dropped in the block and at each timestep
alone.  (Bounds of a constraint must not depend on time if its expression does not: in the block, only the first ones would count.) -/
theorem c88_kept (x : OptCtx) (hn : x.NetworkOk) (hcl : x.Closed) (ho : x.OwnSymbols) (hu : x.Unlinked) (hb : x.SteadyBounds) (hS : 0 < x.scenarios)
    (xs : Nat → OptCtx) (h : ∀ k < x.T, x.AtStep k (xs k)) :
    (∀ σ, (x.KeptFeasible σ ↔ ∀ k < x.T, (xs k).KeptFeasible (atStep k σ)) ∧
      x.keptCost σ = ∑ k ∈ Finset.range x.T, (xs k).keptCost (atStep k σ)) ∧
    ∀ c, LeastCost x.KeptFeasible x.keptCost c ↔
      ∃ cs : Nat → ℚ, (∀ k < x.T, LeastCost (xs k).KeptFeasible (xs k).keptCost (cs k)) ∧ c = ∑ k ∈ Finset.range x.T, cs k := by
  have hp := fun σ => moments_kept hn hcl ho hu hb hS h (σ := σ) (σs := fun k => atStep k σ) fun k _ => atStep_moment k σ
  refine ⟨hp, fun c => leastCost_sum x.T atStep together hp (fun τ => ?_) (fun _ => 0) c⟩
  exact moments_kept hn hcl ho hu hb hS h fun k _ => together_moment k τ

/-- **C88, the block.** The study over a block of one of the timesteps is the study at this timestep alone. -/
theorem c88_timesteps (x : OptCtx) (k : Nat) (hk : k < x.T) : x.AtStep k { x with timesteps := [x.timesteps.getD k 0] } where
  network := rfl
  length := rfl
  scenarios := rfl
  strategy := rfl
  risk := rfl
  data c _ n s _ _ := by
    have hb : x.blockTime k = x.timesteps.getD k 0 := by
      unfold OptCtx.blockTime
      rw [Int.emod_eq_of_lt (by positivity) (by exact_mod_cast hk), Int.toNat_natCast]
    show OptCtx.dataValue _ c.id n (atT (x.parIdx c.id n) 0) _ = x.dataValue c.id n (atT (x.parIdx c.id n) k) _
    unfold OptCtx.dataValue atT
    split_ifs
    · simp only [Option.map_some, hb]
      rfl
    · rfl

/-- **C88 (partial), the problem given to the solver.** When nothing links the timesteps of a block, and the problem over the block is built, and
the problem over each timestep alone: the first has an optimum exactly when all the others have one, and it is then the sum of theirs; a right
solver answers so.  This holds with tiny coefficients, which are dropped in all these problems.

Missing: expressions that are not covered (`Expressible`), and bounds of constraints that depend on time when the expression does not
(`SteadyBounds`). -/
theorem c88_problem_partial (x : OptCtx) (hx : x.Expressible) (hcl : x.Closed) (ho : x.OwnSymbols) (hu : x.Unlinked) (hb : x.SteadyBounds)
    (xs : Nat → OptCtx) (h : ∀ k < x.T, x.AtStep k (xs k)) (hxs : ∀ k < x.T, (xs k).Expressible) (st : OptState) (sts : Nat → OptState)
    (hst : x.buildProblem = .ok st) (hsts : ∀ k < x.T, (xs k).buildProblem = .ok (sts k)) :
    (∀ c, LeastCost st.solver.Feasible st.solver.cost c ↔
      ∃ cs : Nat → ℚ, (∀ k < x.T, LeastCost (sts k).solver.Feasible (sts k).solver.cost (cs k)) ∧ c = ∑ k ∈ Finset.range x.T, cs k) ∧
    ∀ solve, RightSolver solve → ((solve st.solver).status = 0 ↔ ∀ k < x.T, (solve (sts k).solver).status = 0) ∧
      ((solve st.solver).status = 0 → (solve st.solver).value = ∑ k ∈ Finset.range x.T, (solve (sts k).solver).value) := by
  have e : ∀ c, LeastCost st.solver.Feasible st.solver.cost c ↔
      ∃ cs : Nat → ℚ, (∀ k < x.T, LeastCost (sts k).solver.Feasible (sts k).solver.cost (cs k)) ∧ c = ∑ k ∈ Finset.range x.T, cs k := by
    intro c
    rw [kept_leastCost hx hst, (c88_kept x hx.network hcl ho hu hb hx.scenarios xs h).2 c]
    refine exists_congr fun cs => and_congr (forall_congr' fun k => forall_congr' fun hk => ?_) Iff.rfl
    exact (kept_leastCost (hxs k hk) (hsts k hk) (cs k)).symm
  refine ⟨e, fun solve hs => ?_⟩
  have es : (solve st.solver).status = 0 ↔ ∀ k < x.T, (solve (sts k).solver).status = 0 := by
    rw [hs.optimal]
    constructor
    · rintro ⟨c, hc⟩ k hk
      obtain ⟨cs, q, -⟩ := (e c).1 hc
      exact (hs.optimal _).2 ⟨_, q k hk⟩
    · intro q
      exact ⟨_, (e _).2 ⟨fun k => (solve (sts k).solver).value, fun k hk => hs.value _ (q k hk), rfl⟩⟩
  refine ⟨es, fun h0 => ?_⟩
  exact leastCost_unique (hs.value _ h0) ((e _).2 ⟨fun k => (solve (sts k).solver).value, fun k hk => hs.value _ (es.1 h0 k hk), rfl⟩)

end Verif.Props
