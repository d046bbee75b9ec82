import Verif.Spec.RepricedAny
import Verif.Props.ComparedAny

/-!
# C86 for any models, and for what the command prints when only limits have tiny coefficients
-/

namespace Verif
open Verif.Expr Verif.OptCtx Verif.Shipped Verif.Props

/-- values are multiplied as prices are -/
theorem proportional_value {M M' : MCtx} {P : Int → Prop} {p : String → Prop} {k : ℚ} (h0 : P 0) (hw : ∀ w : Nat, w < M.D.S → P w)
    (hT : M'.D.T = M.D.T) (hS : M'.D.S = M.D.S) (hprice : ∀ n, p n → ∀ t s, P s → mden M' (.par n) t s = k * mden M (.par n) t s)
    (hsame : ∀ e : Expr, e.Without p → (∀ y ∈ e.subs, y.hasComponent = false) → ∀ t s, P s → mden M' e t s = mden M e t s) {e : Expr}
    (h : e.Proportional p) : (∀ y ∈ e.subs, y.hasComponent = false) → ∀ t s, P s → mden M' e t s = k * mden M e t s := by
  induction h with
  | price n hn => exact fun _ t s hs => hprice n hn t s hs
  | zero => intro _ t s _; show (0 : ℚ) = k * 0; ring
  | neg _ ih =>
    intro he t s hs
    simp only [mden, ih (fun y hy => he y (by simp [subs, hy])) t s hs]
    ring
  | @add es hes ih =>
    intro he t s hs
    rw [mden_add, mden_add, ← List.sum_map_mul_left]
    congr 1
    exact List.map_congr_left fun x hx => ih x hx (fun y hy => he y (mem_subs_add.2 (.inr ⟨x, hx, hy⟩))) t s hs
  | mulLeft _ hr ih =>
    intro he t s hs
    simp only [mden, ih (fun y hy => he y (by simp [subs, hy])) t s hs, hsame _ hr (fun y hy => he y (by simp [subs, hy])) t s hs]
    ring
  | mulRight hl _ ih =>
    intro he t s hs
    simp only [mden, ih (fun y hy => he y (by simp [subs, hy])) t s hs, hsame _ hl (fun y hy => he y (by simp [subs, hy])) t s hs]
    ring
  | div _ hr ih =>
    intro he t s hs
    simp only [mden, ih (fun y hy => he y (by simp [subs, hy])) t s hs, hsame _ hr (fun y hy => he y (by simp [subs, hy])) t s hs]
    ring
  | shift _ hn ih =>
    intro he t s hs
    simp only [mden, hsame _ hn (fun y hy => he y (by simp [subs, hy])) 0 0 h0, ih (fun y hy => he y (by simp [subs, hy])) _ s hs]
  | evalT _ hn ih =>
    intro he t s hs
    simp only [mden, hsame _ hn (fun y hy => he y (by simp [subs, hy])) 0 0 h0, ih (fun y hy => he y (by simp [subs, hy])) _ s hs]
  | tsum _ ha hb ih =>
    intro he t s hs
    simp only [mden, hsame _ ha (fun y hy => he y (by simp [subs, hy])) 0 0 h0, hsame _ hb (fun y hy => he y (by simp [subs, hy])) 0 0 h0,
      ih (fun y hy => he y (by simp [subs, hy])) _ s hs, Finset.mul_sum]
  | allsum _ ih =>
    intro he t s hs
    simp only [mden, hT, ih (fun y hy => he y (by simp [subs, hy])) _ s hs, Finset.mul_sum]
  | scen _ ih =>
    intro he t s hs
    simp only [mden, hS]
    rw [← mul_div_assoc, Finset.mul_sum]
    congr 1
    exact Finset.sum_congr rfl fun w hm => ih (fun y hy => he y (by simp [subs, hy])) t w (hw w (Finset.mem_range.1 hm))

namespace OptCtx
variable {k : ℚ} {p : Component → String → Prop} {x y : OptCtx}

/-- expressions without prices have the same values -/
theorem OtherPrices.same (h : x.OtherPrices p y) (hS : 0 < x.scenarios) (var : String → String → Option Int → Option Int → ℚ)
    {P P' : String → String → List (Int → Int → ℚ)}
    (hP : ∀ q f t s, (0 ≤ s ∧ s < (x.scenarios : Int)) → ((P' q f).map fun v => v t s) = ((P q f).map fun v => v t s))
    {c : Component} (hc : c ∈ x.network.allComponents) {e : Expr} (hf : e.Without (p c)) (he : ∀ y ∈ e.subs, y.hasComponent = false)
    (t s : Int) (hs : 0 ≤ s ∧ s < (x.scenarios : Int)) :
    mden (componentCtx (y.unwrapped var) c.id P') e t s = mden (componentCtx (x.unwrapped var) c.id P) e t s := by
  refine mden_used (M := componentCtx (x.unwrapped var) c.id P) (M' := componentCtx (y.unwrapped var) c.id P')
    (P := fun s => 0 ≤ s ∧ s < (x.scenarios : Int)) ⟨le_rfl, by exact_mod_cast hS⟩ (fun w hw => ⟨by positivity, by exact_mod_cast hw⟩)
    h.length h.scenarios e (fun n _ t s _ => ?_) (fun n hn t s hs => h.others c hc n (hf n hn) t s hs.1 hs.2) (fun q f _ => hP q f) he t s hs
  show var c.id n (atT (y.varIdx c.id n) t) (atS (y.varIdx c.id n) s) = var c.id n (atT (x.varIdx c.id n) t) (atS (x.varIdx c.id n) s)
  rw [looser_varIdx h.network]

/-- what goes through connections is the same -/
theorem OtherPrices.ports (h : x.OtherPrices p y) (hS : 0 < x.scenarios) (hp : x.Prices p) (hn : x.NetworkOk) (hcl : x.Closed)
    (var : String → String → Option Int → Option Int → ℚ) (c : Component) (q f : String) (t s : Int) (hs : 0 ≤ s ∧ s < (x.scenarios : Int)) :
    ((attached (y.unwrapped var) y.network.connections c.id q f).map fun v => v t s) =
      ((attached (x.unwrapped var) x.network.connections c.id q f).map fun v => v t s) := by
  unfold attached
  rw [h.network, List.map_flatMap, List.map_flatMap]
  refine List.flatMap_congr fun j hj => ?_
  have side : ∀ (r : PortRef) d, (r = j.port1 ∨ r = j.port2) → r.fieldDef f = some d → r.component ∈ x.network.allComponents →
      mden (componentCtx (y.unwrapped var) r.component.id noPorts) d t s = mden (componentCtx (x.unwrapped var) r.component.id noPorts) d t s :=
    fun r d hr hd hm => h.same hS var (fun _ _ _ _ _ => rfl) hm (hp.ports j hj r f d hr hd) (fun z hz => ((hn.clean j hj r f d hr hd).1 z hz).2.2) t s hs
  have : j.value (y.unwrapped var) f t s = j.value (x.unwrapped var) f t s := by
    unfold PortsConnection.value
    cases z1 : j.port1.fieldDef f with
    | some d => exact side _ _ (.inl rfl) z1 (hcl j hj).1
    | none =>
      cases z2 : j.port2.fieldDef f with
      | some d => exact side _ _ (.inr rfl) z2 (hcl j hj).2
      | none => rfl
  unfold PortsConnection.brings
  split_ifs <;> simp [this]

/-- in a component -/
theorem OtherPrices.value (h : x.OtherPrices p y) (hS : 0 < x.scenarios) (hp : x.Prices p) (hn : x.NetworkOk) (hcl : x.Closed)
    (var : String → String → Option Int → Option Int → ℚ) {c : Component} (hc : c ∈ x.network.allComponents) {e : Expr} (hf : e.Without (p c))
    (he : ∀ y ∈ e.subs, y.hasComponent = false) (t s : Int) (hs : 0 ≤ s ∧ s < (x.scenarios : Int)) :
    mden (y.readAs (y.unwrapped var) c) e t s = mden (x.readAs (x.unwrapped var) c) e t s :=
  h.same hS var (fun q f t s hs => h.ports hS hp hn hcl var c q f t s hs) hc hf he t s hs

theorem Repriced.other (h : x.Repriced k p y) : x.OtherPrices p y := ⟨h.network, h.length, h.scenarios, h.strategy, h.risk, h.others⟩

/-- costs are multiplied -/
theorem Repriced.cost (h : x.Repriced k p y) (hS : 0 < x.scenarios) (hp : x.Prices p) (hn : x.NetworkOk) (hcl : x.Closed)
    (var : String → String → Option Int → Option Int → ℚ) {c : Component} (hc : c ∈ x.network.allComponents) {e : Expr} (hf : e.Proportional (p c))
    (he : ∀ y ∈ e.subs, y.hasComponent = false) :
    mden (y.readAs (y.unwrapped var) c) e 0 0 = k * mden (x.readAs (x.unwrapped var) c) e 0 0 :=
  proportional_value (M := x.readAs (x.unwrapped var) c) (M' := y.readAs (y.unwrapped var) c)
    (P := fun s => 0 ≤ s ∧ s < (x.scenarios : Int)) ⟨le_rfl, by exact_mod_cast hS⟩ (fun w hw => ⟨by positivity, by exact_mod_cast hw⟩)
    h.length h.scenarios (fun n hn t s hs => h.prices c hc n hn t s hs.1 hs.2) (fun e hf he t s hs => h.other.value hS hp hn hcl var hc hf he t s hs)
    hf he 0 0 ⟨le_rfl, by exact_mod_cast hS⟩

end OptCtx

namespace Props

theorem keep_times {k q : ℚ} (h : q = 0 ∨ 1 / 10 ^ 16 ≤ |q|) (h' : k * q = 0 ∨ 1 / 10 ^ 16 ≤ |k * q|) : keep (k * q) = k * keep q := by
  unfold keep
  by_cases hq : q = 0
  · subst hq; simp
  · have h1 := h.resolve_left hq
    rcases h' with h' | h'
    · have : k = 0 := (mul_eq_zero.1 h').resolve_right hq
      subst this; simp
    · rw [if_neg (not_lt.2 h1), if_neg (not_lt.2 h')]

theorem coefficient_noTiny {x : OptCtx} {c : Component} {e : Expr} (h : x.NoTiny c e 0 0) (κ : TermKey) :
    x.coefficient c e 0 0 κ = 0 ∨ 1 / 10 ^ 16 ≤ |x.coefficient c e 0 0 κ| := by
  have := h (fun _ _ _ _ => 0) κ
  simp only [zero_add] at this
  exact this

/-- the least of costs that are multiplied -/
theorem leastCost_times {k : ℚ} (hk : 0 < k) {α : Type} {A B : α → Prop} {f g : α → ℚ} (key : ∀ σ, (B σ ↔ A σ) ∧ g σ = k * f σ) (c : ℚ) :
    LeastCost B g (k * c) ↔ LeastCost A f c := by
  unfold LeastCost
  refine and_congr (exists_congr fun σ => ?_) (forall_congr' fun σ => ?_)
  · rw [(key σ).1, (key σ).2]
    exact and_congr_right fun _ => ⟨fun e => mul_left_cancel₀ hk.ne' e, fun e => by rw [e]⟩
  · rw [(key σ).1, (key σ).2]
    exact forall_congr' fun _ => mul_le_mul_iff_right₀ hk

/-- limits are the same whatever the prices are -/
theorem otherPrices_feasible {p : Component → String → Prop} {x y : OptCtx} (h : x.OtherPrices p y) (hp : x.Prices p) (hn : x.NetworkOk)
    (hcl : x.Closed) (ho : x.OwnSymbols) (hS : 0 < x.scenarios) :
    (∀ σ, y.MathFeasible σ ↔ x.MathFeasible σ) ∧ ∀ σ, y.KeptFeasible σ ↔ x.KeptFeasible σ := by
  have hT : y.T = x.T := h.length
  have nat : ∀ {s : Nat}, s < x.scenarios → (0 : Int) ≤ s ∧ (s : Int) < x.scenarios := fun hs => ⟨by positivity, by exact_mod_cast hs⟩
  have rd : ∀ {c : Component}, c ∈ x.network.allComponents → ∀ {e : Expr}, e.Without (p c) → (∀ y ∈ e.subs, y.hasComponent = false) → ∀ (σ) (t : Int) {s : Nat},
      s < x.scenarios → mden (y.readIn σ c) e t s = mden (x.readIn σ c) e t s := by
    intro c hc e hf he σ t s hs
    have := readIn_of (d := 0) hT (fun var => (h.value hS hp hn hcl var hc hf he t s (nat hs)).trans (add_zero _).symm) σ
    rw [this, add_zero]
  have ab : ∀ {c : Component}, c ∈ x.network.allComponents → ∀ {b : Expr}, b.Without (p c) → (∀ y ∈ b.subs, y.hasComponent = false) →
      ∀ (σ) (q q' : ℚ) (t : Int) {s : Nat}, s < x.scenarios → q' = q → ((aboveBound (y.readIn σ c) b q' t s ↔ aboveBound (x.readIn σ c) b q t s) ∧
        (belowBound (y.readIn σ c) b q' t s ↔ belowBound (x.readIn σ c) b q t s)) :=
    fun hc _ hf he σ _ _ t _ hs e => ⟨OptCtx.Part.aboveBound_congr (rd hc hf he σ t hs) e, OptCtx.Part.belowBound_congr (rd hc hf he σ t hs) e⟩
  have opt : ∀ {c : Component}, c ∈ x.network.allComponents → ∀ {v : Variable}, v ∈ x.strategy.getVariables c.model → ∀ (σ) (q : ℚ) (t : Int) {s : Nat},
      s < x.scenarios → (aboveOpt (y.readIn σ c) v.lowerBound q t s ↔ aboveOpt (x.readIn σ c) v.lowerBound q t s) ∧
        (belowOpt (y.readIn σ c) v.upperBound q t s ↔ belowOpt (x.readIn σ c) v.upperBound q t s) := by
    intro c hc v hv σ q t s hs
    constructor
    · cases hb : v.lowerBound with
      | none => exact Iff.rfl
      | some b => exact (ab hc (hp.bounds c hc v hv b (.inl hb)) (ho.bounds c hc v hv b (.inl hb)) σ q q t hs rfl).1
    · cases hb : v.upperBound with
      | none => exact Iff.rfl
      | some b => exact (ab hc (hp.bounds c hc v hv b (.inr hb)) (ho.bounds c hc v hv b (.inr hb)) σ q q t hs rfl).2
  have kv : ∀ {c : Component}, c ∈ x.network.allComponents → ∀ {e : Expr}, e.Without (p c) → (∀ y ∈ e.subs, y.hasComponent = false) → ∀ (σ) (t : Int) {s : Nat},
      s < x.scenarios → y.keptValue σ c e t s = x.keptValue σ c e t s := by
    intro c hc e hf he σ t s hs
    have := keptValue_shift (d := 0) hT (fun var => (h.value hS hp hn hcl var hc hf he t s (nat hs)).trans (add_zero _).symm) σ
    rw [this, add_zero]
  have hm : ∀ σ, y.MathFeasible σ ↔ x.MathFeasible σ := by
    intro σ
    have e1 : ∀ c ∈ x.network.allComponents, ∀ v ∈ x.strategy.getVariables c.model, ∀ t s : Nat, s < x.scenarios →
        (aboveOpt (y.readIn σ c) v.lowerBound (σ (instanceAt c v t s)) t s ∧ belowOpt (y.readIn σ c) v.upperBound (σ (instanceAt c v t s)) t s ∧
            ofType v.dataType (σ (instanceAt c v t s)) ↔
          aboveOpt (x.readIn σ c) v.lowerBound (σ (instanceAt c v t s)) t s ∧ belowOpt (x.readIn σ c) v.upperBound (σ (instanceAt c v t s)) t s ∧
            ofType v.dataType (σ (instanceAt c v t s))) :=
      fun c hc v hv t s hs => and_congr (opt hc hv σ _ t hs).1 (and_congr_left' (opt hc hv σ _ t hs).2)
    have e2 : ∀ c ∈ x.network.allComponents, ∀ z ∈ x.strategy.getConstraints c.model, ∀ t s : Nat, s < x.scenarios →
        (z.Holds (y.readIn σ c) t s ↔ z.Holds (x.readIn σ c) t s) := fun c hc z hz t s hs =>
      have r := rd hc (hp.constraints c hc z hz _ (.inl rfl)) (ho.constraints c hc z hz _ (.inl rfl)) σ t hs
      and_congr (ab hc (hp.constraints c hc z hz _ (.inr (.inl rfl))) (ho.constraints c hc z hz _ (.inr (.inl rfl))) σ _ _ t hs r).1
        (ab hc (hp.constraints c hc z hz _ (.inr (.inr rfl))) (ho.constraints c hc z hz _ (.inr (.inr rfl))) σ _ _ t hs r).2
    constructor
    · rintro ⟨g1, g2⟩
      rw [h.network, h.strategy, hT, h.scenarios] at g1 g2
      exact ⟨fun c hc v hv t s ht hs => (e1 c hc v hv t s hs).1 (g1 c hc v hv t s ht hs),
        fun c hc z hz t s ht hs => (e2 c hc z hz t s hs).1 (g2 c hc z hz t s ht hs)⟩
    · rintro ⟨g1, g2⟩
      refine ⟨?_, ?_⟩ <;> rw [h.network, h.strategy, hT, h.scenarios]
      · exact fun c hc v hv t s ht hs => (e1 c hc v hv t s hs).2 (g1 c hc v hv t s ht hs)
      · exact fun c hc z hz t s ht hs => (e2 c hc z hz t s hs).2 (g2 c hc z hz t s ht hs)
  have hkf : ∀ σ, y.KeptFeasible σ ↔ x.KeptFeasible σ := by
    intro σ
    have e1 : ∀ c ∈ x.network.allComponents, ∀ v ∈ x.strategy.getVariables c.model, ∀ t s : Nat, s < x.scenarios →
        (enforcedVar (y.readIn σ c) v (σ (instanceAt c v t s)) t s ↔ enforcedVar (x.readIn σ c) v (σ (instanceAt c v t s)) t s) := by
      intro c hc v hv t s hs
      unfold enforcedVar
      rw [(opt hc hv σ _ t hs).1, (opt hc hv σ _ t hs).2]
    have hw : ∀ c e (t s : Nat), y.WrittenAt c e t s ↔ x.WrittenAt c e t s := by
      intro c e t s
      unfold OptCtx.WrittenAt
      rw [hT, h.scenarios, looser_dependence h.network]
    have e2 : ∀ c ∈ x.network.allComponents, ∀ z ∈ x.strategy.getConstraints c.model, ∀ t s : Nat, s < x.scenarios →
        ((aboveBound (y.readIn σ c) z.lowerBound (y.keptValue σ c z.expression t s) t s ∧
          belowBound (y.readIn σ c) z.upperBound (y.keptValue σ c z.expression t s) t s) ↔
        (aboveBound (x.readIn σ c) z.lowerBound (x.keptValue σ c z.expression t s) t s ∧
          belowBound (x.readIn σ c) z.upperBound (x.keptValue σ c z.expression t s) t s)) := fun c hc z hz t s hs =>
      have r := kv hc (hp.constraints c hc z hz _ (.inl rfl)) (ho.constraints c hc z hz _ (.inl rfl)) σ t hs
      and_congr (ab hc (hp.constraints c hc z hz _ (.inr (.inl rfl))) (ho.constraints c hc z hz _ (.inr (.inl rfl))) σ _ _ t hs r).1
        (ab hc (hp.constraints c hc z hz _ (.inr (.inr rfl))) (ho.constraints c hc z hz _ (.inr (.inr rfl))) σ _ _ t hs r).2
    constructor
    · rintro ⟨g1, g2⟩
      rw [h.network, h.strategy] at g1 g2
      rw [hT, h.scenarios] at g1
      exact ⟨fun c hc v hv t s ht hs => (e1 c hc v hv t s hs).1 (g1 c hc v hv t s ht hs),
        fun c hc z hz t s w => (e2 c hc z hz t s w.2.1).1 (g2 c hc z hz t s ((hw _ _ _ _).2 w))⟩
    · rintro ⟨g1, g2⟩
      refine ⟨?_, ?_⟩ <;> rw [h.network, h.strategy]
      · rw [hT, h.scenarios]
        exact fun c hc v hv t s ht hs => (e1 c hc v hv t s hs).2 (g1 c hc v hv t s ht hs)
      · intro c hc z hz t s w
        have w := (hw _ _ _ _).1 w
        exact (e2 c hc z hz t s w.2.1).2 (g2 c hc z hz t s w)
  exact ⟨hm, hkf⟩

/-- **C86, any models.** Take a problem of any models in which the parameters `p` are prices (`Prices`), and the same problem with these
parameters multiplied by `k`.  The same values of the variables satisfy both, and the cost is multiplied by `k`; the same limits are kept by the
program; and when no coefficient of the costs is tiny, with the first prices or with the second ones, what it counts is multiplied by `k`.  So are
the least costs if `k > 0`. -/
theorem c86_any_models (k : ℚ) (p : Component → String → Prop) (x y : OptCtx) (h : x.Repriced k p y) (hp : x.Prices p) (hn : x.NetworkOk)
    (hcl : x.Closed) (ho : x.OwnSymbols) (hS : 0 < x.scenarios) :
    (∀ σ, (y.MathFeasible σ ↔ x.MathFeasible σ) ∧ y.mathCost σ = k * x.mathCost σ) ∧
    (∀ σ, y.KeptFeasible σ ↔ x.KeptFeasible σ) ∧
    (x.PricesKept → y.PricesKept → ∀ σ, y.keptCost σ = k * x.keptCost σ) ∧
    (0 < k → ∀ c, LeastCost y.MathFeasible y.mathCost (k * c) ↔ LeastCost x.MathFeasible x.mathCost c) ∧
    (0 < k → x.PricesKept → y.PricesKept → ∀ c, LeastCost y.KeptFeasible y.keptCost (k * c) ↔ LeastCost x.KeptFeasible x.keptCost c) := by
  have hT : y.T = x.T := h.length
  have hcon : ∀ c, y.contributions c = x.contributions c := fun c => by
    unfold OptCtx.contributions
    rw [h.strategy, h.risk]
  have hm : ∀ σ, (y.MathFeasible σ ↔ x.MathFeasible σ) ∧ y.mathCost σ = k * x.mathCost σ := by
    intro σ
    refine ⟨(otherPrices_feasible h.other hp hn hcl ho hS).1 σ, ?_⟩
    · unfold OptCtx.mathCost
      rw [h.network, ← List.sum_map_mul_left]
      congr 1
      refine List.map_congr_left fun c hc => ?_
      rw [hcon, ← List.sum_map_mul_left]
      congr 1
      refine List.map_congr_left fun e he => ?_
      have := h.cost hS hp hn hcl (fun c v t s => σ ⟨c, v, t.map (· % (x.T : Int)), s⟩) hc (hp.costs c hc e he) (ho.objectives c hc e he)
      unfold OptCtx.readIn OptCtx.reading
      rw [hT]
      exact this
  have hkf := (otherPrices_feasible h.other hp hn hcl ho hS).2
  have hkc : x.PricesKept → y.PricesKept → ∀ σ, y.keptCost σ = k * x.keptCost σ := by
    intro q q' σ
    unfold OptCtx.keptCost
    rw [h.network, ← List.sum_map_mul_left]
    congr 1
    refine List.map_congr_left fun c hc => ?_
    rw [hcon, ← List.sum_map_mul_left]
    congr 1
    refine List.map_congr_left fun e he => ?_
    have hv := fun var => h.cost hS hp hn hcl var hc (hp.costs c hc e he) (ho.objectives c hc e he)
    have h1 : y.fixedPart c e 0 0 = k * x.fixedPart c e 0 0 := hv _
    have h2 : ∀ κ, y.coefficient c e 0 0 κ = k * x.coefficient c e 0 0 κ := by
      intro κ
      unfold OptCtx.coefficient
      rw [hv, h1]
      ring
    have h3 : ∀ κ, keep (k * x.coefficient c e 0 0 κ) = k * keep (x.coefficient c e 0 0 κ) := by
      intro κ
      have z := coefficient_noTiny (q' c (by rw [h.network]; exact hc) e (by rw [hcon]; exact he)) κ
      rw [h2] at z
      exact keep_times (coefficient_noTiny (q c hc e he) κ) z
    unfold OptCtx.keptValue
    simp only [h1, h2, h3, hT, mul_assoc]
    rw [mul_add, ← smul_eq_mul k (∑ᶠ κ, _), smul_finsum]
    simp only [smul_eq_mul]
  exact ⟨hm, hkf, hkc, fun hk c => leastCost_times hk hm c, fun hk q q' c => leastCost_times hk (fun σ => ⟨hkf σ, hkc q q' σ⟩) c⟩

/-! ## The shipped models -/

/-- no price in the expression -/
def priceless (e : Expr) : Bool := e.subs.all fun
  | .par n => decide (n ∉ prices)
  | _ => true

mutual
/-- proportional to prices -/
def inPrices : Expr → Bool
  | .par n => decide (n ∈ prices)
  | .neg e => inPrices e
  | .add es => inPricesAll es
  | .mul l r => (inPrices l && priceless r) || (priceless l && inPrices r)
  | .div l r => inPrices l && priceless r
  | .shift e n => inPrices e && priceless n
  | .evalT e n => inPrices e && priceless n
  | .tsum e a b => inPrices e && priceless a && priceless b
  | .allsum e => inPrices e
  | .scen e _ => inPrices e
  | _ => false
/-- all operands -/
def inPricesAll : List Expr → Bool
  | [] => true
  | e :: es => inPrices e && inPricesAll es
end

theorem inPricesAll_iff : ∀ {es : List Expr}, inPricesAll es = true ↔ ∀ e ∈ es, inPrices e = true
  | [] => by simp [inPricesAll]
  | e :: es => by simp [inPricesAll, inPricesAll_iff (es := es)]

theorem priceless_without {e : Expr} (h : priceless e = true) : e.Without (· ∈ prices) := fun n hn => by
  simpa using List.all_eq_true.1 h _ hn

theorem inPrices_proportional (e : Expr) : inPrices e = true → e.Proportional (· ∈ prices) := by
  induction e using Expr.ind with
  | par n => exact fun h => .price n (by simpa [inPrices] using h)
  | neg e ih => exact fun h => .neg (ih (by simpa [inPrices] using h))
  | add es ih =>
    intro h
    simp only [inPrices, inPricesAll_iff] at h
    exact .add fun e he => ih e he (h e he)
  | mul l r ihl ihr =>
    intro h
    simp only [inPrices, Bool.or_eq_true, Bool.and_eq_true] at h
    rcases h with ⟨a, b⟩ | ⟨a, b⟩
    · exact .mulLeft (ihl a) (priceless_without b)
    · exact .mulRight (priceless_without a) (ihr b)
  | div l r ihl _ =>
    intro h
    simp only [inPrices, Bool.and_eq_true] at h
    exact .div (ihl h.1) (priceless_without h.2)
  | shift e n ih _ =>
    intro h
    simp only [inPrices, Bool.and_eq_true] at h
    exact .shift (ih h.1) (priceless_without h.2)
  | evalT e n ih _ =>
    intro h
    simp only [inPrices, Bool.and_eq_true] at h
    exact .evalT (ih h.1) (priceless_without h.2)
  | tsum e a b ih _ _ =>
    intro h
    simp only [inPrices, Bool.and_eq_true] at h
    exact .tsum (ih h.1.1) (priceless_without h.1.2) (priceless_without h.2)
  | allsum e ih => exact fun h => .allsum (ih (by simpa [inPrices] using h))
  | scen e o ih => exact fun h => .scen (ih (by simpa [inPrices] using h))
  | lit v => intro h; simp [inPrices] at h
  | var n => intro h; simp [inPrices] at h
  | portField p f => intro h; simp [inPrices] at h
  | agg e a _ => intro h; simp [inPrices] at h
  | cmp l r c _ _ => intro h; simp [inPrices] at h
  | cvar c n => intro h; simp [inPrices] at h
  | cpar c n => intro h; simp [inPrices] at h
  | pvar c n ti si => intro h; simp [inPrices] at h
  | ppar c n ti si => intro h; simp [inPrices] at h

/-- prices occur in costs only, and costs are proportional to them -/
def pricedModel (m : Model) : Bool :=
  m.variables_.values.all (fun v => v.lowerBound.toList.all priceless && v.upperBound.toList.all priceless) &&
  m.allConstraints.all (fun k => priceless k.expression && priceless k.lowerBound && priceless k.upperBound) &&
  m.objectives.all inPrices &&
  m.portFieldsDefinitions.values.all fun d => priceless d.definition

theorem shipped_priced : ∀ e ∈ shippedModels, pricedModel e.2.1 = true := by
  have : (shippedModels.all fun e => pricedModel e.2.1) = true := by decide +kernel
  exact List.all_eq_true.1 this

section
variable {I J : StudyInput} {net : Network} {db db' : DataBase}

/-- the prices of studies on the shipped models -/
theorem shipped_prices (hs : I.Sound) (l : I.Linked net) : (I.context net db).Prices fun _ n => n ∈ prices := by
  have model : ∀ {c : Component}, c ∈ net.allComponents → pricedModel c.model = true := fun hc => by
    obtain ⟨ic, -, -, r, hr⟩ := l.rules hc
    exact shipped_priced _ hr
  refine ⟨fun c hc v hv b hb => ?_, fun c hc k hk b hb => ?_, fun j hj q f d hq hd => ?_, fun c hc e he => ?_⟩
  · rw [context_variables] at hv
    have := model hc
    simp only [pricedModel, Bool.and_eq_true, List.all_eq_true] at this
    have := this.1.1.1 v hv
    rcases hb with hb | hb
    · exact priceless_without (this.1 b (by simp [hb]))
    · exact priceless_without (this.2 b (by simp [hb]))
  · rw [context_constraints] at hk
    have := model hc
    simp only [pricedModel, Bool.and_eq_true, List.all_eq_true] at this
    have := this.1.1.2 k hk
    rcases hb with rfl | rfl | rfl
    · exact priceless_without this.1.1
    · exact priceless_without this.1.2
    · exact priceless_without this.2
  · have hcl := l.closed (db := db) hs j hj
    have hc : q.component ∈ net.allComponents := by
      rcases hq with rfl | rfl
      · exact hcl.1
      · exact hcl.2
    have := model hc
    simp only [pricedModel, Bool.and_eq_true, List.all_eq_true] at this
    unfold PortRef.fieldDef at hd
    obtain ⟨z, hz, rfl⟩ := Option.map_eq_some_iff.1 hd
    exact priceless_without (this.2 _ (List.mem_map.2 ⟨_, Dict.mem_of_get? hz, rfl⟩))
  · rw [context_contributions] at he
    have := model hc
    simp only [pricedModel, Bool.and_eq_true, List.all_eq_true] at this
    exact inPrices_proportional e (this.1.2 e he)

/-- a study with other prices makes a problem with other prices -/
theorem repriced_context {k : ℚ} (h : I.Repriced k J) (hs : I.Sound) (hs' : J.Sound) (l : I.Linked net) (hdb : buildDataBase I.load I.system = .ok db)
    (hdb' : buildDataBase J.load J.system = .ok db') : (I.context net db).Repriced k (fun _ n => n ∈ prices) (J.context net db') := by
  have key : ∀ c ∈ net.allComponents, ∀ n (t s : Int), 0 ≤ s → s < (I.scenarios : Int) →
      (n ∈ prices → (J.context net db').parameterAt c.id n t s = k * (I.context net db).parameterAt c.id n t s) ∧
      (n ∉ prices → (J.context net db').parameterAt c.id n t s = (I.context net db).parameterAt c.id n t s) := by
    intro c hc n t s h0 h1
    obtain ⟨ic, hic, e, -⟩ := l.rules hc
    obtain ⟨w, rfl⟩ := Int.eq_ofNat_of_zero_le h0
    have hw : w < I.scenarios := by exact_mod_cast h1
    have a : (I.context net db).parameterAt c.id n t w = I.parameter c.id n t w := l.dataValue_eq hs hdb hc n t w h0
    have b : (J.context net db').parameterAt c.id n t w = J.parameter c.id n t w :=
      (sameParts_linked h.toSameParts l).dataValue_eq hs' hdb' hc n t w h0
    have := h.toSameParts.everywhere hs.block (id := ic.id) (s := w) (P := PricesTimes k) (fun t ht => ⟨fun n hn => h.prices ic hic n hn t w ht hw,
      fun n hn => h.others ic hic n hn t w ht hw⟩) t
    rw [← e] at this
    rw [a, b]
    exact ⟨fun hn => this.1 n hn, fun hn => this.2 n hn⟩
  exact ⟨rfl, h.length, h.scenarios, rfl, rfl, fun c hc n hn t s h0 h1 => (key c hc n t s h0 h1).1 hn,
    fun c hc n hn t s h0 h1 => (key c hc n t s h0 h1).2 hn⟩

end

/-- **C86 (partial), the command.** Two commands on studies that differ by the unit of prices only.  Both end without an error.  If no coefficient
of the costs is tiny, they print the same status, and the second one prints `k` times the cost of the first one when it is 0.  Coefficients of
limits may be tiny.

Partial: tiny coefficients of costs (`c86_tiny_prices`). -/
theorem c86_command_partial (solve : Solver → Answer) (hsolve : RightSolver solve) (os os' : Nat → SetOrder) (ho : ∀ i, (os i).Valid)
    (ho' : ∀ i, (os' i).Valid) (fuel fuel' : Nat) (d d' : Disk) (f f' : CliFlags) {paths paths' : List String} {comp comp' : String}
    {tables tables' : Option String} {ls ls' : List InputLibrary} {s s' : InputSystem} (h : ShippedCommand d f paths comp tables ls s)
    (hfuel : 3 * ls.length + 2 ≤ fuel) (h' : ShippedCommand d' f' paths' comp' tables' ls' s') (hfuel' : 3 * ls'.length + 2 ≤ fuel') (k : ℚ)
    (hk : 0 < k) (hr : (d.study s tables f).Repriced k (d'.study s' tables' f')) :
    ∃ o o', mainOutput solve textParser os fuel d f = some (.ok o) ∧ mainOutput solve textParser os' fuel' d' f' = some (.ok o') ∧
      (PricesKeptRun textParser os fuel d f → PricesKeptRun textParser os' fuel' d' f' →
        (o'.status = 0 ↔ o.status = 0) ∧ (o.status = 0 → o'.cost = k * o.cost)) := by
  obtain ⟨libs, sys, net, db, o, ⟨c1, c2, c3⟩, l1, b1, h1, s1, -⟩ := shipped_run hsolve ho h hfuel
  obtain ⟨libs', sys', net', db', o', ⟨c1', c2', c3'⟩, l2, b2, h2, s2, -⟩ := shipped_run hsolve ho' h' hfuel'
  refine ⟨o, o', h1, h2, fun hq hq' => ?_⟩
  have q : ((d.study s tables f).context net db).PricesKept := hq _ _ _ _ _ _ _ _ _ h.names h.read c1 h.system c2 c3 b1
  have q' : ((d'.study s' tables' f').context net' db').PricesKept := hq' _ _ _ _ _ _ _ _ _ h'.names h'.read c1' h'.system c2' c3' b2
  have l3 := sameParts_linked hr.toSameParts l1
  have hsame : s'.Renamed (fun n => n) s' := rearranged_refl s'
  have hren := renamed_networks hsame (renamed_part (I := d'.study s' tables' f') hsame) h'.sound h'.sound h'.joins l3 l2 b2 b2
  have hren' := renamed_networks hsame (renamed_part (I := d'.study s' tables' f') hsame) h'.sound h'.sound h'.joins l2 l3 b2 b2
  have q3 : ((d'.study s' tables' f').context net db').PricesKept := by
    intro c hc e he
    obtain ⟨c', hc', rfl⟩ := List.mem_map.1 (hren'.components.symm.subset hc)
    rw [context_contributions] at he
    exact (renamed_net_part hren').noTiny (l2.networkOk db' h'.sound) (l3.networkOk db' h'.sound) (l2.closed h'.sound) hc'
      ((l2.checked hc').objective_ok he).2.2.1 0 0 le_rfl (q' c' hc' e (by rw [context_contributions]; exact he))
  have key := renamed_leastCost hren (fun _ _ ha => renamed_net_kept hren (l3.networkOk db' h'.sound) (l2.networkOk db' h'.sound) (l3.closed h'.sound)
    l3.ownSymbols ha)
  have e := (c86_any_models k _ _ _ (repriced_context hr h.sound h'.sound l1 b1 b2) (shipped_prices h.sound l1) (l1.networkOk db h.sound)
    (l1.closed h.sound) l1.ownSymbols h.sound.scenarios).2.2.2.2 hk q q3
  have hst : o'.status = 0 ↔ o.status = 0 := by
    rw [s1.solved, s2.solved]
    constructor
    · rintro ⟨c, hc⟩
      refine ⟨k⁻¹ * c, (e _).1 ?_⟩
      rw [mul_inv_cancel_left₀ hk.ne']
      exact (key _).1 hc
    · rintro ⟨c, hc⟩
      exact ⟨k * c, (key _).2 ((e c).2 hc)⟩
  exact ⟨hst, fun h0 => leastCost_unique ((key _).1 (s2.least (hst.2 h0))) ((e _).2 (s1.least h0))⟩

end Props
end Verif
