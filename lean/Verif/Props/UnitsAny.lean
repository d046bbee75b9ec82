import Verif.Lemmas.UnitsAny

/-!
# C89: a system `k` times as large costs `k` times as much, for any models
-/

namespace Verif.Props
open Verif Verif.Expr Verif.OptCtx Verif.Shipped

theorem aboveBound_times {M M' : MCtx} {b : Expr} {q q' m : ℚ} {t s : Int} (hm : 0 < m) (h : mden M' b t s = m * mden M b t s) (hq : q' = m * q) :
    aboveBound M' b q' t s ↔ aboveBound M b q t s := by
  subst hq
  unfold aboveBound
  split
  · rfl
  · rfl
  · rfl
  · rw [h, mul_le_mul_iff_right₀ hm]

theorem belowBound_times {M M' : MCtx} {b : Expr} {q q' m : ℚ} {t s : Int} (hm : 0 < m) (h : mden M' b t s = m * mden M b t s) (hq : q' = m * q) :
    belowBound M' b q' t s ↔ belowBound M b q t s := by
  subst hq
  unfold belowBound
  split
  · rfl
  · rfl
  · rfl
  · rw [h, mul_le_mul_iff_right₀ hm]

theorem coefficient_kept {x : OptCtx} {c : Component} {e : Expr} {t s : Int} (h : x.NoTiny c e t s) (κ : TermKey) :
    x.coefficient c e t s κ = 0 ∨ 1 / 10 ^ 16 ≤ |x.coefficient c e t s κ| := by
  have := h (fun _ _ _ _ => 0) κ
  simp only [zero_add] at this
  exact this

/-- the least of costs that are multiplied, when the values are multiplied -/
theorem leastCost_rescaled {k m : ℚ} (hk : k ≠ 0) (hm : 0 < m) {u : String → Units} {A B : (TermKey → ℚ) → Prop} {f g : (TermKey → ℚ) → ℚ}
    (key : ∀ σ, (B (rescaled k u σ) ↔ A σ) ∧ g (rescaled k u σ) = m * f σ) (c : ℚ) : LeastCost B g (m * c) ↔ LeastCost A f c := by
  have onto : ∀ τ : TermKey → ℚ, ∃ σ, rescaled k u σ = τ := by
    intro τ
    refine ⟨fun κ => (k ^ (u κ.component).var κ.var)⁻¹ * τ κ, ?_⟩
    funext κ
    exact mul_inv_cancel_left₀ (zpow_ne_zero _ hk) _
  unfold LeastCost
  constructor
  · rintro ⟨⟨τ, h1, h2⟩, h3⟩
    obtain ⟨σ, rfl⟩ := onto τ
    rw [(key σ).2] at h2
    refine ⟨⟨σ, (key σ).1.1 h1, mul_left_cancel₀ hm.ne' h2⟩, fun σ' h' => ?_⟩
    have := h3 _ ((key σ').1.2 h')
    rw [(key σ').2] at this
    exact le_of_mul_le_mul_left this hm
  · rintro ⟨⟨σ, h1, h2⟩, h3⟩
    refine ⟨⟨_, (key σ).1.2 h1, by rw [(key σ).2, h2]⟩, fun τ h' => ?_⟩
    obtain ⟨σ', rfl⟩ := onto τ
    rw [(key σ').2]
    exact mul_le_mul_of_nonneg_left (h3 _ ((key σ').1.1 h')) hm.le

section
variable {k : ℚ} {u : String → Units} {w : ℤ} {x y : OptCtx}

theorem rescaled_readIn (h : x.Rescaled k u y) (hk : k ≠ 0) (hS : 0 < x.scenarios) (hc : x.Consistent u w) (hn : x.NetworkOk) (hcl : x.Closed)
    (σ : TermKey → ℚ) {c : Component} (hm : c ∈ x.network.allComponents) {e : Expr} {z : ℤ} (he : e.InUnits (u c.id) z)
    (hown : ∀ y ∈ e.subs, y.hasComponent = false) (t s : Int) (hs : 0 ≤ s ∧ s < (x.scenarios : Int)) :
    mden (y.readIn (rescaled k u σ) c) e t s = k ^ z * mden (x.readIn σ c) e t s := by
  have hT : y.T = x.T := h.length
  have := h.value (a := 1) hk hS hc hn hcl (fun c v t s => σ ⟨c, v, t.map (· % (x.T : Int)), s⟩)
    (fun c v t s => rescaled k u σ ⟨c, v, t.map (· % (x.T : Int)), s⟩) (fun _ _ _ _ => 0) (fun c n t s => by unfold rescaled; ring)
    hm he hown t s hs
  unfold OptCtx.readIn OptCtx.reading
  rw [hT, this]
  ring

theorem rescaled_fixedPart (h : x.Rescaled k u y) (hk : k ≠ 0) (hS : 0 < x.scenarios) (hc : x.Consistent u w) (hn : x.NetworkOk) (hcl : x.Closed)
    {c : Component} (hm : c ∈ x.network.allComponents) {e : Expr} {z : ℤ} (he : e.InUnits (u c.id) z)
    (hown : ∀ y ∈ e.subs, y.hasComponent = false) (t s : Int) (hs : 0 ≤ s ∧ s < (x.scenarios : Int)) :
    y.fixedPart c e t s = k ^ z * x.fixedPart c e t s := by
  have := h.value (a := 1) hk hS hc hn hcl (fun _ _ _ _ => 0) (fun _ _ _ _ => 0) (fun _ _ _ _ => 0) (fun c n t s => by ring) hm he hown t s hs
  unfold OptCtx.fixedPart
  rw [this]
  ring

theorem rescaled_coefficient (h : x.Rescaled k u y) (hk : k ≠ 0) (hS : 0 < x.scenarios) (hc : x.Consistent u w) (hn : x.NetworkOk) (hcl : x.Closed)
    {c : Component} (hm : c ∈ x.network.allComponents) {e : Expr} {z : ℤ} (he : e.InUnits (u c.id) z)
    (hown : ∀ y ∈ e.subs, y.hasComponent = false) (t s : Int) (hs : 0 ≤ s ∧ s < (x.scenarios : Int)) (κ : TermKey) :
    y.coefficient c e t s κ = k ^ (z - (u κ.component).var κ.var) * x.coefficient c e t s κ := by
  have := h.value (a := (k ^ (u κ.component).var κ.var)⁻¹) hk hS hc hn hcl (fun c v t s => if κ = ⟨c, v, t, s⟩ then 1 else 0)
    (fun c v t s => if κ = ⟨c, v, t, s⟩ then 1 else 0) (fun _ _ _ _ => 0) (fun c n t s => by
      split
      · subst κ
        simp only [mul_zero, add_zero, mul_one]
        rw [mul_inv_cancel₀ (zpow_ne_zero _ hk)]
      · ring) hm he hown t s hs
  unfold OptCtx.coefficient
  rw [this, rescaled_fixedPart h hk hS hc hn hcl hm he hown t s hs, zpow_sub₀ hk]
  unfold OptCtx.fixedPart
  ring

/-- kept values are multiplied when coefficients are kept together -/
theorem rescaled_keptValue (h : x.Rescaled k u y) (hk : k ≠ 0) (hS : 0 < x.scenarios) (hc : x.Consistent u w) (hn : x.NetworkOk) (hcl : x.Closed)
    (σ : TermKey → ℚ) {c : Component} (hm : c ∈ x.network.allComponents) {e : Expr} {z : ℤ} (he : e.InUnits (u c.id) z)
    (hown : ∀ y ∈ e.subs, y.hasComponent = false) (t s : Int) (hs : 0 ≤ s ∧ s < (x.scenarios : Int))
    (hkeep : (x.NoTiny c e t s ∧ y.NoTiny c e t s) ∨ ∀ id n, (u id).var n = z) :
    y.keptValue (rescaled k u σ) c e t s = k ^ z * x.keptValue σ c e t s := by
  have hT : y.T = x.T := h.length
  have h1 := rescaled_fixedPart h hk hS hc hn hcl hm he hown t s hs
  have h2 := rescaled_coefficient h hk hS hc hn hcl hm he hown t s hs
  have h3 : ∀ κ, keep (y.coefficient c e t s κ) = k ^ (z - (u κ.component).var κ.var) * keep (x.coefficient c e t s κ) := by
    intro κ
    rcases hkeep with ⟨q, q'⟩ | q
    · have a := coefficient_kept q' κ
      rw [h2] at a ⊢
      exact keep_times (coefficient_kept q κ) a
    · rw [h2, q, sub_self, zpow_zero, one_mul, one_mul]
  unfold OptCtx.keptValue
  rw [h1, mul_add, ← smul_eq_mul (k ^ z) (∑ᶠ κ, _), smul_finsum]
  congr 1
  refine finsum_congr fun κ => ?_
  rw [h3, hT, smul_eq_mul, zpow_sub₀ hk]
  unfold rescaled
  have := zpow_ne_zero ((u κ.component).var κ.var) hk
  field_simp

end

/-- **C89, any models.** Take a problem of any models whose symbols have consistent powers (`Consistent`), costs having power `w`, and the same
problem with each parameter multiplied by the power of `k` that it has, `k > 0`.  Values of the variables satisfy the first one if and only if they
satisfy the second one once multiplied by their power of `k`, and then cost `k ^ w` times as much.  This also holds of what the program keeps
when nothing is tiny in either problem, or when all variables and constraints have the power of costs.  So least costs are multiplied by
`k ^ w`. -/
theorem c89_any_models (k : ℚ) (hk : 0 < k) (u : String → Units) (w : ℤ) (x y : OptCtx) (h : x.Rescaled k u y) (hc : x.Consistent u w)
    (hn : x.NetworkOk) (hcl : x.Closed) (ho : x.OwnSymbols) (hS : 0 < x.scenarios) :
    (∀ σ, (y.MathFeasible (rescaled k u σ) ↔ x.MathFeasible σ) ∧ y.mathCost (rescaled k u σ) = k ^ w * x.mathCost σ) ∧
    (∀ c, LeastCost y.MathFeasible y.mathCost (k ^ w * c) ↔ LeastCost x.MathFeasible x.mathCost c) ∧
    ((x.NoneTiny ∧ y.NoneTiny) ∨ x.OnePower u w →
      (∀ σ, (y.KeptFeasible (rescaled k u σ) ↔ x.KeptFeasible σ) ∧ y.keptCost (rescaled k u σ) = k ^ w * x.keptCost σ) ∧
      ∀ c, LeastCost y.KeptFeasible y.keptCost (k ^ w * c) ↔ LeastCost x.KeptFeasible x.keptCost c) := by
  have k0 := hk.ne'
  have hT : y.T = x.T := h.length
  have hcon : ∀ c, y.contributions c = x.contributions c := fun c => by
    unfold OptCtx.contributions
    rw [h.strategy, h.risk]
  have nat : ∀ {s : Nat}, s < x.scenarios → (0 : Int) ≤ s ∧ (s : Int) < x.scenarios := fun hs => ⟨by positivity, by exact_mod_cast hs⟩
  have rd := fun σ => @rescaled_readIn k u w x y h k0 hS hc hn hcl σ
  have opt : ∀ {c : Component}, c ∈ x.network.allComponents → ∀ {v : Variable}, v ∈ x.strategy.getVariables c.model → ∀ (σ) (t s : Nat),
      s < x.scenarios →
      (aboveOpt (y.readIn (rescaled k u σ) c) v.lowerBound (rescaled k u σ (instanceAt c v t s)) t s ↔
        aboveOpt (x.readIn σ c) v.lowerBound (σ (instanceAt c v t s)) t s) ∧
      (belowOpt (y.readIn (rescaled k u σ) c) v.upperBound (rescaled k u σ (instanceAt c v t s)) t s ↔
        belowOpt (x.readIn σ c) v.upperBound (σ (instanceAt c v t s)) t s) := by
    intro c hm v hv σ t s hs
    constructor
    · cases hb : v.lowerBound with
      | none => exact Iff.rfl
      | some b => exact aboveBound_times (zpow_pos hk _) (rd σ hm (hc.bounds c hm v hv b (.inl hb)) (ho.bounds c hm v hv b (.inl hb)) t s (nat hs)) rfl
    · cases hb : v.upperBound with
      | none => exact Iff.rfl
      | some b => exact belowBound_times (zpow_pos hk _) (rd σ hm (hc.bounds c hm v hv b (.inr hb)) (ho.bounds c hm v hv b (.inr hb)) t s (nat hs)) rfl
  have ty : ∀ {c : Component}, c ∈ x.network.allComponents → ∀ {v : Variable}, v ∈ x.strategy.getVariables c.model → ∀ (σ) (t s : Int),
      v.dataType = .continuous ∨ rescaled k u σ (instanceAt c v t s) = σ (instanceAt c v t s) := by
    intro c hm v hv σ t s
    refine (hc.discrete c hm v hv).imp id fun e => ?_
    show k ^ (u c.id).var v.name * _ = _
    rw [e, zpow_zero, one_mul]
  have hm : ∀ σ, (y.MathFeasible (rescaled k u σ) ↔ x.MathFeasible σ) ∧ y.mathCost (rescaled k u σ) = k ^ w * x.mathCost σ := by
    intro σ
    constructor
    · have e1 : ∀ c ∈ x.network.allComponents, ∀ v ∈ x.strategy.getVariables c.model, ∀ t s : Nat, s < x.scenarios →
          (aboveOpt (y.readIn (rescaled k u σ) c) v.lowerBound (rescaled k u σ (instanceAt c v t s)) t s ∧
              belowOpt (y.readIn (rescaled k u σ) c) v.upperBound (rescaled k u σ (instanceAt c v t s)) t s ∧
              ofType v.dataType (rescaled k u σ (instanceAt c v t s)) ↔
            aboveOpt (x.readIn σ c) v.lowerBound (σ (instanceAt c v t s)) t s ∧ belowOpt (x.readIn σ c) v.upperBound (σ (instanceAt c v t s)) t s ∧
              ofType v.dataType (σ (instanceAt c v t s))) := by
        intro c hm v hv t s hs
        refine and_congr (opt hm hv σ t s hs).1 (and_congr (opt hm hv σ t s hs).2 ?_)
        rcases ty hm hv σ t s with e | e
        · rw [e]; exact Iff.rfl
        · rw [e]
      have e2 : ∀ c ∈ x.network.allComponents, ∀ z ∈ x.strategy.getConstraints c.model, ∀ t s : Nat, s < x.scenarios →
          (z.Holds (y.readIn (rescaled k u σ) c) t s ↔ z.Holds (x.readIn σ c) t s) := by
        intro c hm z hz t s hs
        obtain ⟨p, hp⟩ := hc.constraints c hm z hz
        have r := rd σ hm (hp _ (.inl rfl)) (ho.constraints c hm z hz _ (.inl rfl)) t s (nat hs)
        exact and_congr
          (aboveBound_times (zpow_pos hk p) (rd σ hm (hp _ (.inr (.inl rfl))) (ho.constraints c hm z hz _ (.inr (.inl rfl))) t s (nat hs)) r)
          (belowBound_times (zpow_pos hk p) (rd σ hm (hp _ (.inr (.inr rfl))) (ho.constraints c hm z hz _ (.inr (.inr rfl))) t s (nat hs)) r)
      constructor
      · rintro ⟨g1, g2⟩
        rw [h.network, h.strategy, hT, h.scenarios] at g1 g2
        exact ⟨fun c hm v hv t s ht hs => (e1 c hm v hv t s hs).1 (g1 c hm v hv t s ht hs),
          fun c hm z hz t s ht hs => (e2 c hm z hz t s hs).1 (g2 c hm z hz t s ht hs)⟩
      · rintro ⟨g1, g2⟩
        refine ⟨?_, ?_⟩ <;> rw [h.network, h.strategy, hT, h.scenarios]
        · exact fun c hm v hv t s ht hs => (e1 c hm v hv t s hs).2 (g1 c hm v hv t s ht hs)
        · exact fun c hm z hz t s ht hs => (e2 c hm z hz t s hs).2 (g2 c hm z hz t s ht hs)
    · unfold OptCtx.mathCost
      rw [h.network, ← List.sum_map_mul_left]
      congr 1
      refine List.map_congr_left fun c hm => ?_
      rw [hcon, ← List.sum_map_mul_left]
      congr 1
      exact List.map_congr_left fun e he => rd σ hm (hc.costs c hm e he) (ho.objectives c hm e he) 0 0 ⟨le_rfl, by exact_mod_cast hS⟩
  refine ⟨hm, leastCost_rescaled k0 (zpow_pos hk w) hm, fun hkeep => ?_⟩
  have hkp : ∀ σ, (y.KeptFeasible (rescaled k u σ) ↔ x.KeptFeasible σ) ∧ y.keptCost (rescaled k u σ) = k ^ w * x.keptCost σ := by
    intro σ
    constructor
    · have e1 : ∀ c ∈ x.network.allComponents, ∀ v ∈ x.strategy.getVariables c.model, ∀ t s : Nat, s < x.scenarios →
          (enforcedVar (y.readIn (rescaled k u σ) c) v (rescaled k u σ (instanceAt c v t s)) t s ↔
            enforcedVar (x.readIn σ c) v (σ (instanceAt c v t s)) t s) := by
        intro c hm v hv t s hs
        have a := opt hm hv σ t s hs
        unfold enforcedVar
        rcases ty hm hv σ t s with e | e
        · rw [e]
          exact and_congr a.1 (and_congr a.2 Iff.rfl)
        · rw [a.1, a.2, e]
      have hw : ∀ c e (t s : Nat), y.WrittenAt c e t s ↔ x.WrittenAt c e t s := by
        intro c e t s
        unfold OptCtx.WrittenAt
        rw [hT, h.scenarios, looser_dependence h.network]
      have e2 : ∀ c ∈ x.network.allComponents, ∀ z ∈ x.strategy.getConstraints c.model, ∀ t s : Nat, t < x.T → s < x.scenarios →
          ((aboveBound (y.readIn (rescaled k u σ) c) z.lowerBound (y.keptValue (rescaled k u σ) c z.expression t s) t s ∧
            belowBound (y.readIn (rescaled k u σ) c) z.upperBound (y.keptValue (rescaled k u σ) c z.expression t s) t s) ↔
          (aboveBound (x.readIn σ c) z.lowerBound (x.keptValue σ c z.expression t s) t s ∧
            belowBound (x.readIn σ c) z.upperBound (x.keptValue σ c z.expression t s) t s)) := by
        intro c hm z hz t s ht hs
        obtain ⟨p, hp, hkeep⟩ : ∃ p, (∀ b, b = z.expression ∨ b = z.lowerBound ∨ b = z.upperBound → b.InUnits (u c.id) p) ∧
            ((x.NoTiny c z.expression t s ∧ y.NoTiny c z.expression t s) ∨ ∀ id n, (u id).var n = p) := by
          rcases hkeep with ⟨q, q'⟩ | q
          · obtain ⟨p, hp⟩ := hc.constraints c hm z hz
            exact ⟨p, hp, .inl ⟨q.2 c hm z hz t s ht hs, q'.2 c (by rw [h.network]; exact hm) z (by rw [h.strategy]; exact hz) t s (by rw [hT]; exact ht)
              (by rw [h.scenarios]; exact hs)⟩⟩
          · exact ⟨w, q.2 c hm z hz, .inr q.1⟩
        have r := rescaled_keptValue h k0 hS hc hn hcl σ hm (hp _ (.inl rfl)) (ho.constraints c hm z hz _ (.inl rfl)) t s (nat hs) hkeep
        exact and_congr
          (aboveBound_times (zpow_pos hk p) (rd σ hm (hp _ (.inr (.inl rfl))) (ho.constraints c hm z hz _ (.inr (.inl rfl))) t s (nat hs)) r)
          (belowBound_times (zpow_pos hk p) (rd σ hm (hp _ (.inr (.inr rfl))) (ho.constraints c hm z hz _ (.inr (.inr rfl))) t s (nat hs)) r)
      constructor
      · rintro ⟨g1, g2⟩
        rw [h.network, h.strategy] at g1 g2
        rw [hT, h.scenarios] at g1
        exact ⟨fun c hm v hv t s ht hs => (e1 c hm v hv t s hs).1 (g1 c hm v hv t s ht hs),
          fun c hm z hz t s w => (e2 c hm z hz t s w.1 w.2.1).1 (g2 c hm z hz t s ((hw _ _ _ _).2 w))⟩
      · rintro ⟨g1, g2⟩
        refine ⟨?_, ?_⟩ <;> rw [h.network, h.strategy]
        · rw [hT, h.scenarios]
          exact fun c hm v hv t s ht hs => (e1 c hm v hv t s hs).2 (g1 c hm v hv t s ht hs)
        · intro c hm z hz t s w
          have w := (hw _ _ _ _).1 w
          exact (e2 c hm z hz t s w.1 w.2.1).2 (g2 c hm z hz t s w)
    · unfold OptCtx.keptCost
      rw [h.network, ← List.sum_map_mul_left]
      congr 1
      refine List.map_congr_left fun c hm => ?_
      rw [hcon, ← List.sum_map_mul_left]
      congr 1
      refine List.map_congr_left fun e he => ?_
      exact rescaled_keptValue h k0 hS hc hn hcl σ hm (hc.costs c hm e he) (ho.objectives c hm e he) 0 0 ⟨le_rfl, by exact_mod_cast hS⟩
        (hkeep.imp (fun q => ⟨q.1.1 c hm e he, q.2.1 c (by rw [h.network]; exact hm) e (by rw [hcon]; exact he)⟩) (·.1))
  exact ⟨hkp, leastCost_rescaled k0 (zpow_pos hk w) hkp⟩

end Verif.Props
