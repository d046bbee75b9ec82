import Verif.Lemmas.BetweenAny
import Verif.Lemmas.FewKeys

/-!
# C91: a system between two systems costs at most the mean, for any models
-/

namespace Verif.Props
open Verif Verif.Expr Verif.OptCtx Verif.Shipped

theorem aboveBound_between {M M1 M2 : MCtx} {b : Expr} {q q1 q2 m : ℚ} {t s : Int} (h0 : 0 ≤ m) (h1 : m ≤ 1)
    (h : mden M b t s = m * mden M1 b t s + (1 - m) * mden M2 b t s) (hq : q = m * q1 + (1 - m) * q2) (a1 : aboveBound M1 b q1 t s)
    (a2 : aboveBound M2 b q2 t s) : aboveBound M b q t s := by
  unfold aboveBound at *
  split
  · trivial
  · exact a1
  · exact a1
  · rename_i g1 g2 g3
    have a1 : mden M1 b t s ≤ q1 := by split at a1 <;> first | exact a1 | (exfalso; tauto)
    have a2 : mden M2 b t s ≤ q2 := by split at a2 <;> first | exact a2 | (exfalso; tauto)
    rw [h, hq]
    exact add_le_add (mul_le_mul_of_nonneg_left a1 h0) (mul_le_mul_of_nonneg_left a2 (sub_nonneg.2 h1))

theorem belowBound_between {M M1 M2 : MCtx} {b : Expr} {q q1 q2 m : ℚ} {t s : Int} (h0 : 0 ≤ m) (h1 : m ≤ 1)
    (h : mden M b t s = m * mden M1 b t s + (1 - m) * mden M2 b t s) (hq : q = m * q1 + (1 - m) * q2) (a1 : belowBound M1 b q1 t s)
    (a2 : belowBound M2 b q2 t s) : belowBound M b q t s := by
  unfold belowBound at *
  split
  · trivial
  · exact a1
  · exact a1
  · rename_i g1 g2 g3
    have a1 : q1 ≤ mden M1 b t s := by split at a1 <;> first | exact a1 | (exfalso; tauto)
    have a2 : q2 ≤ mden M2 b t s := by split at a2 <;> first | exact a2 | (exfalso; tauto)
    rw [h, hq]
    exact add_le_add (mul_le_mul_of_nonneg_left a1 h0) (mul_le_mul_of_nonneg_left a2 (sub_nonneg.2 h1))

/-- the least cost of choices that can be mixed is at most the mean -/
theorem leastCost_between {m : ℚ} (h0 : 0 ≤ m) (h1 : m ≤ 1) {A B C : (TermKey → ℚ) → Prop} {f g k : (TermKey → ℚ) → ℚ}
    (key : ∀ σ τ, A σ → B τ → C (between m σ τ) ∧ k (between m σ τ) = m * f σ + (1 - m) * g τ) (c c1 c2 : ℚ) (hA : LeastCost A f c1)
    (hB : LeastCost B g c2) (hC : LeastCost C k c) : c ≤ m * c1 + (1 - m) * c2 := by
  obtain ⟨⟨σ, a1, rfl⟩, -⟩ := hA
  obtain ⟨⟨τ, b1, rfl⟩, -⟩ := hB
  obtain ⟨p, q⟩ := key σ τ a1 b1
  rw [← q]
  exact hC.2 _ p

theorem otherAmounts_refl (a : String → String → Prop) (x : OptCtx) : x.OtherAmounts a x :=
  ⟨rfl, rfl, rfl, rfl, rfl, fun _ _ _ _ _ _ _ _ => rfl⟩

section
variable {m : ℚ} {a : String → String → Prop} {x y z : OptCtx}

theorem between_parameters (o1 : z.OtherAmounts a x) (o2 : z.OtherAmounts a y) (hb : AmountsBetween m a x y z) :
    ∀ c ∈ z.network.allComponents, ∀ n, ∀ t s : Int, 0 ≤ s → s < z.scenarios → z.parameterAt c.id n t s =
      m * x.parameterAt c.id n t s + (1 - m) * y.parameterAt c.id n t s + 0 * x.parameterAt c.id n t s := by
  intro c hc n t s h0 h1
  by_cases hn : a c.id n
  · rw [hb c hc n hn t s h0 h1]; ring
  · rw [o1.data c hc n hn t s h0 h1, o2.data c hc n hn t s h0 h1]; ring

theorem between_readIn (o1 : z.OtherAmounts a x) (o2 : z.OtherAmounts a y) (hb : AmountsBetween m a x y z) (hS : 0 < z.scenarios) (hc : z.Additive a)
    (hn : z.NetworkOk) (hcl : z.Closed) (σ τ : TermKey → ℚ) {c : Component} (hm : c ∈ z.network.allComponents) {e : Expr} (he : e.Mixed (a c.id))
    (hown : ∀ y ∈ e.subs, y.hasComponent = false) (t s : Int) (hs : 0 ≤ s ∧ s < (z.scenarios : Int)) :
    mden (z.readIn (between m σ τ) c) e t s = m * mden (x.readIn σ c) e t s + (1 - m) * mden (y.readIn τ c) e t s := by
  have hTx : x.T = z.T := o1.length
  have hTy : y.T = z.T := o2.length
  have := mixed_readAs (w1 := m) (w2 := 1 - m) (w3 := 0) (by ring) o1 o2 o1 (between_parameters o1 o2 hb) hS hc hn hcl
    (fun c v t s => between m σ τ ⟨c, v, t.map (· % (z.T : Int)), s⟩) (fun c v t s => σ ⟨c, v, t.map (· % (x.T : Int)), s⟩)
    (fun c v t s => τ ⟨c, v, t.map (· % (y.T : Int)), s⟩) (fun _ _ _ _ => 0) (fun c n t s => by rw [hTx, hTy]; unfold between; ring)
    hm he hown t s hs
  unfold OptCtx.readIn OptCtx.reading
  rw [this]
  ring

theorem between_fixedPart (o1 : z.OtherAmounts a x) (o2 : z.OtherAmounts a y) (hb : AmountsBetween m a x y z) (hS : 0 < z.scenarios) (hc : z.Additive a)
    (hn : z.NetworkOk) (hcl : z.Closed) {c : Component} (hm : c ∈ z.network.allComponents) {e : Expr} (he : e.Mixed (a c.id))
    (hown : ∀ y ∈ e.subs, y.hasComponent = false) (t s : Int) (hs : 0 ≤ s ∧ s < (z.scenarios : Int)) :
    z.fixedPart c e t s = m * x.fixedPart c e t s + (1 - m) * y.fixedPart c e t s := by
  have := mixed_readAs (w1 := m) (w2 := 1 - m) (w3 := 0) (by ring) o1 o2 o1 (between_parameters o1 o2 hb) hS hc hn hcl
    (fun _ _ _ _ => 0) (fun _ _ _ _ => 0) (fun _ _ _ _ => 0) (fun _ _ _ _ => 0) (fun c n t s => by ring) hm he hown t s hs
  unfold OptCtx.fixedPart
  rw [this]
  ring

/-- coefficients do not depend on amounts -/
theorem otherAmounts_coefficient (o : z.OtherAmounts a x) (hS : 0 < z.scenarios) (hc : z.Additive a) (hn : z.NetworkOk) (hcl : z.Closed)
    {c : Component} (hm : c ∈ z.network.allComponents) {e : Expr} (he : e.Mixed (a c.id))
    (hown : ∀ y ∈ e.subs, y.hasComponent = false) (t s : Int) (hs : 0 ≤ s ∧ s < (z.scenarios : Int)) (κ : TermKey) :
    x.coefficient c e t s κ = z.coefficient c e t s κ := by
  have := mixed_readAs (w1 := 1) (w2 := 1) (w3 := -1) (by ring) (otherAmounts_refl a z) o o (fun c hc n t s _ _ => by ring) hS hc hn hcl
    (fun c v t s => if κ = ⟨c, v, t, s⟩ then 1 else 0) (fun _ _ _ _ => 0) (fun c v t s => if κ = ⟨c, v, t, s⟩ then 1 else 0) (fun _ _ _ _ => 0)
    (fun c n t s => by ring) hm he hown t s hs
  unfold OptCtx.coefficient OptCtx.fixedPart
  rw [this]
  ring

theorem between_keptValue (o1 : z.OtherAmounts a x) (o2 : z.OtherAmounts a y) (hb : AmountsBetween m a x y z) (hS : 0 < z.scenarios) (hc : z.Additive a)
    (hn : z.NetworkOk) (hcl : z.Closed) (σ τ : TermKey → ℚ) {c : Component} (hm : c ∈ z.network.allComponents) {e : Expr} (he : e.Mixed (a c.id))
    (hown : ∀ y ∈ e.subs, y.hasComponent = false) (t s : Int) (hs : 0 ≤ s ∧ s < (z.scenarios : Int)) :
    z.keptValue (between m σ τ) c e t s = m * x.keptValue σ c e t s + (1 - m) * y.keptValue τ c e t s := by
  have hTx : x.T = z.T := o1.length
  have hTy : y.T = z.T := o2.length
  have fin : ∀ ρ : TermKey → ℚ,
      (Function.support fun κ : TermKey => keep (z.coefficient c e t s κ) * ρ { κ with time := κ.time.map (· % (z.T : Int)) }).Finite := by
    intro ρ
    refine (coefficient_finite z c e t s).subset fun κ hκ => ?_
    intro h0
    apply hκ
    simp [h0, keep]
  unfold OptCtx.keptValue
  rw [hTx, hTy, between_fixedPart o1 o2 hb hS hc hn hcl hm he hown t s hs]
  simp only [otherAmounts_coefficient o1 hS hc hn hcl hm he hown t s hs, otherAmounts_coefficient o2 hS hc hn hcl hm he hown t s hs]
  have split : ∑ᶠ κ : TermKey, keep (z.coefficient c e t s κ) * between m σ τ { κ with time := κ.time.map (· % (z.T : Int)) } =
      m * ∑ᶠ κ : TermKey, keep (z.coefficient c e t s κ) * σ { κ with time := κ.time.map (· % (z.T : Int)) } +
        (1 - m) * ∑ᶠ κ : TermKey, keep (z.coefficient c e t s κ) * τ { κ with time := κ.time.map (· % (z.T : Int)) } := by
    rw [← smul_eq_mul m, ← smul_eq_mul (1 - m), smul_finsum, smul_finsum, ← finsum_add_distrib]
    · refine finsum_congr fun κ => ?_
      simp only [smul_eq_mul, between]
      ring
    · exact (fin σ).subset fun κ hκ h0 => hκ (by simp only [h0, smul_zero])
    · exact (fin τ).subset fun κ hκ h0 => hκ (by simp only [h0, smul_zero])
  rw [split]
  ring

end

/-- **C91, any models.** Take problems `x`, `y` and `z` that differ by amounts only, those of `z` lying between those of `x`, counted `m` times, and those
of `y`, counted `1 - m` times, with `0 ≤ m ≤ 1`; no variable is restricted to integers.  Then the values that lie between values that satisfy `x` and
values that satisfy `y` satisfy `z`, and their cost is the mean of the two costs.  This also holds of what the program keeps, even with tiny
coefficients.  So the least cost of `z` is at most the mean of those of `x` and `y`. -/
theorem c91_any_models (m : ℚ) (h0 : 0 ≤ m) (h1 : m ≤ 1) (a : String → String → Prop) (x y z : OptCtx) (o1 : z.OtherAmounts a x)
    (o2 : z.OtherAmounts a y) (hb : AmountsBetween m a x y z) (hc : z.Amounts a) (hn : z.NetworkOk) (hcl : z.Closed) (ho : z.OwnSymbols)
    (hS : 0 < z.scenarios) :
    (∀ σ τ, x.MathFeasible σ → y.MathFeasible τ → z.MathFeasible (between m σ τ) ∧
      z.mathCost (between m σ τ) = m * x.mathCost σ + (1 - m) * y.mathCost τ) ∧
    (∀ σ τ, x.KeptFeasible σ → y.KeptFeasible τ → z.KeptFeasible (between m σ τ) ∧
      z.keptCost (between m σ τ) = m * x.keptCost σ + (1 - m) * y.keptCost τ) ∧
    (∀ c c1 c2, LeastCost x.MathFeasible x.mathCost c1 → LeastCost y.MathFeasible y.mathCost c2 → LeastCost z.MathFeasible z.mathCost c →
      c ≤ m * c1 + (1 - m) * c2) ∧
    ∀ c c1 c2, LeastCost x.KeptFeasible x.keptCost c1 → LeastCost y.KeptFeasible y.keptCost c2 → LeastCost z.KeptFeasible z.keptCost c →
      c ≤ m * c1 + (1 - m) * c2 := by
  have hTx : x.T = z.T := o1.length
  have hTy : y.T = z.T := o2.length
  have hx : ∀ c, x.contributions c = z.contributions c := fun c => by
    unfold OptCtx.contributions
    rw [o1.strategy, o1.risk]
  have hy : ∀ c, y.contributions c = z.contributions c := fun c => by
    unfold OptCtx.contributions
    rw [o2.strategy, o2.risk]
  have nat : ∀ {s : Nat}, s < z.scenarios → (0 : Int) ≤ s ∧ (s : Int) < z.scenarios := fun hs => ⟨by positivity, by exact_mod_cast hs⟩
  have rd := fun σ τ => @between_readIn m a x y z o1 o2 hb hS hc.toAdditive hn hcl σ τ
  have opt : ∀ {c : Component}, c ∈ z.network.allComponents → ∀ {v : Variable}, v ∈ z.strategy.getVariables c.model → ∀ (σ τ) (t s : Nat),
      s < z.scenarios →
      (aboveOpt (x.readIn σ c) v.lowerBound (σ (instanceAt c v t s)) t s → aboveOpt (y.readIn τ c) v.lowerBound (τ (instanceAt c v t s)) t s →
        aboveOpt (z.readIn (between m σ τ) c) v.lowerBound (between m σ τ (instanceAt c v t s)) t s) ∧
      (belowOpt (x.readIn σ c) v.upperBound (σ (instanceAt c v t s)) t s → belowOpt (y.readIn τ c) v.upperBound (τ (instanceAt c v t s)) t s →
        belowOpt (z.readIn (between m σ τ) c) v.upperBound (between m σ τ (instanceAt c v t s)) t s) := by
    intro c hm v hv σ τ t s hs
    constructor
    · cases hb : v.lowerBound with
      | none => exact fun _ _ => trivial
      | some b => exact aboveBound_between h0 h1 (rd σ τ hm (hc.bounds c hm v hv b (.inl hb)) (ho.bounds c hm v hv b (.inl hb)) t s (nat hs)) rfl
    · cases hb : v.upperBound with
      | none => exact fun _ _ => trivial
      | some b => exact belowBound_between h0 h1 (rd σ τ hm (hc.bounds c hm v hv b (.inr hb)) (ho.bounds c hm v hv b (.inr hb)) t s (nat hs)) rfl
  have sums : ∀ {f g k : Component → Expr → ℚ}, (∀ c ∈ z.network.allComponents, ∀ e ∈ z.contributions c, k c e = m * f c e + (1 - m) * g c e) →
      (z.network.allComponents.map fun c => ((z.contributions c).map fun e => k c e).sum).sum =
        m * (x.network.allComponents.map fun c => ((x.contributions c).map fun e => f c e).sum).sum +
          (1 - m) * (y.network.allComponents.map fun c => ((y.contributions c).map fun e => g c e).sum).sum := by
    intro f g k hk
    have inner : ∀ l : List Expr, ∀ c, (∀ e ∈ l, k c e = m * f c e + (1 - m) * g c e) →
        (l.map fun e => k c e).sum = m * (l.map fun e => f c e).sum + (1 - m) * (l.map fun e => g c e).sum := by
      intro l c hl
      rw [← List.sum_map_mul_left, ← List.sum_map_mul_left, ← List.sum_map_add]
      exact congrArg List.sum (List.map_congr_left hl)
    rw [o1.network, o2.network, ← List.sum_map_mul_left, ← List.sum_map_mul_left, ← List.sum_map_add]
    refine congrArg List.sum (List.map_congr_left fun c hm => ?_)
    rw [hx, hy]
    exact inner _ c (hk c hm)
  have km : ∀ σ τ, x.MathFeasible σ → y.MathFeasible τ → z.MathFeasible (between m σ τ) ∧
      z.mathCost (between m σ τ) = m * x.mathCost σ + (1 - m) * y.mathCost τ := by
    rintro σ τ ⟨f1, f2⟩ ⟨g1, g2⟩
    rw [o1.network, o1.strategy, hTx, o1.scenarios] at f1 f2
    rw [o2.network, o2.strategy, hTy, o2.scenarios] at g1 g2
    refine ⟨⟨fun c hm v hv t s ht hs => ?_, fun c hm k hk t s ht hs => ?_⟩, ?_⟩
    · obtain ⟨p1, p2, -⟩ := f1 c hm v hv t s ht hs
      obtain ⟨q1, q2, -⟩ := g1 c hm v hv t s ht hs
      refine ⟨(opt hm hv σ τ t s hs).1 p1 q1, (opt hm hv σ τ t s hs).2 p2 q2, ?_⟩
      rw [hc.continuous c hm v hv]
      trivial
    · obtain ⟨p1, p2⟩ := f2 c hm k hk t s ht hs
      obtain ⟨q1, q2⟩ := g2 c hm k hk t s ht hs
      have r := rd σ τ hm (hc.constraints c hm k hk _ (.inl rfl)) (ho.constraints c hm k hk _ (.inl rfl)) t s (nat hs)
      exact ⟨aboveBound_between h0 h1 (rd σ τ hm (hc.constraints c hm k hk _ (.inr (.inl rfl))) (ho.constraints c hm k hk _ (.inr (.inl rfl))) t s
          (nat hs)) r p1 q1,
        belowBound_between h0 h1 (rd σ τ hm (hc.constraints c hm k hk _ (.inr (.inr rfl))) (ho.constraints c hm k hk _ (.inr (.inr rfl))) t s
          (nat hs)) r p2 q2⟩
    · exact sums fun c hm e he => rd σ τ hm (hc.costs c hm e he) (ho.objectives c hm e he) 0 0 ⟨le_rfl, by exact_mod_cast hS⟩
  have kk : ∀ σ τ, x.KeptFeasible σ → y.KeptFeasible τ → z.KeptFeasible (between m σ τ) ∧
      z.keptCost (between m σ τ) = m * x.keptCost σ + (1 - m) * y.keptCost τ := by
    rintro σ τ ⟨f1, f2⟩ ⟨g1, g2⟩
    rw [o1.network, o1.strategy] at f1 f2
    rw [o2.network, o2.strategy] at g1 g2
    rw [hTx, o1.scenarios] at f1
    rw [hTy, o2.scenarios] at g1
    refine ⟨⟨fun c hm v hv t s ht hs => ?_, fun c hm k hk t s w => ?_⟩, ?_⟩
    · have p := f1 c hm v hv t s ht hs
      have q := g1 c hm v hv t s ht hs
      have hcon := hc.continuous c hm v hv
      have o := opt hm hv σ τ t s hs
      unfold enforcedVar at *
      rw [hcon] at p q ⊢
      exact ⟨o.1 p.1 q.1, o.2 p.2.1 q.2.1, trivial⟩
    · have hs := w.2.1
      obtain ⟨p1, p2⟩ := f2 c hm k hk t s (by unfold OptCtx.WrittenAt at w ⊢; rwa [hTx, o1.scenarios, looser_dependence o1.network])
      obtain ⟨q1, q2⟩ := g2 c hm k hk t s (by unfold OptCtx.WrittenAt at w ⊢; rwa [hTy, o2.scenarios, looser_dependence o2.network])
      have r := between_keptValue o1 o2 hb hS hc.toAdditive hn hcl σ τ hm (hc.constraints c hm k hk _ (.inl rfl)) (ho.constraints c hm k hk _ (.inl rfl)) t s (nat hs)
      exact ⟨aboveBound_between h0 h1 (rd σ τ hm (hc.constraints c hm k hk _ (.inr (.inl rfl))) (ho.constraints c hm k hk _ (.inr (.inl rfl))) t s
          (nat hs)) r p1 q1,
        belowBound_between h0 h1 (rd σ τ hm (hc.constraints c hm k hk _ (.inr (.inr rfl))) (ho.constraints c hm k hk _ (.inr (.inr rfl))) t s
          (nat hs)) r p2 q2⟩
    · exact sums fun c hm e he => between_keptValue o1 o2 hb hS hc.toAdditive hn hcl σ τ hm (hc.costs c hm e he) (ho.objectives c hm e he) 0 0
        ⟨le_rfl, by exact_mod_cast hS⟩
  exact ⟨km, kk, leastCost_between h0 h1 km, leastCost_between h0 h1 kk⟩

end Verif.Props
