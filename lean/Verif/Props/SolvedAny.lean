import Verif.Lemmas.LinearPrograms
import Verif.Props.BetweenAny
import Verif.Spec.Solved

/-!
# C93: a problem that can be satisfied is solved, unless its cost has no lower bound, for any models
-/

namespace Verif.Props
open Verif Verif.Expr Verif.OptCtx Verif.Programs

section
variable {a : String → String → Prop} {z : OptCtx}

/-- the problems that differ from `z` by numbers only -/
abbrev Others (z : OptCtx) : Type := {x : OptCtx // z.SameCoefficients x}

/-- values are linear in the variables -/
theorem affine_readIn (hS : 0 < z.scenarios) (hc : z.Additive a) (hn : z.NetworkOk) (hcl : z.Closed) {c : Component}
    (hm : c ∈ z.network.allComponents) {e : Expr} (he : e.Mixed (a c.id)) (hown : ∀ y ∈ e.subs, y.hasComponent = false) (t s : Int)
    (hs : 0 ≤ s ∧ s < (z.scenarios : Int))
    (hd : ∀ x, z.SameCoefficients x → ∃ d : ℚ, ∀ var, mden (x.readAs (x.unwrapped var) c) e t s = mden (z.readAs (z.unwrapped var) c) e t s + d) :
    Affine fun (x : Others z) (σ : TermKey → ℚ) => mden (x.1.readIn σ c) e t s := by
  have r := otherAmounts_refl a z
  have mean : ∀ (w1 w2 w3 : ℚ), w1 + w2 + w3 = 1 → ∀ σ1 σ2 σ3 : TermKey → ℚ,
      mden (z.readIn (fun κ => w1 * σ1 κ + w2 * σ2 κ + w3 * σ3 κ) c) e t s =
        w1 * mden (z.readIn σ1 c) e t s + w2 * mden (z.readIn σ2 c) e t s + w3 * mden (z.readIn σ3 c) e t s := by
    intro w1 w2 w3 hw σ1 σ2 σ3
    exact mixed_readAs hw r r r (fun c _ n t s _ _ => by rw [← add_mul, ← add_mul, hw, one_mul]) hS hc hn hcl _ _ _ _ (fun c n t s => rfl) hm he hown t s hs
  choose d hd using hd
  refine ⟨{ toFun := fun σ => mden (z.readIn σ c) e t s - mden (z.readIn 0 c) e t s, map_add' := fun σ τ => ?_, map_smul' := fun k σ => ?_ },
    fun x => mden (z.readIn 0 c) e t s + d x.1 x.2, fun x σ => ?_⟩
  · have := mean 1 1 (-1) (by ring) σ τ 0
    have e1 : (fun κ => 1 * σ κ + 1 * τ κ + -1 * (0 : TermKey → ℚ) κ) = σ + τ := by funext κ; simp
    rw [e1] at this
    rw [this]
    ring
  · have := mean k (1 - k) 0 (by ring) σ 0 0
    have e1 : (fun κ => k * σ κ + (1 - k) * (0 : TermKey → ℚ) κ + 0 * (0 : TermKey → ℚ) κ) = k • σ := by funext κ; simp
    rw [e1] at this
    rw [this]
    simp
    ring
  · have hT : x.1.T = z.T := x.2.length
    show mden (x.1.readIn σ c) e t s = _
    rw [readIn_of hT (hd x.1 x.2) σ]
    simp only [LinearMap.coe_mk, AddHom.coe_mk]
    ring

/-- what the program keeps of values is linear in the variables -/
theorem affine_keptValue {c : Component} {e : Expr} {t s : Int}
    (hd : ∀ x, z.SameCoefficients x → ∃ d : ℚ, ∀ var, mden (x.readAs (x.unwrapped var) c) e t s = mden (z.readAs (z.unwrapped var) c) e t s + d) :
    Affine fun (x : Others z) (σ : TermKey → ℚ) => x.1.keptValue σ c e t s := by
  have fin : ∀ ρ : TermKey → ℚ,
      (Function.support fun κ : TermKey => keep (z.coefficient c e t s κ) * ρ { κ with time := κ.time.map (· % (z.T : Int)) }).Finite := by
    intro ρ
    refine (coefficient_finite z c e t s).subset fun κ hκ => ?_
    intro h0
    apply hκ
    simp [h0, keep]
  choose d hd using hd
  refine ⟨{ toFun := fun σ => ∑ᶠ κ : TermKey, keep (z.coefficient c e t s κ) * σ { κ with time := κ.time.map (· % (z.T : Int)) },
            map_add' := fun σ τ => ?_, map_smul' := fun k σ => ?_ }, fun x => z.fixedPart c e t s + d x.1 x.2, fun x σ => ?_⟩
  · rw [← finsum_add_distrib (fin σ) (fin τ)]
    exact finsum_congr fun κ => by simp only [Pi.add_apply]; ring
  · rw [RingHom.id_apply, smul_finsum]
    exact finsum_congr fun κ => by simp only [Pi.smul_apply, smul_eq_mul]; ring
  · have hT : x.1.T = z.T := x.2.length
    show x.1.keptValue σ c e t s = _
    rw [keptValue_shift hT (hd x.1 x.2) σ]
    unfold OptCtx.keptValue
    simp only [LinearMap.coe_mk, AddHom.coe_mk]
    ring

theorem linear_above {M : Others z → (TermKey → ℚ) → MCtx} {b : Expr} {q : Others z → (TermKey → ℚ) → ℚ} {t s : Int}
    (h : Affine fun x σ => mden (M x σ) b t s) (hq : Affine q) : Linear fun x σ => aboveBound (M x σ) b (q x σ) t s := by
  unfold aboveBound
  split
  · exact Linear.true
  · exact Linear.false
  · exact Linear.false
  · exact h.le hq

theorem linear_below {M : Others z → (TermKey → ℚ) → MCtx} {b : Expr} {q : Others z → (TermKey → ℚ) → ℚ} {t s : Int}
    (h : Affine fun x σ => mden (M x σ) b t s) (hq : Affine q) : Linear fun x σ => belowBound (M x σ) b (q x σ) t s := by
  unfold belowBound
  split
  · exact Linear.true
  · exact Linear.false
  · exact Linear.false
  · exact hq.le h

/-- the value of one instance -/
def valueAt (κ : TermKey) : (TermKey → ℚ) →ₗ[ℚ] ℚ := LinearMap.proj κ

theorem affine_valueAt (κ : TermKey) : Affine fun (_ : Others z) (σ : TermKey → ℚ) => σ κ := ⟨valueAt κ, fun _ => 0, fun _ σ => by simp [valueAt]⟩

theorem affine_number (q : ℚ) : Affine fun (_ : Others z) (_ : TermKey → ℚ) => q := ⟨0, fun _ => q, fun _ σ => by simp⟩

/-- zero or one -/
theorem zero_or_one {q : ℚ} : (q = 0 ∨ q = 1) ↔ (0 ≤ q ∧ q ≤ 1) ∧ ∃ n : ℤ, q = n := by
  constructor
  · rintro (rfl | rfl)
    · exact ⟨⟨le_rfl, zero_le_one⟩, 0, by simp⟩
    · exact ⟨⟨zero_le_one, le_rfl⟩, 1, by simp⟩
  · rintro ⟨⟨h0, h1⟩, n, rfl⟩
    have h0 : 0 ≤ n := by exact_mod_cast h0
    have h1 : n ≤ 1 := by exact_mod_cast h1
    have : n = 0 ∨ n = 1 := by omega
    exact_mod_cast this

theorem mixed_boolean (κ : TermKey) : MixedLinear fun (_ : Others z) (σ : TermKey → ℚ) => σ κ = 0 ∨ σ κ = 1 :=
  ((((affine_number 0).le (affine_valueAt κ)).and ((affine_valueAt κ).le (affine_number 1))).mixed.and (MixedLinear.whole (valueAt κ))).congr
    fun _ _ => zero_or_one

theorem mixed_ofType (ty : ValueType) (κ : TermKey) : MixedLinear fun (_ : Others z) (σ : TermKey → ℚ) => ofType ty (σ κ) := by
  cases ty with
  | continuous => exact Linear.true.mixed
  | integer => exact MixedLinear.whole (valueAt κ)
  | boolean => exact mixed_boolean κ

theorem others_contributions (x : Others z) (c : Component) : x.1.contributions c = z.contributions c := by
  unfold OptCtx.contributions
  rw [x.2.strategy, x.2.risk]

theorem nat_scenario {s n : Nat} (hs : s < n) : (0 : Int) ≤ s ∧ (s : Int) < n := ⟨by positivity, by exact_mod_cast hs⟩

theorem linear_aboveOpt {M : Others z → (TermKey → ℚ) → MCtx} {b : Option Expr} {q : Others z → (TermKey → ℚ) → ℚ} {t s : Int}
    (h : ∀ e, b = some e → Affine fun x σ => mden (M x σ) e t s) (hq : Affine q) : Linear fun x σ => aboveOpt (M x σ) b (q x σ) t s := by
  cases b with
  | none => exact Linear.true
  | some e => exact linear_above (h e rfl) hq

theorem linear_belowOpt {M : Others z → (TermKey → ℚ) → MCtx} {b : Option Expr} {q : Others z → (TermKey → ℚ) → ℚ} {t s : Int}
    (h : ∀ e, b = some e → Affine fun x σ => mden (M x σ) e t s) (hq : Affine q) : Linear fun x σ => belowOpt (M x σ) b (q x σ) t s := by
  cases b with
  | none => exact Linear.true
  | some e => exact linear_below (h e rfl) hq

/-- what a problem requires is linear -/
theorem mixed_feasible (hc : z.Additive a) (hn : z.NetworkOk) (hcl : z.Closed) (ho : z.OwnSymbols) (hS : 0 < z.scenarios) :
    MixedLinear fun (x : Others z) σ => x.1.MathFeasible σ := by
  have hv : MixedLinear fun (x : Others z) (σ : TermKey → ℚ) => ∀ c ∈ z.network.allComponents, ∀ v ∈ z.strategy.getVariables c.model,
      ∀ t < z.T, ∀ s < z.scenarios, aboveOpt (x.1.readIn σ c) v.lowerBound (σ (instanceAt c v t s)) t s ∧
        belowOpt (x.1.readIn σ c) v.upperBound (σ (instanceAt c v t s)) t s ∧ ofType v.dataType (σ (instanceAt c v t s)) :=
    .forall_mem _ fun c hm => .forall_mem _ fun v hv => .forall_lt _ fun t ht => .forall_lt _ fun s hs =>
      (linear_aboveOpt (fun b hb => affine_readIn hS hc hn hcl hm (hc.bounds c hm v hv b (.inl hb)) (ho.bounds c hm v hv b (.inl hb)) t s
        (nat_scenario hs) fun x o => o.bounds c hm v hv b (.inl hb) t s ht hs) (affine_valueAt _)).mixed.and
      ((linear_belowOpt (fun b hb => affine_readIn hS hc hn hcl hm (hc.bounds c hm v hv b (.inr hb)) (ho.bounds c hm v hv b (.inr hb)) t s
        (nat_scenario hs) fun x o => o.bounds c hm v hv b (.inr hb) t s ht hs) (affine_valueAt _)).mixed.and (mixed_ofType _ _))
  have hk : MixedLinear fun (x : Others z) (σ : TermKey → ℚ) => ∀ c ∈ z.network.allComponents, ∀ k ∈ z.strategy.getConstraints c.model,
      ∀ t < z.T, ∀ s < z.scenarios, k.Holds (x.1.readIn σ c) t s :=
    .forall_mem _ fun c hm => .forall_mem _ fun k hk => .forall_lt _ fun t ht => .forall_lt _ fun s hs => by
      have rd : ∀ b, b = k.expression ∨ b = k.lowerBound ∨ b = k.upperBound →
          Affine fun (x : Others z) (σ : TermKey → ℚ) => mden (x.1.readIn σ c) b t s := fun b hb =>
        affine_readIn hS hc hn hcl hm (hc.constraints c hm k hk b hb) (ho.constraints c hm k hk b hb) t s (nat_scenario hs) fun x o => o.constraints c hm k hk b hb t s ht hs
      exact ((linear_above (rd _ (.inr (.inl rfl))) (rd _ (.inl rfl))).and (linear_below (rd _ (.inr (.inr rfl))) (rd _ (.inl rfl)))).mixed
  refine (hv.and hk).congr fun x σ => ?_
  have hT : x.1.T = z.T := x.2.length
  constructor
  · rintro ⟨f, g⟩
    rw [x.2.network, x.2.strategy, hT, x.2.scenarios] at f g
    exact ⟨fun c hm v hv t ht s hs => f c hm v hv t s ht hs, fun c hm k hk t ht s hs => g c hm k hk t s ht hs⟩
  · rintro ⟨f, g⟩
    refine ⟨?_, ?_⟩
    · rw [x.2.network, x.2.strategy, hT, x.2.scenarios]
      exact fun c hm v hv t s ht hs => f c hm v hv t ht s hs
    · rw [x.2.network, x.2.strategy, hT, x.2.scenarios]
      exact fun c hm k hk t s ht hs => g c hm k hk t ht s hs

/-- what the program requires is linear -/
theorem mixed_kept (hc : z.Additive a) (hn : z.NetworkOk) (hcl : z.Closed) (ho : z.OwnSymbols) (hS : 0 < z.scenarios) :
    MixedLinear fun (x : Others z) σ => x.1.KeptFeasible σ := by
  have hv : MixedLinear fun (x : Others z) (σ : TermKey → ℚ) => ∀ c ∈ z.network.allComponents, ∀ v ∈ z.strategy.getVariables c.model,
      ∀ t < z.T, ∀ s < z.scenarios, enforcedVar (x.1.readIn σ c) v (σ (instanceAt c v t s)) t s :=
    .forall_mem _ fun c hm => .forall_mem _ fun v hv => .forall_lt _ fun t ht => .forall_lt _ fun s hs => by
      have bounds : ∀ ty, MixedLinear fun (x : Others z) (σ : TermKey → ℚ) => aboveOpt (x.1.readIn σ c) v.lowerBound (σ (instanceAt c v t s)) t s ∧
          belowOpt (x.1.readIn σ c) v.upperBound (σ (instanceAt c v t s)) t s ∧ ofType ty (σ (instanceAt c v t s)) := fun ty =>
        (linear_aboveOpt (fun b hb => affine_readIn hS hc hn hcl hm (hc.bounds c hm v hv b (.inl hb)) (ho.bounds c hm v hv b (.inl hb)) t s
          (nat_scenario hs) fun x o => o.bounds c hm v hv b (.inl hb) t s ht hs) (affine_valueAt _)).mixed.and
        ((linear_belowOpt (fun b hb => affine_readIn hS hc hn hcl hm (hc.bounds c hm v hv b (.inr hb)) (ho.bounds c hm v hv b (.inr hb)) t s
          (nat_scenario hs) fun x o => o.bounds c hm v hv b (.inr hb) t s ht hs) (affine_valueAt _)).mixed.and (mixed_ofType _ _))
      unfold enforcedVar
      cases v.dataType with
      | boolean => exact mixed_boolean _
      | continuous => exact bounds .continuous
      | integer => exact bounds .integer
  have hk : MixedLinear fun (x : Others z) (σ : TermKey → ℚ) => ∀ c ∈ z.network.allComponents, ∀ k ∈ z.strategy.getConstraints c.model,
      ∀ t < z.T, ∀ s < z.scenarios, z.WrittenAt c k.expression t s →
        aboveBound (x.1.readIn σ c) k.lowerBound (x.1.keptValue σ c k.expression t s) t s ∧
        belowBound (x.1.readIn σ c) k.upperBound (x.1.keptValue σ c k.expression t s) t s :=
    .forall_mem _ fun c hm => .forall_mem _ fun k hk => .forall_lt _ fun t ht => .forall_lt _ fun s hs => .imp fun _ => by
      have rd : ∀ b, b = k.expression ∨ b = k.lowerBound ∨ b = k.upperBound →
          Affine fun (x : Others z) (σ : TermKey → ℚ) => mden (x.1.readIn σ c) b t s := fun b hb =>
        affine_readIn hS hc hn hcl hm (hc.constraints c hm k hk b hb) (ho.constraints c hm k hk b hb) t s (nat_scenario hs) fun x o => o.constraints c hm k hk b hb t s ht hs
      have kv : Affine fun (x : Others z) (σ : TermKey → ℚ) => x.1.keptValue σ c k.expression t s :=
        affine_keptValue fun x o => o.constraints c hm k hk _ (.inl rfl) t s ht hs
      exact ((linear_above (rd _ (.inr (.inl rfl))) kv).and (linear_below (rd _ (.inr (.inr rfl))) kv)).mixed
  refine (hv.and hk).congr fun x σ => ?_
  have hT : x.1.T = z.T := x.2.length
  have hw : ∀ c e t s, x.1.WrittenAt c e t s ↔ z.WrittenAt c e t s := fun c e t s => by
    unfold OptCtx.WrittenAt
    rw [hT, x.2.scenarios, looser_dependence x.2.network]
  constructor
  · rintro ⟨f, g⟩
    rw [x.2.network, x.2.strategy] at f g
    rw [hT, x.2.scenarios] at f
    exact ⟨fun c hm v hv t ht s hs => f c hm v hv t s ht hs, fun c hm k hk t ht s hs w => g c hm k hk t s ((hw ..).2 w)⟩
  · rintro ⟨f, g⟩
    refine ⟨?_, ?_⟩
    · rw [x.2.network, x.2.strategy, hT, x.2.scenarios]
      exact fun c hm v hv t s ht hs => f c hm v hv t ht s hs
    · rw [x.2.network, x.2.strategy]
      exact fun c hm k hk t s w => g c hm k hk t ((hw ..).1 w).1 s ((hw ..).1 w).2.1 ((hw ..).1 w)

theorem affine_mathCost (hc : z.Additive a) (hn : z.NetworkOk) (hcl : z.Closed) (ho : z.OwnSymbols) (hS : 0 < z.scenarios) :
    Affine fun (x : Others z) σ => x.1.mathCost σ := by
  have : Affine fun (x : Others z) (σ : TermKey → ℚ) =>
      (z.network.allComponents.map fun c => ((z.contributions c).map fun e => mden (x.1.readIn σ c) e 0 0).sum).sum :=
    Affine.sum _ fun c hm => Affine.sum _ fun e he => affine_readIn hS hc hn hcl hm (hc.costs c hm e he) (ho.objectives c hm e he) 0 0
      ⟨le_rfl, by exact_mod_cast hS⟩ fun x o => o.costs c hm e he
  obtain ⟨φ, b, h⟩ := this
  refine ⟨φ, b, fun x σ => ?_⟩
  rw [← h]
  unfold OptCtx.mathCost
  simp only [x.2.network, others_contributions]

theorem affine_keptCost :
    Affine fun (x : Others z) σ => x.1.keptCost σ := by
  have : Affine fun (x : Others z) (σ : TermKey → ℚ) =>
      (z.network.allComponents.map fun c => ((z.contributions c).map fun e => x.1.keptValue σ c e 0 0).sum).sum :=
    Affine.sum _ fun c hm => Affine.sum _ fun e he => affine_keptValue fun x o => o.costs c hm e he
  obtain ⟨φ, b, h⟩ := this
  refine ⟨φ, b, fun x σ => ?_⟩
  rw [← h]
  unfold OptCtx.keptCost
  simp only [x.2.network, others_contributions]

end

/-- a least cost is a lower bound of the cost of something that is allowed -/
theorem least_met {α : Type} {A : α → Prop} {f : α → ℚ} (h : ∃ c, LeastCost A f c) : (∃ σ, A σ) ∧ ∃ m, ∀ σ, A σ → m ≤ f σ := by
  obtain ⟨c, ⟨σ, hσ, -⟩, h⟩ := h
  exact ⟨⟨σ, hσ⟩, c, h⟩

theorem sameCoefficients_refl (z : OptCtx) : z.SameCoefficients z :=
  ⟨rfl, rfl, rfl, rfl, rfl, fun _ _ _ _ _ _ _ _ _ _ => ⟨0, fun _ => (add_zero _).symm⟩, fun _ _ _ _ _ _ _ _ _ _ => ⟨0, fun _ => (add_zero _).symm⟩,
    fun _ _ _ _ => ⟨0, fun _ => (add_zero _).symm⟩⟩

/-- amounts that are added do not change coefficients -/
theorem otherAmounts_same {a : String → String → Prop} {z x : OptCtx} (o : z.OtherAmounts a x) (hc : z.Additive a) (hn : z.NetworkOk) (hcl : z.Closed)
    (ho : z.OwnSymbols) (hS : 0 < z.scenarios) : z.SameCoefficients x := by
  have key : ∀ c ∈ z.network.allComponents, ∀ e : Expr, e.Mixed (a c.id) → (∀ y ∈ e.subs, y.hasComponent = false) → ∀ t s : Int,
      0 ≤ s ∧ s < (z.scenarios : Int) → ∃ d : ℚ, ∀ var, mden (x.readAs (x.unwrapped var) c) e t s = mden (z.readAs (z.unwrapped var) c) e t s + d := by
    intro c hm e he hown t s hs
    refine ⟨mden (x.readAs (x.unwrapped fun _ _ _ _ => 0) c) e t s - mden (z.readAs (z.unwrapped fun _ _ _ _ => 0) c) e t s, fun var => ?_⟩
    have := mixed_readAs (w1 := 1) (w2 := 1) (w3 := -1) (by ring) (otherAmounts_refl a z) o o (fun c hc n t s _ _ => by ring) hS hc hn hcl
      var (fun _ _ _ _ => 0) var (fun _ _ _ _ => 0) (fun c n t s => by ring) hm he hown t s hs
    rw [this]
    ring
  exact ⟨o.network, o.length, o.scenarios, o.strategy, o.risk,
    fun c hm v hv b hb t s ht hs => key c hm b (hc.bounds c hm v hv b hb) (ho.bounds c hm v hv b hb) t s (nat_scenario hs),
    fun c hm k hk b hb t s ht hs => key c hm b (hc.constraints c hm k hk b hb) (ho.constraints c hm k hk b hb) t s (nat_scenario hs),
    fun c hm e he => key c hm e (hc.costs c hm e he) (ho.objectives c hm e he) 0 0 ⟨le_rfl, by exact_mod_cast hS⟩⟩

/-- **C93, any models.** Take a problem `z` whose expressions are linear in the variables (`Additive`); variables may be continuous, integers or booleans.
There is a cheapest way to satisfy it exactly when it can be satisfied and the costs of doing so have a lower bound.  Let `x` be the problem with other
numbers added to bounds, constraints and costs: if there is a cheapest way to satisfy `z`, there is one for `x` exactly when `x` can be satisfied.  All
this also holds of what the program keeps, even with tiny coefficients. -/
theorem c93_any_models (a : String → String → Prop) (z : OptCtx) (hc : z.Additive a) (hn : z.NetworkOk) (hcl : z.Closed) (ho : z.OwnSymbols)
    (hS : 0 < z.scenarios) :
    ((∃ c, LeastCost z.MathFeasible z.mathCost c) ↔ (∃ σ, z.MathFeasible σ) ∧ ∃ m, ∀ σ, z.MathFeasible σ → m ≤ z.mathCost σ) ∧
    ((∃ c, LeastCost z.KeptFeasible z.keptCost c) ↔ (∃ σ, z.KeptFeasible σ) ∧ ∃ m, ∀ σ, z.KeptFeasible σ → m ≤ z.keptCost σ) ∧
    ∀ x, z.SameCoefficients x →
      ((∃ c, LeastCost z.MathFeasible z.mathCost c) → ((∃ c, LeastCost x.MathFeasible x.mathCost c) ↔ ∃ σ, x.MathFeasible σ)) ∧
      ((∃ c, LeastCost z.KeptFeasible z.keptCost c) → ((∃ c, LeastCost x.KeptFeasible x.keptCost c) ↔ ∃ σ, x.KeptFeasible σ)) := by
  have r := sameCoefficients_refl z
  have f1 := mixed_feasible hc hn hcl ho hS
  have f2 := mixed_kept hc hn hcl ho hS
  have g1 := affine_mathCost hc hn hcl ho hS
  have g2 := affine_keptCost (z := z)
  refine ⟨⟨least_met, fun h => f1.least g1 (i := ⟨z, r⟩) (j := ⟨z, r⟩) h.1 h.2 h.1⟩, ⟨least_met, fun h => f2.least g2 (i := ⟨z, r⟩) (j := ⟨z, r⟩) h.1 h.2 h.1⟩,
    fun x o => ⟨fun h => ⟨fun k => (least_met k).1, fun k => ?_⟩, fun h => ⟨fun k => (least_met k).1, fun k => ?_⟩⟩⟩
  · exact f1.least g1 (i := ⟨z, r⟩) (j := ⟨x, o⟩) (least_met h).1 (least_met h).2 k
  · exact f2.least g2 (i := ⟨z, r⟩) (j := ⟨x, o⟩) (least_met h).1 (least_met h).2 k

/-- **C93, other amounts.** In problems of any models, amounts that are only added (`Additive`) do not change coefficients: if there is a cheapest way to
satisfy a problem, there is one with other amounts exactly when the problem with these amounts can be satisfied. -/
theorem c93_amounts (a : String → String → Prop) (z x : OptCtx) (o : z.OtherAmounts a x) (hc : z.Additive a) (hn : z.NetworkOk) (hcl : z.Closed)
    (ho : z.OwnSymbols) (hS : 0 < z.scenarios) :
    ((∃ c, LeastCost z.MathFeasible z.mathCost c) → ((∃ c, LeastCost x.MathFeasible x.mathCost c) ↔ ∃ σ, x.MathFeasible σ)) ∧
    ((∃ c, LeastCost z.KeptFeasible z.keptCost c) → ((∃ c, LeastCost x.KeptFeasible x.keptCost c) ↔ ∃ σ, x.KeptFeasible σ)) :=
  (c93_any_models a z hc hn hcl ho hS).2.2 x (otherAmounts_same o hc hn hcl ho hS)

end Verif.Props
