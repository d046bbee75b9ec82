import Verif.Spec.Kept
import Verif.Lemmas.Problem
import Verif.Lemmas.SameProblem

/-!
# What the program keeps of a study
-/

namespace Verif
open Verif.Expr Verif.OptCtx Verif.Props

theorem keep_zero : keep 0 = 0 := by unfold keep; split_ifs <;> rfl

/-- the sum with one instance at one and the others at zero -/
theorem sum_single_key (K : Finset TermKey) (coef : TermKey → ℚ) (hK : ∀ k, k ∉ K → coef k = 0) (k : TermKey) :
    ∑ k' ∈ K, coef k' * (if k = ⟨k'.component, k'.var, k'.time, k'.scenario⟩ then (1 : ℚ) else 0) = coef k := by
  rw [Finset.sum_eq_single k]
  · simp
  · intro b _ hb
    rw [if_neg, mul_zero]
    intro h
    exact hb (by rw [h])
  · intro hk
    rw [hK k hk, zero_mul]

/-- the linear expression has the kept value of the model expression -/
theorem linearize_kept {x : OptCtx} (hn : x.NetworkOk) (hx : x.DataOk) {ports : PortExprs}
    (hreg : registerConnections x.network.connections [] = .ok ports) (c : Component) {e e1 e2 : Expr} (he : ExprOk e)
    (h1 : instantiate e c.id ports = .ok e1) (h2 : x.expandOperators e1 = .ok e2) {t s : Int} {l : LinExpr}
    (h3 : x.linearize e2 (some t) (some s) = .ok l) (σ : TermKey → ℚ) :
    l.Finite ∧ l.value (fun k => σ (wrapKey x.T k)) = x.keptValue σ c e t s := by
  obtain ⟨c0, K, coef, hK, hv, hc, hg, nd⟩ := linearize_affine hn hx hreg c he h1 h2 h3
  refine ⟨linearize_finite hc hg nd, ?_⟩
  have hfix : x.fixedPart c e t s = c0 := by
    unfold OptCtx.fixedPart
    rw [hv]
    simp
  have hcoef : ∀ k, x.coefficient c e t s k = coef k := by
    intro k
    unfold OptCtx.coefficient
    rw [hfix, hv, sum_single_key K coef hK, add_sub_cancel_left]
  rw [Props.linExpr_value_eq l c0 K coef _ hK hc hg nd]
  unfold OptCtx.keptValue
  simp only [hfix, hcoef]
  rw [finsum_eq_sum_of_support_subset (s := K), Finset.sum_filter]
  · congr 1
    refine Finset.sum_congr rfl fun k _ => ?_
    unfold keep wrapKey
    split_ifs <;> simp_all
  · intro k hk
    by_contra hn
    refine hk ?_
    dsimp only
    rw [hK k hn, keep_zero, zero_mul]

theorem keptValue_congr {x x' : OptCtx} {c c' : Component} {e e' : Expr} {t s t' s' : Int} (hT : x'.T = x.T)
    (h : ∀ var, mden (x.readAs (x.unwrapped var) c) e t s = mden (x'.readAs (x'.unwrapped var) c') e' t' s') (σ : TermKey → ℚ) :
    x.keptValue σ c e t s = x'.keptValue σ c' e' t' s' := by
  unfold OptCtx.keptValue OptCtx.coefficient OptCtx.fixedPart
  simp only [h, hT]

/-- the rows are about the kept values -/
theorem rowsValue_kept (x : OptCtx) (hn : x.NetworkOk) (hx : x.DataOk)
    (hex : ∀ c ∈ x.network.allComponents, ∀ k ∈ x.strategy.getConstraints c.model, ExprOk k.expression ∧ BoundOk k.lowerBound ∧ BoundOk k.upperBound)
    (σ : TermKey → ℚ) : RowsValue x σ (x.keptValue σ) :=
  fun _ hreg c hc k hkm _ _ _ _ _ _ _ h1 h2 h3 => linearize_kept hn hx hreg c (hex c hc k hkm).1 h1 h2 h3 σ

/-- Two expressions with the same values for all values of the variables, up to the names of components, have the same kept values. -/
theorem keptValue_transfer {x x' : OptCtx} {c c' : Component} {e : Expr} {t s : Int} {ρ : String → String} {ids : List String} (hT : x'.T = x.T)
    (hinj : ∀ i ∈ ids, ∀ j ∈ ids, ρ i = ρ j → i = j)
    (key : ∀ var var' : String → String → Option Int → Option Int → ℚ, (∀ i ∈ ids, ∀ n u w, var' (ρ i) n u w = var i n u w) →
      mden (x.readAs (x.unwrapped var) c) e t s = mden (x'.readAs (x'.unwrapped var') c') e t s)
    {σ σ' : TermKey → ℚ} (ha : ∀ i ∈ ids, ∀ n u w, σ' ⟨ρ i, n, u, w⟩ = σ ⟨i, n, u, w⟩) :
    x'.keptValue σ' c' e t s = x.keptValue σ c e t s := by
  have hfix : x'.fixedPart c' e t s = x.fixedPart c e t s := (key _ _ fun _ _ _ _ _ => rfl).symm
  have hcoef : ∀ i ∈ ids, ∀ n u w, x'.coefficient c' e t s ⟨ρ i, n, u, w⟩ = x.coefficient c e t s ⟨i, n, u, w⟩ := by
    intro i hi n u w
    unfold OptCtx.coefficient
    rw [hfix]
    congr 1
    refine (key _ _ fun j hj m u' w' => ?_).symm
    have hiff : ((⟨ρ i, n, u, w⟩ : TermKey) = ⟨ρ j, m, u', w'⟩) ↔ ((⟨i, n, u, w⟩ : TermKey) = ⟨j, m, u', w'⟩) := by
      simp only [TermKey.mk.injEq]
      refine and_congr_left fun _ => ?_
      exact ⟨fun z => hinj i hi j hj z, fun z => by rw [z]⟩
    simp only [hiff]
  unfold OptCtx.keptValue
  rw [hfix, hT]
  congr 1
  have e' : ∀ k : TermKey, (¬ ∃ i ∈ ids, ρ i = k.component) → x'.coefficient c' e t s k = 0 := by
    intro k hk
    unfold OptCtx.coefficient
    rw [sub_eq_zero, hfix]
    refine (key (fun _ _ _ _ => 0) _ fun j hj m u' w' => ?_).symm
    rw [if_neg]
    rintro rfl
    exact hk ⟨j, hj, rfl⟩
  have e0 : ∀ k : TermKey, k.component ∉ ids → x.coefficient c e t s k = 0 := by
    intro k hk
    unfold OptCtx.coefficient
    rw [sub_eq_zero, ← hfix]
    refine key _ (fun _ _ _ _ => 0) fun j hj m u' w' => ?_
    rw [if_neg]
    rintro rfl
    exact hk hj
  let S : Set TermKey := {k | k.component ∈ ids}
  let S' : Set TermKey := {k | ∃ i ∈ ids, ρ i = k.component}
  have r' : ∑ᶠ k : TermKey, keep (x'.coefficient c' e t s k) * σ' { k with time := k.time.map (· % x.T) } =
      ∑ᶠ k ∈ S', keep (x'.coefficient c' e t s k) * σ' { k with time := k.time.map (· % x.T) } := by
    rw [← finsum_mem_univ]
    refine finsum_mem_inter_support_eq' _ _ _ fun k hk => ⟨fun _ => ?_, fun _ => trivial⟩
    by_contra hn
    exact hk (by dsimp only; rw [e' k hn, keep_zero, zero_mul])
  have r : ∑ᶠ k : TermKey, keep (x.coefficient c e t s k) * σ { k with time := k.time.map (· % x.T) } =
      ∑ᶠ k ∈ S, keep (x.coefficient c e t s k) * σ { k with time := k.time.map (· % x.T) } := by
    rw [← finsum_mem_univ]
    refine finsum_mem_inter_support_eq' _ _ _ fun k hk => ⟨fun _ => ?_, fun _ => trivial⟩
    by_contra hn
    exact hk (by dsimp only; rw [e0 k hn, keep_zero, zero_mul])
  rw [r', r]
  refine (finsum_mem_eq_of_bijOn (fun k : TermKey => { k with component := ρ k.component }) ⟨?_, ?_, ?_⟩ ?_).symm
  · rintro ⟨i, n, u, w⟩ hi
    exact ⟨i, hi, rfl⟩
  · rintro ⟨i, n, u, w⟩ hi ⟨i', n', u', w'⟩ hi' q
    obtain ⟨q1, q2⟩ := TermKey.mk.inj q
    have := hinj i hi i' hi' q1
    simp_all
  · rintro ⟨i, n, u, w⟩ ⟨j, hj, z⟩
    exact ⟨⟨j, n, u, w⟩, hj, by dsimp only at z ⊢; rw [z]⟩
  · rintro ⟨i, n, u, w⟩ hi
    dsimp only
    rw [hcoef i hi, ha i hi]

namespace OptCtx.Part

variable {ρ : String → String} {x x' : OptCtx}

/-- expressions of a component have the same kept values in the part and in the network -/
theorem kept (h : Part ρ x x') (hn : x.NetworkOk) (hn' : x'.NetworkOk) (hcl : x.Closed) {σ σ' : TermKey → ℚ} (ha : Agree ρ x σ σ')
    {c : Component} (hc : c ∈ x.network.allComponents) {e : Expr} (he : ∀ y ∈ e.subs, y.hasComponent = false) (t s : Int) (hs0 : 0 ≤ s) :
    x'.keptValue σ' (c.called ρ) e t s = x.keptValue σ c e t s := by
  refine keptValue_transfer (ρ := ρ) (ids := x.network.allComponents.map (·.id)) h.T_eq ?_ ?_ ?_
  · intro i hi j hj q
    obtain ⟨a, ha, rfl⟩ := List.mem_map.1 hi
    obtain ⟨b, hb, rfl⟩ := List.mem_map.1 hj
    exact h.distinct a ha b hb q
  · intro var var' hv
    exact h.value hn hn' hcl (fun a ha n u w => hv _ (List.mem_map_of_mem ha) n u w) hc he t s hs0
  · intro i hi n u w
    obtain ⟨a, hm, rfl⟩ := List.mem_map.1 hi
    exact ha a hm n u w

/-- what the program requires of the values for component `c` -/
def _root_.Verif.OptCtx.KeptSatisfied (x : OptCtx) (σ : TermKey → ℚ) (c : Component) : Prop :=
  ∀ t s : Nat, (t < x.T → s < x.scenarios → ∀ v ∈ x.strategy.getVariables c.model,
      enforcedVar (x.readIn σ c) v (σ (instanceAt c v t s)) t s) ∧
    ∀ k ∈ x.strategy.getConstraints c.model, x.WrittenAt c k.expression t s →
      aboveBound (x.readIn σ c) k.lowerBound (x.keptValue σ c k.expression t s) t s ∧
      belowBound (x.readIn σ c) k.upperBound (x.keptValue σ c k.expression t s) t s

theorem _root_.Verif.OptCtx.keptFeasible_iff {x : OptCtx} {σ : TermKey → ℚ} :
    x.KeptFeasible σ ↔ ∀ c ∈ x.network.allComponents, x.KeptSatisfied σ c :=
  ⟨fun h c hc t s => ⟨fun ht hs v hv => h.vars c hc v hv t s ht hs, fun k hk hw => h.constraints c hc k hk t s hw⟩,
    fun h => ⟨fun c hc v hv t s ht hs => (h c hc t s).1 ht hs v hv, fun c hc k hk t s hw => (h c hc t s).2 k hk hw⟩⟩

theorem keptSatisfied (h : Part ρ x x') (hn : x.NetworkOk) (hn' : x'.NetworkOk) (hcl : x.Closed) (ho : x.OwnSymbols) {σ σ' : TermKey → ℚ}
    (ha : Agree ρ x σ σ') {c : Component} (hc : c ∈ x.network.allComponents) : x'.KeptSatisfied σ' (c.called ρ) ↔ x.KeptSatisfied σ c := by
  have hr := fun {e : Expr} (he : ∀ y ∈ e.subs, y.hasComponent = false) (t s : Nat) => h.read hn hn' hcl ha hc he t s (by positivity)
  have hk := fun {e : Expr} (he : ∀ y ∈ e.subs, y.hasComponent = false) (t s : Nat) => h.kept hn hn' hcl ha hc he t s (by positivity)
  unfold OptCtx.KeptSatisfied
  rw [h.T_eq, h.frame.scenarios, h.frame.strategy]
  refine forall_congr' fun t => forall_congr' fun s => and_congr ?_ ?_
  · refine forall_congr' fun _ => forall_congr' fun _ => forall_congr' fun v => forall_congr' fun hv => ?_
    have hb := ho.bounds c hc v hv
    have hi : σ' (instanceAt (c.called ρ) v t s) = σ (instanceAt c v t s) := ha c hc _ _ _
    rw [hi]
    have e1 : aboveOpt (x'.readIn σ' (c.called ρ)) v.lowerBound (σ (instanceAt c v t s)) t s ↔
        aboveOpt (x.readIn σ c) v.lowerBound (σ (instanceAt c v t s)) t s := by
      unfold aboveOpt
      cases hl : v.lowerBound with
      | none => rfl
      | some b => exact aboveBound_congr (hr (hb b (.inl hl)) t s) rfl
    have e2 : belowOpt (x'.readIn σ' (c.called ρ)) v.upperBound (σ (instanceAt c v t s)) t s ↔
        belowOpt (x.readIn σ c) v.upperBound (σ (instanceAt c v t s)) t s := by
      unfold belowOpt
      cases hl : v.upperBound with
      | none => rfl
      | some b => exact belowBound_congr (hr (hb b (.inr hl)) t s) rfl
    unfold enforcedVar
    rw [e1, e2]
  · refine forall_congr' fun k => forall_congr' fun hkm => ?_
    have hb := ho.constraints c hc k hkm
    have hw : x'.WrittenAt (c.called ρ) k.expression t s ↔ x.WrittenAt c k.expression t s := by
      unfold OptCtx.WrittenAt
      rw [h.T_eq, h.frame.scenarios, h.dependence hn hn' hcl hc (hb _ (.inl rfl))]
    rw [hw]
    refine forall_congr' fun _ => ?_
    exact and_congr (aboveBound_congr (hr (hb _ (.inr (.inl rfl))) t s) (hk (hb _ (.inl rfl)) t s))
      (belowBound_congr (hr (hb _ (.inr (.inr rfl))) t s) (hk (hb _ (.inl rfl)) t s))

/-- the cost that the program counts for component `c` -/
noncomputable def _root_.Verif.OptCtx.keptCostOf (x : OptCtx) (σ : TermKey → ℚ) (c : Component) : ℚ :=
  ((x.contributions c).map fun e => x.keptValue σ c e 0 0).sum

theorem contributions_eq (h : Part ρ x x') (c : Component) : x'.contributions (c.called ρ) = x.contributions c := by
  unfold OptCtx.contributions
  rw [h.frame.strategy, h.frame.risk]
  rfl

theorem keptCostOf (h : Part ρ x x') (hn : x.NetworkOk) (hn' : x'.NetworkOk) (hcl : x.Closed) (ho : x.OwnSymbols) {σ σ' : TermKey → ℚ}
    (ha : Agree ρ x σ σ') {c : Component} (hc : c ∈ x.network.allComponents) : x'.keptCostOf σ' (c.called ρ) = x.keptCostOf σ c := by
  unfold OptCtx.keptCostOf
  rw [h.contributions_eq]
  congr 1
  exact List.map_congr_left fun e he => h.kept hn hn' hcl ha hc (ho.objectives c hc e he) 0 0 le_rfl

end OptCtx.Part

namespace OptCtx

/-- `c'` comes from a part of `x'` that is covered -/
def FromCovered (x' : OptCtx) (c' : Component) : Prop :=
  ∃ ρ x c, Part ρ x x' ∧ x.Expressible ∧ c ∈ x.network.allComponents ∧ c' = c.called ρ

theorem networkOk_of_covered {x' : OptCtx} (ha : x'.Assembled) (hids : (x'.network.allComponents.map (·.id)).Nodup)
    (hc : ∀ c' ∈ x'.network.allComponents, x'.FromCovered c') (hk : ∀ k' ∈ x'.network.connections, LinkFromPart k') : x'.NetworkOk where
  ids := hids
  keyed := ha.keyed
  vars c' hc' n v h := by
    obtain ⟨ρ, x, c, -, hr, hm, rfl⟩ := hc c' hc'
    exact hr.network.vars c hm n v h
  varsNodup c' hc' := by
    obtain ⟨ρ, x, c, -, hr, hm, rfl⟩ := hc c' hc'
    exact hr.network.varsNodup c hm
  accepted k' hk' := by
    obtain ⟨ρ, x, k, hn, hm, h⟩ := hk k' hk'
    obtain ⟨-, a, b⟩ := hn.accepted k hm
    rcases h with ⟨e1, e2⟩ | ⟨e1, e2⟩
    · exact ⟨ha.made k' hk', by rw [e1]; exact a, by rw [e2]; exact b⟩
    · exact ⟨ha.made k' hk', by rw [e1]; exact b, by rw [e2]; exact a⟩
  clean k' hk' r f d hr hd := by
    obtain ⟨ρ, x, k, hn, hm, h⟩ := hk k' hk'
    rcases h with ⟨e1, e2⟩ | ⟨e1, e2⟩ <;> rw [e1, e2] at hr <;> rcases hr with rfl | rfl
    · exact hn.clean k hm k.port1 f d (.inl rfl) hd
    · exact hn.clean k hm k.port2 f d (.inr rfl) hd
    · exact hn.clean k hm k.port2 f d (.inr rfl) hd
    · exact hn.clean k hm k.port1 f d (.inl rfl) hd

theorem expressible_of_parts {x' : OptCtx} (hn' : x'.NetworkOk) (hd : x'.DataOk) (hs : 0 < x'.scenarios)
    (hc : ∀ c' ∈ x'.network.allComponents, x'.FromCovered c') : x'.Expressible where
  network := hn'
  data := hd
  scenarios := hs
  bounds c' hc' v hv b h := by
    obtain ⟨ρ, x, c, hp, hr, hm, rfl⟩ := hc c' hc'
    rw [hp.frame.strategy] at hv
    exact hr.bounds c hm v hv b h
  constraints c' hc' k hk := by
    obtain ⟨ρ, x, c, hp, hr, hm, rfl⟩ := hc c' hc'
    rw [hp.frame.strategy] at hk
    exact hr.constraints c hm k hk
  objectives c' hc' e he := by
    obtain ⟨ρ, x, c, hp, hr, hm, rfl⟩ := hc c' hc'
    rw [hp.contributions_eq] at he
    exact hr.objectives c hm e he

end OptCtx
end Verif
