import Verif.Lemmas.StepsAny
import Verif.Lemmas.FewKeys

/-! # What is kept of a block and of its timesteps alone -/

namespace Verif
open Verif.Expr Verif.OptCtx Verif.Props

namespace OptCtx
variable {x x' : OptCtx} {k : Nat}

theorem moment_zero : MomentVar k (fun _ _ _ _ => 0) (fun _ _ _ _ => 0) := fun _ _ _ => rfl

theorem moment_one (c v : String) (s : Option Int) : MomentVar k (oneKey ⟨c, v, some (k : Int), s⟩) (oneKey ⟨c, v, some 0, s⟩) := by
  intro c' v' s'
  simp [oneKey]

theorem oneKey_not {κ : TermKey} {t : Option Int} (h : κ.time ≠ t) (c v : String) (s : Option Int) : oneKey κ c v t s = 0 := by
  unfold oneKey
  rw [if_neg]
  rintro rfl
  exact h rfl

/-- the sum of what is kept, when only instances at one timestep have coefficients -/
theorem kept_moment {κ κ' : TermKey → ℚ} {σ σ' : TermKey → ℚ} {T : Nat} (hk : k < T) (h0 : ∀ y : TermKey, y.time ≠ some (k : Int) → κ y = 0)
    (h0' : ∀ y : TermKey, y.time ≠ some 0 → κ' y = 0) (he : ∀ c v s, κ' ⟨c, v, some 0, s⟩ = κ ⟨c, v, some (k : Int), s⟩) (ha : MomentOf k σ σ') :
    ∑ᶠ y : TermKey, keep (κ' y) * σ' { y with time := y.time.map (· % (1 : Nat)) } =
      ∑ᶠ y : TermKey, keep (κ y) * σ { y with time := y.time.map (· % (T : Int)) } := by
  let S : Set TermKey := {y | y.time = some (k : Int)}
  let S' : Set TermKey := {y | y.time = some 0}
  have r' : ∑ᶠ y : TermKey, keep (κ' y) * σ' { y with time := y.time.map (· % (1 : Nat)) } =
      ∑ᶠ y ∈ S', keep (κ' y) * σ' { y with time := y.time.map (· % (1 : Nat)) } := by
    rw [← finsum_mem_univ]
    refine finsum_mem_inter_support_eq' _ _ _ fun y hy => ⟨fun _ => ?_, fun _ => trivial⟩
    by_contra hn
    exact hy (by dsimp only; rw [h0' y hn, keep_zero, zero_mul])
  have r : ∑ᶠ y : TermKey, keep (κ y) * σ { y with time := y.time.map (· % (T : Int)) } =
      ∑ᶠ y ∈ S, keep (κ y) * σ { y with time := y.time.map (· % (T : Int)) } := by
    rw [← finsum_mem_univ]
    refine finsum_mem_inter_support_eq' _ _ _ fun y hy => ⟨fun _ => ?_, fun _ => trivial⟩
    by_contra hn
    exact hy (by dsimp only; rw [h0 y hn, keep_zero, zero_mul])
  rw [r', r]
  refine finsum_mem_eq_of_bijOn (fun y : TermKey => { y with time := some (k : Int) }) ⟨?_, ?_, ?_⟩ ?_
  · rintro ⟨c, v, t, s⟩ _
    rfl
  · rintro ⟨c, v, t, s⟩ h1 ⟨c', v', t', s'⟩ h2 q
    obtain ⟨q1, q2, -, q4⟩ := TermKey.mk.inj q
    have h1 : t = some 0 := h1
    have h2 : t' = some 0 := h2
    simp_all
  · rintro ⟨c, v, t, s⟩ h1
    have h1 : t = some (k : Int) := h1
    exact ⟨⟨c, v, some 0, s⟩, rfl, by rw [h1]⟩
  · rintro ⟨c, v, t, s⟩ h1
    have h1 : t = some 0 := h1
    subst h1
    dsimp only
    rw [he, Option.map_some, Option.map_some, Int.emod_eq_of_lt (a := (k : Int)) (b := (T : Int)) (by positivity) (by exact_mod_cast hk)]
    congr 1
    exact ha _ _ _

/-- what is kept of an expression about one timestep -/
theorem AtStep.kept {σ σ' : TermKey → ℚ} (h : x.AtStep k x') (hk : k < x.T) (hn : x.NetworkOk) (hcl : x.Closed) (hu : x.Unlinked) (ha : MomentOf k σ σ')
    {c : Component} (hc : c ∈ x.network.allComponents) {e : Expr} (he : ∀ y ∈ e.subs, y.hasComponent = false) (hi : x.Instant c.id e)
    (s : Int) (hs : 0 ≤ s ∧ s < (x.scenarios : Int)) : x'.keptValue σ' c e 0 s = x.keptValue σ c e k s := by
  have read := fun {var var'} (hm : MomentVar k var var') => h.readVar hn hcl hu hm hc he hi s hs
  have hfix : x'.fixedPart c e 0 s = x.fixedPart c e k s := read moment_zero
  unfold OptCtx.keptValue
  rw [hfix, h.T_eq]
  congr 1
  refine kept_moment hk (fun y hy => ?_) (fun y hy => ?_) (fun c' v s' => ?_) ha
  · unfold OptCtx.coefficient
    rw [sub_eq_zero, ← hfix]
    refine (read (var := oneKey y) (var' := fun _ _ _ _ => 0) fun c v s => ?_).symm
    rw [oneKey_not hy]
  · unfold OptCtx.coefficient
    rw [sub_eq_zero, hfix]
    refine read (var := fun _ _ _ _ => 0) (var' := oneKey y) fun c v s => ?_
    rw [oneKey_not hy]
  · unfold OptCtx.coefficient
    rw [hfix]
    congr 1
    exact read (moment_one c' v s')

/-- what is kept of a sum over the timesteps is the sum of what is kept at each timestep alone -/
theorem Summed.kept {xs : Nat → OptCtx} {σ : TermKey → ℚ} {σs : Nat → TermKey → ℚ} (h : ∀ k < x.T, x.AtStep k (xs k))
    (hn : x.NetworkOk) (hcl : x.Closed) (hu : x.Unlinked) (ha : ∀ k < x.T, MomentOf k σ (σs k)) {c : Component} (hc : c ∈ x.network.allComponents)
    {e : Expr} (hsum : x.Summed c.id e) (he : ∀ y ∈ e.subs, y.hasComponent = false) (s : Int) (hs : 0 ≤ s ∧ s < (x.scenarios : Int)) :
    x.keptValue σ c e 0 s = ∑ k ∈ Finset.range x.T, (xs k).keptValue (σs k) c e 0 s := by
  have read := fun (W : String → String → Option Int → Option Int → ℚ) (vars : Nat → String → String → Option Int → Option Int → ℚ)
    (hm : ∀ k < x.T, MomentVar k W (vars k)) =>
    hsum.valueVar h hn hcl hu hm hc he s hs
  have hfix : x.fixedPart c e 0 s = ∑ k ∈ Finset.range x.T, (xs k).fixedPart c e 0 s := read _ _ fun _ _ => moment_zero
  -- only values at the only timestep count
  have only : ∀ k < x.T, ∀ var var' : String → String → Option Int → Option Int → ℚ, (∀ c v s, var' c v (some 0) s = var c v (some 0) s) →
      mden ((xs k).readAs ((xs k).unwrapped var') c) e 0 s = mden ((xs k).readAs ((xs k).unwrapped var) c) e 0 s := by
    intro k hk var var' hv
    let W : String → String → Option Int → Option Int → ℚ := fun c v t s => if t = some (k : Int) then var c v (some 0) s else 0
    have mom : ∀ z : String → String → Option Int → Option Int → ℚ, (∀ c v s, z c v (some 0) s = var c v (some 0) s) →
        ∀ j < x.T, MomentVar j W (if j = k then z else fun _ _ _ _ => 0) := by
      intro z hz j hj c v s
      by_cases q : j = k
      · subst q
        simp [W, hz]
      · have : ¬ (j : Int) = k := by exact_mod_cast q
        simp [W, q, this]
    have e1 := read W _ (mom var fun _ _ _ => rfl)
    have e2 := read W _ (mom var' hv)
    rw [e1, ← Finset.add_sum_erase _ _ (Finset.mem_range.2 hk), ← Finset.add_sum_erase _ _ (Finset.mem_range.2 hk)] at e2
    have e3 : ∀ z : String → String → Option Int → Option Int → ℚ, ∑ j ∈ (Finset.range x.T).erase k,
        mden ((xs j).readAs ((xs j).unwrapped (if j = k then z else fun _ _ _ _ => 0)) c) e 0 s =
        ∑ j ∈ (Finset.range x.T).erase k, mden ((xs j).readAs ((xs j).unwrapped fun _ _ _ _ => 0) c) e 0 s := fun z =>
      Finset.sum_congr rfl fun j hj => by rw [if_neg (Finset.ne_of_mem_erase hj)]
    rw [e3, e3] at e2
    simp only [if_true] at e2
    exact (add_right_cancel e2).symm
  have out : ∀ k < x.T, ∀ y : TermKey, y.time ≠ some 0 → (xs k).coefficient c e 0 s y = 0 := by
    intro k hk y hy
    unfold OptCtx.coefficient
    rw [sub_eq_zero]
    exact only k hk (fun _ _ _ _ => 0) (oneKey y) fun c v s => oneKey_not hy c v s
  have inside : ∀ k < x.T, ∀ c' v s', x.coefficient c e 0 s ⟨c', v, some (k : Int), s'⟩ = (xs k).coefficient c e 0 s ⟨c', v, some 0, s'⟩ := by
    intro k hk c' v s'
    have e1 := read (oneKey ⟨c', v, some (k : Int), s'⟩) (fun j => if j = k then oneKey ⟨c', v, some 0, s'⟩ else fun _ _ _ _ => 0) fun j hj => by
      by_cases q : j = k
      · subst q
        rw [if_pos rfl]
        exact moment_one _ _ _
      · intro c v s
        have : ¬ (k : Int) = j := by exact_mod_cast (Ne.symm q)
        rw [if_neg q, oneKey_not]
        simpa using this
    unfold OptCtx.coefficient
    rw [hfix]
    refine (congrArg (· - _) e1).trans ?_
    rw [← Finset.add_sum_erase _ _ (Finset.mem_range.2 hk), ← Finset.add_sum_erase _ (fun k => (xs k).fixedPart c e 0 s) (Finset.mem_range.2 hk)]
    simp only [if_true]
    have e3 : ∑ j ∈ (Finset.range x.T).erase k,
        mden ((xs j).readAs ((xs j).unwrapped (if j = k then oneKey ⟨c', v, some 0, s'⟩ else fun _ _ _ _ => 0)) c) e 0 s =
        ∑ j ∈ (Finset.range x.T).erase k, (xs j).fixedPart c e 0 s :=
      Finset.sum_congr rfl fun j hj => by rw [if_neg (Finset.ne_of_mem_erase hj)]; rfl
    rw [e3]
    show _ = mden ((xs k).readAs ((xs k).unwrapped (oneKey ⟨c', v, some 0, s'⟩)) c) e 0 s - _
    ring
  have outside : ∀ y : TermKey, (∀ k < x.T, y.time ≠ some (k : Int)) → x.coefficient c e 0 s y = 0 := by
    intro y hy
    unfold OptCtx.coefficient
    rw [sub_eq_zero, hfix]
    exact read (oneKey y) (fun _ _ _ _ _ => 0) fun k hk c v s => (oneKey_not (hy k hk) c v s).symm
  let part : Nat → TermKey → ℚ := fun k y => if y.time = some (k : Int) then x.coefficient c e 0 s y else 0
  have split : ∀ y : TermKey, keep (x.coefficient c e 0 s y) * σ { y with time := y.time.map (· % (x.T : Int)) } =
      ∑ k ∈ Finset.range x.T, keep (part k y) * σ { y with time := y.time.map (· % (x.T : Int)) } := by
    intro y
    by_cases hy : ∃ k < x.T, y.time = some (k : Int)
    · obtain ⟨k, hk, e⟩ := hy
      rw [Finset.sum_eq_single k]
      · simp [part, e]
      · intro j _ hj
        have : part j y = 0 := by
          simp only [part, e]
          rw [if_neg]
          intro z
          exact hj (by simpa using z.symm)
        rw [this, keep_zero, zero_mul]
      · intro z
        exact absurd (Finset.mem_range.2 hk) z
    · push Not at hy
      rw [outside y hy, keep_zero, zero_mul, Finset.sum_eq_zero]
      intro k hk
      have : part k y = 0 := by
        simp only [part]
        rw [if_neg (hy k (Finset.mem_range.1 hk))]
      rw [this, keep_zero, zero_mul]
  unfold OptCtx.keptValue
  rw [hfix, Finset.sum_add_distrib]
  congr 1
  simp only [split]
  rw [finsum_sum_comm]
  · refine Finset.sum_congr rfl fun k hk => ?_
    have hk := Finset.mem_range.1 hk
    rw [(h k hk).T_eq]
    refine (kept_moment hk (fun y hy => ?_) (out k hk) (fun c' v s' => ?_) (ha k hk)).symm
    · simp only [part]
      rw [if_neg hy]
    · simp only [part, if_true]
      exact (inside k hk c' v s').symm
  · intro k _
    refine (coefficient_finite x c e 0 s).subset fun y hy hz => hy ?_
    have : part k y = 0 := by
      simp only [part, hz]
      split_ifs <;> rfl
    beta_reduce
    rw [this, keep_zero, zero_mul]

end OptCtx
end Verif
