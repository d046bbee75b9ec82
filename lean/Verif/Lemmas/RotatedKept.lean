import Verif.Spec.RotatedKept
import Verif.Lemmas.StepsKept

/-! # What is kept of a block and of the same block started at another timestep -/

namespace Verif
open Verif.Expr Verif.OptCtx Verif.Props

/-- expressions without shifts are read at timestep `t` of `M'` as at timestep `(t + r) % T` of `M`, when symbols and what ports receive are -/
theorem mden_turned {M M' : MCtx} {r : Int} (hT : M'.D.T = M.D.T) (hS : M'.D.S = M.D.S)
    (hv : ∀ n t s, 0 ≤ t ∧ t < (M.D.T : Int) → mden M' (.var n) t s = mden M (.var n) ((t + r) % M.D.T) s)
    (hp : ∀ n t s, 0 ≤ t ∧ t < (M.D.T : Int) → 0 ≤ s ∧ s < (M.D.S : Int) → mden M' (.par n) t s = mden M (.par n) ((t + r) % M.D.T) s)
    (hports : ∀ p f t s, 0 ≤ t ∧ t < (M.D.T : Int) → 0 ≤ s ∧ s < (M.D.S : Int) →
      ((M'.ports p f).map fun v => v t s) = ((M.ports p f).map fun v => v ((t + r) % M.D.T) s))
    (e : Expr) : (∀ y ∈ e.subs, y.hasComponent = false) → (∀ y k, Expr.evalT y k ∉ e.subs) →
    (∀ y k, Expr.shift y k ∉ e.subs) → (∀ y a b, Expr.tsum y a b ∉ e.subs) →
    ∀ t s, 0 ≤ t ∧ t < (M.D.T : Int) → 0 ≤ s ∧ s < (M.D.S : Int) → mden M' e t s = mden M e ((t + r) % M.D.T) s := by
  induction e using Expr.ind with
  | lit v => intro _ _ _ _ t s _ _; cases v <;> simp [mden]
  | var n => intro _ _ _ _ t s ht _; exact hv n t s ht
  | par n => intro _ _ _ _ t s ht hs; exact hp n t s ht hs
  | portField p f =>
    intro _ _ _ _ t s ht hs
    have := hports p f t s ht hs
    simp only [mden]
    generalize M.ports p f = l at this
    generalize M'.ports p f = l' at this
    rcases l with _ | ⟨a, _ | ⟨b, l⟩⟩ <;> rcases l' with _ | ⟨a', _ | ⟨b', l'⟩⟩ <;> simp_all
  | agg e a _ =>
    intro _ _ _ _ t s ht hs
    cases e with
    | portField p f => simp only [mden, hports p f t s ht hs]
    | _ => simp [mden]
  | cmp l r c _ _ => intro _ _ _ _ t s _ _; simp [mden]
  | cvar c n => intro h; exact absurd (h _ (mem_subs_self _)) (by simp [hasComponent])
  | cpar c n => intro h; exact absurd (h _ (mem_subs_self _)) (by simp [hasComponent])
  | pvar c n ti si => intro h; exact absurd (h _ (mem_subs_self _)) (by simp [hasComponent])
  | ppar c n ti si => intro h; exact absurd (h _ (mem_subs_self _)) (by simp [hasComponent])
  | add es ih =>
    intro h h1 h2 h3 t s ht hs
    rw [mden_add, mden_add]
    congr 1
    exact List.map_congr_left fun x hx => ih x hx (fun y hy => h y (mem_subs_add.2 (.inr ⟨x, hx, hy⟩)))
      (fun y k hy => h1 y k (mem_subs_add.2 (.inr ⟨x, hx, hy⟩))) (fun y k hy => h2 y k (mem_subs_add.2 (.inr ⟨x, hx, hy⟩)))
      (fun y a b hy => h3 y a b (mem_subs_add.2 (.inr ⟨x, hx, hy⟩))) t s ht hs
  | neg e ih =>
    intro h h1 h2 h3 t s ht hs
    simp only [mden, ih (fun y hy => h y (by simp [subs, hy])) (fun y k hy => h1 y k (by simp [subs, hy])) (fun y k hy => h2 y k (by simp [subs, hy]))
      (fun y a b hy => h3 y a b (by simp [subs, hy])) t s ht hs]
  | mul l r ihl ihr =>
    intro h h1 h2 h3 t s ht hs
    simp only [mden, ihl (fun y hy => h y (by simp [subs, hy])) (fun y k hy => h1 y k (by simp [subs, hy])) (fun y k hy => h2 y k (by simp [subs, hy]))
      (fun y a b hy => h3 y a b (by simp [subs, hy])) t s ht hs,
      ihr (fun y hy => h y (by simp [subs, hy])) (fun y k hy => h1 y k (by simp [subs, hy])) (fun y k hy => h2 y k (by simp [subs, hy]))
      (fun y a b hy => h3 y a b (by simp [subs, hy])) t s ht hs]
  | div l r ihl ihr =>
    intro h h1 h2 h3 t s ht hs
    simp only [mden, ihl (fun y hy => h y (by simp [subs, hy])) (fun y k hy => h1 y k (by simp [subs, hy])) (fun y k hy => h2 y k (by simp [subs, hy]))
      (fun y a b hy => h3 y a b (by simp [subs, hy])) t s ht hs,
      ihr (fun y hy => h y (by simp [subs, hy])) (fun y k hy => h1 y k (by simp [subs, hy])) (fun y k hy => h2 y k (by simp [subs, hy]))
      (fun y a b hy => h3 y a b (by simp [subs, hy])) t s ht hs]
  | shift e k _ _ => intro _ _ h2; exact absurd (mem_subs_self _) (h2 _ _)
  | evalT e k _ _ => intro _ h1; exact absurd (mem_subs_self _) (h1 _ _)
  | tsum e a b _ _ _ => intro _ _ _ h3; exact absurd (mem_subs_self _) (h3 _ _ _)
  | allsum e ih =>
    intro h h1 h2 h3 t s ht hs
    have hr := sum_period (T := M.D.T) (f := fun u => mden M e (u % M.D.T) s) (fun t => by simp) r
    simp only [mden, hT]
    calc ∑ u ∈ Finset.range M.D.T, mden M' e u s = ∑ u ∈ Finset.range M.D.T, mden M e ((u + r) % M.D.T) s :=
          Finset.sum_congr rfl fun u hu => ih (fun y hy => h y (by simp [subs, hy])) (fun y k hy => h1 y k (by simp [subs, hy]))
            (fun y k hy => h2 y k (by simp [subs, hy])) (fun y a b hy => h3 y a b (by simp [subs, hy])) u s
            ⟨by positivity, by exact_mod_cast Finset.mem_range.1 hu⟩ hs
      _ = _ := hr.trans (Finset.sum_congr rfl fun u hu => by
          rw [Int.emod_eq_of_lt (by positivity) (by exact_mod_cast Finset.mem_range.1 hu)])
  | scen e o ih =>
    intro h h1 h2 h3 t s ht _
    simp only [mden, hS]
    congr 1
    exact Finset.sum_congr rfl fun w hw => ih (fun y hy => h y (by simp [subs, hy])) (fun y k hy => h1 y k (by simp [subs, hy]))
      (fun y k hy => h2 y k (by simp [subs, hy])) (fun y a b hy => h3 y a b (by simp [subs, hy])) _ _ ht
      ⟨by positivity, by exact_mod_cast Finset.mem_range.1 hw⟩

namespace OptCtx
variable {x x' : OptCtx} {r : Int}

/-- `var'` are the values `var`, read `r` timesteps later -/
structure MovedVar (r : Int) (var var' : String → String → Option Int → Option Int → ℚ) : Prop where
  fixed : ∀ c n s, var' c n none s = var c n none s
  moved : ∀ c n t s, var' c n (some t) s = var c n (some (t + r)) s

/-- in the block, `var'` are the values `var`, read `r` timesteps later in the cyclic block -/
structure TurnedVar (r : Int) (T : Nat) (var var' : String → String → Option Int → Option Int → ℚ) : Prop where
  fixed : ∀ c n s, var' c n none s = var c n none s
  moved : ∀ c n t s, 0 ≤ t ∧ t < (T : Int) → var' c n (some t) s = var c n (some ((t + r) % T)) s

theorem parameterAt_mod (x : OptCtx) (c n : String) (t s : Int) : x.parameterAt c n (t % x.T) s = x.parameterAt c n t s := by
  unfold parameterAt OptCtx.dataValue atT
  split_ifs
  · simp only [Option.map_some]
    unfold OptCtx.blockTime
    rw [Int.emod_emod_of_dvd _ (dvd_refl _)]
  · rfl

namespace Rotated
variable {var var' : String → String → Option Int → Option Int → ℚ}

theorem exprMoved (h : x.Rotated r x') (ha : MovedVar r var var') {c : Component} (hc : c ∈ x.network.allComponents)
    {P P' : String → String → List (Int → Int → ℚ)}
    (hP : ∀ p f t s, 0 ≤ s ∧ s < (x.scenarios : Int) → ((P' p f).map fun v => v t s) = ((P p f).map fun v => v (t + r) s))
    {e : Expr} (he : ∀ y ∈ e.subs, y.hasComponent = false) (hk : x.NoClock c.id e) (hu : x.T = 0 ∨ ∀ y, Expr.allsum y ∉ e.subs) (t s : Int)
    (hs : 0 ≤ s ∧ s < (x.scenarios : Int)) :
    mden (componentCtx (x'.unwrapped var') c.id P') e t s = mden (componentCtx (x.unwrapped var) c.id P) e (t + r) s := by
  have amount : ∀ k, (∀ z ∈ k.subs, z ∈ e.subs) → x.Steady c.id k → ∀ t, mden (componentCtx (x.unwrapped var) c.id P) k t 0 =
      mden (componentCtx (x.unwrapped var) c.id P) k 0 0 :=
    fun k hin hst t => mden_steady (M := componentCtx (x.unwrapped var) c.id P) k (fun y hy => he y (hin y hy)) hst t 0 0
  refine mden_later (M := componentCtx (x.unwrapped var) c.id P) (M' := componentCtx (x'.unwrapped var') c.id P') h.T_eq h.scenarios
    ?_ (fun n t s hs => h.data c hc n t s hs.1 hs.2) hP e he hk.fixed ?_ ?_ ?_ t s hs
  · intro n t s
    show var' c.id n (atT (x'.varIdx c.id n) t) (atS (x'.varIdx c.id n) s) = var c.id n (atT (x.varIdx c.id n) (t + r)) (atS (x.varIdx c.id n) s)
    rw [h.varIdx]
    unfold atT
    split_ifs
    · exact ha.moved _ _ _ _
    · exact ha.fixed _ _ _
  · intro y k hy
    exact amount k (fun z hz => subs_trans hy (by simp [subs, hz])) (hk.shifts y k hy)
  · intro y a b hy
    exact ⟨amount a (fun z hz => subs_trans hy (by simp [subs, hz])) (hk.sums y a b hy).1,
      amount b (fun z hz => subs_trans hy (by simp [subs, hz])) (hk.sums y a b hy).2⟩
  · intro y hy t s
    rcases hu with hu | hu
    · show mden _ y (t + (x.T : Int)) s = _
      rw [hu, Nat.cast_zero, add_zero]
    · exact absurd hy (hu y)

theorem exprTurned (h : x.Rotated r x') (ha : TurnedVar r x.T var var') {c : Component} (hc : c ∈ x.network.allComponents)
    {P P' : String → String → List (Int → Int → ℚ)}
    (hP : ∀ p f t s, 0 ≤ t ∧ t < (x.T : Int) → 0 ≤ s ∧ s < (x.scenarios : Int) →
      ((P' p f).map fun v => v t s) = ((P p f).map fun v => v ((t + r) % x.T) s))
    {e : Expr} (he : ∀ y ∈ e.subs, y.hasComponent = false) (hk : ∀ y k, Expr.evalT y k ∉ e.subs)
    (hu : (∀ y k, Expr.shift y k ∉ e.subs) ∧ ∀ y a b, Expr.tsum y a b ∉ e.subs) (t s : Int)
    (ht : 0 ≤ t ∧ t < (x.T : Int)) (hs : 0 ≤ s ∧ s < (x.scenarios : Int)) :
    mden (componentCtx (x'.unwrapped var') c.id P') e t s = mden (componentCtx (x.unwrapped var) c.id P) e ((t + r) % x.T) s := by
  refine mden_turned (M := componentCtx (x.unwrapped var) c.id P) (M' := componentCtx (x'.unwrapped var') c.id P') h.T_eq h.scenarios
    ?_ ?_ hP e he hk hu.1 hu.2 t s ht hs
  · intro n t s ht
    show var' c.id n (atT (x'.varIdx c.id n) t) (atS (x'.varIdx c.id n) s) =
      var c.id n (atT (x.varIdx c.id n) ((t + r) % x.T)) (atS (x.varIdx c.id n) s)
    rw [h.varIdx]
    unfold atT
    split_ifs
    · exact ha.moved _ _ _ _ ht
    · exact ha.fixed _ _ _
  · intro n t s _ hs
    exact (h.data c hc n t s hs.1 hs.2).trans (parameterAt_mod x c.id n (t + r) s).symm

theorem noTimeOp {e : Expr} (h : ∀ y ∈ e.subs, y.isTimeOp = false) : (∀ y, Expr.allsum y ∉ e.subs) ∧ (∀ y k, Expr.evalT y k ∉ e.subs) ∧
    (∀ y k, Expr.shift y k ∉ e.subs) ∧ ∀ y a b, Expr.tsum y a b ∉ e.subs :=
  ⟨fun _ hy => (by cases h _ hy), fun _ _ hy => (by cases h _ hy), fun _ _ hy => (by cases h _ hy), fun _ _ _ hy => (by cases h _ hy)⟩

theorem readMoved (h : x.Rotated r x') (hn : x.NetworkOk) (hcl : x.Closed) (hck : x.Clockless) (hm : x.Unmixed) (ha : MovedVar r var var')
    {c : Component} (hc : c ∈ x.network.allComponents) {e : Expr} (he : ∀ y ∈ e.subs, y.hasComponent = false) (hk : x.NoClock c.id e)
    (hu : x.T = 0 ∨ ∀ y, Expr.allsum y ∉ e.subs) (t s : Int) (hs : 0 ≤ s ∧ s < (x.scenarios : Int)) :
    mden (x'.readAs (x'.unwrapped var') c) e t s = mden (x.readAs (x.unwrapped var) c) e (t + r) s := by
  have value : ∀ j ∈ x.network.connections, ∀ f t s, 0 ≤ s ∧ s < (x.scenarios : Int) →
      j.value (x'.unwrapped var') f t s = j.value (x.unwrapped var) f (t + r) s := by
    intro j hj f t s hs
    have side : ∀ (q : PortRef) d, (q = j.port1 ∨ q = j.port2) → q.fieldDef f = some d → q.component ∈ x.network.allComponents →
        mden (componentCtx (x'.unwrapped var') q.component.id noPorts) d t s =
        mden (componentCtx (x.unwrapped var) q.component.id noPorts) d (t + r) s := by
      intro q d hq hd hmem
      exact h.exprMoved ha hmem (fun _ _ _ _ _ => rfl) (fun y hy => ((hn.clean j hj q f d hq hd).1 y hy).2.2) (hck.ports j hj q f d hq hd)
        (.inr (noTimeOp (hm.ports j hj q f d hq hd)).1) t s hs
    unfold PortsConnection.value
    cases z1 : j.port1.fieldDef f with
    | some d => exact side _ _ (.inl rfl) z1 (hcl j hj).1
    | none =>
      cases z2 : j.port2.fieldDef f with
      | some d => exact side _ _ (.inr rfl) z2 (hcl j hj).2
      | none => rfl
  refine h.exprMoved ha hc ?_ he hk hu t s hs
  intro p f t s hs
  rw [h.network]
  unfold attached
  rw [List.map_flatMap, List.map_flatMap]
  refine List.flatMap_congr fun j hj => ?_
  have := value j hj f t s hs
  unfold PortsConnection.brings
  split_ifs <;> simp [this]

theorem readTurned (h : x.Rotated r x') (hn : x.NetworkOk) (hcl : x.Closed) (hm : x.Unmixed) (ha : TurnedVar r x.T var var')
    {c : Component} (hc : c ∈ x.network.allComponents) {e : Expr} (he : ∀ y ∈ e.subs, y.hasComponent = false) (hk : ∀ y k, Expr.evalT y k ∉ e.subs)
    (hu : (∀ y k, Expr.shift y k ∉ e.subs) ∧ ∀ y a b, Expr.tsum y a b ∉ e.subs) (t s : Int)
    (ht : 0 ≤ t ∧ t < (x.T : Int)) (hs : 0 ≤ s ∧ s < (x.scenarios : Int)) :
    mden (x'.readAs (x'.unwrapped var') c) e t s = mden (x.readAs (x.unwrapped var) c) e ((t + r) % x.T) s := by
  have value : ∀ j ∈ x.network.connections, ∀ f t s, 0 ≤ t ∧ t < (x.T : Int) → 0 ≤ s ∧ s < (x.scenarios : Int) →
      j.value (x'.unwrapped var') f t s = j.value (x.unwrapped var) f ((t + r) % x.T) s := by
    intro j hj f t s ht hs
    have side : ∀ (q : PortRef) d, (q = j.port1 ∨ q = j.port2) → q.fieldDef f = some d → q.component ∈ x.network.allComponents →
        mden (componentCtx (x'.unwrapped var') q.component.id noPorts) d t s =
        mden (componentCtx (x.unwrapped var) q.component.id noPorts) d ((t + r) % x.T) s := by
      intro q d hq hd hmem
      obtain ⟨-, o1, o2⟩ := noTimeOp (hm.ports j hj q f d hq hd)
      exact h.exprTurned ha hmem (fun _ _ _ _ _ _ => rfl) (fun y hy => ((hn.clean j hj q f d hq hd).1 y hy).2.2) o1 o2 t s ht hs
    unfold PortsConnection.value
    cases z1 : j.port1.fieldDef f with
    | some d => exact side _ _ (.inl rfl) z1 (hcl j hj).1
    | none =>
      cases z2 : j.port2.fieldDef f with
      | some d => exact side _ _ (.inr rfl) z2 (hcl j hj).2
      | none => rfl
  refine h.exprTurned ha hc ?_ he hk hu t s ht hs
  intro p f t s ht hs
  rw [h.network]
  unfold attached
  rw [List.map_flatMap, List.map_flatMap]
  refine List.flatMap_congr fun j hj => ?_
  have := value j hj f t s ht hs
  unfold PortsConnection.brings
  split_ifs <;> simp [this]

/-- the same block, started a number of whole blocks later -/
theorem turns (h : x.Rotated r x') (n : Int) : x.Rotated (r + x.T * n) x' where
  network := h.network
  length := h.length
  scenarios := h.scenarios
  strategy := h.strategy
  risk := h.risk
  data c hc m t s h0 h1 := by
    rw [h.data c hc m t s h0 h1, ← parameterAt_mod x c.id m (t + r) s, ← parameterAt_mod x c.id m (t + (r + x.T * n)) s]
    congr 1
    rw [← add_assoc, Int.add_mul_emod_self_left]

end Rotated

theorem LaterBy.turns {σ σ' : TermKey → ℚ} (h : x.LaterBy r σ σ') (n : Int) : x.LaterBy (r + x.T * n) σ σ' := by
  intro c m s
  refine ⟨(h c m s).1, fun t => ?_⟩
  rw [(h c m s).2 t, ← add_assoc, Int.add_mul_emod_self_left]

/-- an instance, `r` timesteps later -/
def moveKey (r : Int) (y : TermKey) : TermKey := { y with time := y.time.map (· + r) }

/-- an instance, `r` timesteps later in the cyclic block -/
def turnKey (r : Int) (T : Nat) (y : TermKey) : TermKey := { y with time := y.time.map fun t => (t + r) % T }

theorem moveKey_bijective (r : Int) : Function.Bijective (moveKey r) := by
  have inv : ∀ r y, moveKey (-r) (moveKey r y) = y := by
    rintro r ⟨c, v, t, s⟩
    cases t <;> simp [moveKey]
  refine ⟨fun a b h => ?_, fun y => ⟨moveKey (-r) y, ?_⟩⟩
  · rw [← inv r a, ← inv r b, h]
  · simpa using inv (-r) y

theorem moved_one (r : Int) (y : TermKey) : MovedVar r (oneKey (moveKey r y)) (oneKey y) := by
  obtain ⟨c, v, t, s⟩ := y
  refine ⟨fun c' v' s' => ?_, fun c' v' t' s' => ?_⟩ <;> cases t <;> simp [oneKey, moveKey]

theorem turned_one {T : Nat} (r : Int) (y : TermKey) (hy : ∀ u, y.time = some u → 0 ≤ u ∧ u < (T : Int)) :
    TurnedVar r T (oneKey (turnKey r T y)) (oneKey y) := by
  obtain ⟨c, v, t, s⟩ := y
  refine ⟨fun c' v' s' => ?_, fun c' v' t' s' ht => ?_⟩ <;> cases t with
  | none => simp [oneKey, turnKey]
  | some u => first
    | simp [oneKey, turnKey]; done
    | have hu := hy u rfl
      have : (u + r) % (T : Int) = (t' + r) % T ↔ u = t' := by
        constructor
        · intro h
          rwa [Int.emod_add_cancel_right r, Int.emod_eq_of_lt hu.1 hu.2, Int.emod_eq_of_lt ht.1 ht.2] at h
        · rintro rfl; rfl
      simp [oneKey, turnKey, this]

/-- what is kept of an expression that does not mix sums over the block with shifts -/
theorem Rotated.kept {σ σ' : TermKey → ℚ} (h : x.Rotated r x') (hn : x.NetworkOk) (hcl : x.Closed) (hck : x.Clockless) (hm : x.Unmixed)
    (ha : x.LaterBy r σ σ') {c : Component} (hc : c ∈ x.network.allComponents) {e : Expr} (he : ∀ y ∈ e.subs, y.hasComponent = false)
    (hk : x.NoClock c.id e) (hu : e.Unmixed) (t s : Int) (ht : x.T = 0 ∨ 0 ≤ t ∧ t < (x.T : Int)) (hs : 0 ≤ s ∧ s < (x.scenarios : Int)) :
    x'.keptValue σ' c e t s = x.keptValue σ c e ((t + r) % x.T) s := by
  -- without sums over the block: all instances are moved
  have moved : (x.T = 0 ∨ ∀ y, Expr.allsum y ∉ e.subs) → ∀ r, x.Rotated r x' → x.LaterBy r σ σ' →
      x'.keptValue σ' c e t s = x.keptValue σ c e (t + r) s := by
    intro hu r h ha
    have read := fun {W W'} (hv : MovedVar r W W') => h.readMoved hn hcl hck hm hv hc he hk hu t s hs
    have hfix : x'.fixedPart c e t s = x.fixedPart c e (t + r) s := read ⟨fun _ _ _ => rfl, fun _ _ _ _ => rfl⟩
    unfold OptCtx.keptValue
    rw [hfix, h.T_eq]
    congr 1
    refine finsum_eq_of_bijective (moveKey r) (moveKey_bijective r) fun y => ?_
    have hco : x'.coefficient c e t s y = x.coefficient c e (t + r) s (moveKey r y) := by
      unfold OptCtx.coefficient
      rw [hfix]
      congr 1
      exact read (moved_one r y)
    rw [hco]
    congr 1
    obtain ⟨c', v, u, s'⟩ := y
    cases u with
    | none => exact (ha c' v s').1
    | some u => exact (ha c' v s').2 u
  rcases ht with h0 | ht
  · rw [moved (.inl h0) r h ha, h0, Nat.cast_zero, Int.emod_zero]
  rcases hu with hu | hu
  · have e1 : t + (r + x.T * -((t + r) / x.T)) = (t + r) % x.T := by
      have := Int.emod_add_mul_ediv (t + r) x.T
      linarith
    rw [moved (.inr hu) _ (h.turns (-((t + r) / x.T))) (ha.turns (-((t + r) / x.T))), e1]
  · have read := fun {W W'} (hv : TurnedVar r x.T W W') => h.readTurned hn hcl hm hv hc he hk.fixed hu t s ht hs
    have hfix : x'.fixedPart c e t s = x.fixedPart c e ((t + r) % x.T) s := read ⟨fun _ _ _ => rfl, fun _ _ _ _ _ => rfl⟩
    have hT : (0 : Int) < x.T := lt_of_le_of_lt ht.1 ht.2
    let S : Set TermKey := {y | ∀ u, y.time = some u → 0 ≤ u ∧ u < (x.T : Int)}
    have out : ∀ y ∉ S, x'.coefficient c e t s y = 0 ∧ x.coefficient c e ((t + r) % x.T) s y = 0 := by
      intro y hy
      obtain ⟨u, hu1, hu2⟩ : ∃ u, y.time = some u ∧ ¬ (0 ≤ u ∧ u < (x.T : Int)) := by
        simp only [S, Set.mem_ofPred_eq] at hy
        push Not at hy
        obtain ⟨u, a, b⟩ := hy
        exact ⟨u, a, fun q => absurd q.2 (not_lt.2 (b q.1))⟩
      have hnone : y.time ≠ none := by rw [hu1]; simp
      have hsome : ∀ w, 0 ≤ w ∧ w < (x.T : Int) → y.time ≠ some w := by
        intro w hw z
        rw [hu1] at z
        exact hu2 (by cases z; exact hw)
      unfold OptCtx.coefficient
      constructor
      · rw [sub_eq_zero, hfix]
        exact read (W := fun _ _ _ _ => 0) (W' := oneKey y) ⟨fun c v s => oneKey_not hnone c v s, fun c v w s hw => oneKey_not (hsome w hw) c v s⟩
      · rw [sub_eq_zero, ← hfix]
        refine (read (W := oneKey y) (W' := fun _ _ _ _ => 0) ⟨fun c v s => (oneKey_not hnone c v s).symm, fun c v w s _ => ?_⟩).symm
        exact (oneKey_not (hsome _ ⟨Int.emod_nonneg _ hT.ne', Int.emod_lt_of_pos _ hT⟩) c v s).symm
    unfold OptCtx.keptValue
    rw [hfix, h.T_eq]
    congr 1
    have restrict : ∀ (κ : TermKey → ℚ) (τ : TermKey → ℚ), (∀ y ∉ S, κ y = 0) → ∑ᶠ y, keep (κ y) * τ y = ∑ᶠ y ∈ S, keep (κ y) * τ y := by
      intro κ τ h0
      rw [← finsum_mem_univ]
      refine finsum_mem_inter_support_eq' _ _ _ fun y hy => ⟨fun _ => ?_, fun _ => trivial⟩
      by_contra hn
      exact hy (by dsimp only; rw [h0 y hn, keep_zero, zero_mul])
    rw [restrict _ _ fun y hy => (out y hy).1, restrict _ _ fun y hy => (out y hy).2]
    have mod : ∀ u, 0 ≤ u ∧ u < (x.T : Int) → u % x.T = u := fun u hu => Int.emod_eq_of_lt hu.1 hu.2
    refine finsum_mem_eq_of_bijOn (turnKey r x.T) ⟨?_, ?_, ?_⟩ ?_
    · rintro ⟨c, v, t, s⟩ _ u hu
      cases t with
      | none => cases hu
      | some w => cases hu; exact ⟨Int.emod_nonneg _ hT.ne', Int.emod_lt_of_pos _ hT⟩
    · rintro y1 h1 y2 h2 q
      obtain ⟨c, v, t1, s⟩ := y1
      obtain ⟨c', v', t2, s'⟩ := y2
      obtain ⟨q1, q2, q3, q4⟩ := TermKey.mk.inj q
      dsimp only at q1 q2 q3 q4
      subst q1 q2 q4
      cases t1 <;> cases t2 <;> simp only [Option.map_none, Option.map_some, Option.some.injEq, reduceCtorEq] at q3
      · rfl
      · rename_i u w
        rw [Int.emod_add_cancel_right r, mod u (h1 u rfl), mod w (h2 w rfl)] at q3
        rw [q3]
    · rintro ⟨c, v, t, s⟩ h1
      cases t with
      | none => exact ⟨⟨c, v, none, s⟩, (by rintro u ⟨⟩), rfl⟩
      | some w =>
        refine ⟨⟨c, v, some ((w - r) % x.T), s⟩, ?_, ?_⟩
        · rintro u ⟨⟩
          exact ⟨Int.emod_nonneg _ hT.ne', Int.emod_lt_of_pos _ hT⟩
        · simp only [turnKey, Option.map_some, Int.emod_add_emod, sub_add_cancel]
          rw [mod w (h1 w rfl)]
    · rintro y h1
      have hco : x'.coefficient c e t s y = x.coefficient c e ((t + r) % x.T) s (turnKey r x.T y) := by
        unfold OptCtx.coefficient
        rw [hfix]
        congr 1
        exact read (turned_one r y h1)
      rw [hco]
      congr 1
      obtain ⟨c', v, u, s'⟩ := y
      cases u with
      | none => exact (ha c' v s').1
      | some u =>
        simp only [turnKey, Option.map_some, Int.emod_emod_of_dvd _ (dvd_refl _)]
        exact (ha c' v s').2 u

end OptCtx
end Verif
