import Verif.Spec.Rotated
import Verif.Lemmas.SameProblem

/-! # Values in a block started at another timestep -/

namespace Verif
open Verif.Expr Verif.OptCtx Verif.Props

/-- expressions made of things that do not change in time do not change in time -/
theorem mden_steady {M : MCtx} (e : Expr) : (∀ y ∈ e.subs, y.hasComponent = false) →
    (∀ y ∈ e.subs, y.isPortRef = false ∧ (∀ n, y ≠ .var n) ∧ ∀ n, y = .par n → (M.D.pidx M.comp n).time = false) →
    ∀ t t' s, mden M e t s = mden M e t' s := by
  induction e using Expr.ind with
  | lit v => intro _ _ t t' s; cases v <;> simp [mden]
  | var n => intro _ h; exact absurd rfl ((h _ (mem_subs_self _)).2.1 n)
  | par n =>
    intro _ h t t' s
    have := (h _ (mem_subs_self _)).2.2 n rfl
    simp [mden, atT, this]
  | portField p f => intro _ h; have := (h _ (mem_subs_self _)).1; simp [isPortRef] at this
  | agg e a _ => intro _ h; have := (h _ (mem_subs_self _)).1; simp [isPortRef] at this
  | cmp l r c _ _ => intro _ _ t t' s; simp [mden]
  | cvar c n => intro h; exact absurd (h _ (mem_subs_self _)) (by simp [hasComponent])
  | cpar c n => intro h; exact absurd (h _ (mem_subs_self _)) (by simp [hasComponent])
  | pvar c n ti si => intro h; exact absurd (h _ (mem_subs_self _)) (by simp [hasComponent])
  | ppar c n ti si => intro h; exact absurd (h _ (mem_subs_self _)) (by simp [hasComponent])
  | add es ih =>
    intro h h2 t t' s
    rw [mden_add, mden_add]
    congr 1
    exact List.map_congr_left fun x hx => ih x hx (fun y hy => h y (mem_subs_add.2 (.inr ⟨x, hx, hy⟩)))
      (fun y hy => h2 y (mem_subs_add.2 (.inr ⟨x, hx, hy⟩))) t t' s
  | neg e ih =>
    intro h h2 t t' s
    simp only [mden, ih (fun y hy => h y (by simp [subs, hy])) (fun y hy => h2 y (by simp [subs, hy])) t t' s]
  | mul l r ihl ihr =>
    intro h h2 t t' s
    simp only [mden, ihl (fun y hy => h y (by simp [subs, hy])) (fun y hy => h2 y (by simp [subs, hy])) t t' s,
      ihr (fun y hy => h y (by simp [subs, hy])) (fun y hy => h2 y (by simp [subs, hy])) t t' s]
  | div l r ihl ihr =>
    intro h h2 t t' s
    simp only [mden, ihl (fun y hy => h y (by simp [subs, hy])) (fun y hy => h2 y (by simp [subs, hy])) t t' s,
      ihr (fun y hy => h y (by simp [subs, hy])) (fun y hy => h2 y (by simp [subs, hy])) t t' s]
  | shift e k ih _ =>
    intro h h2 t t' s
    simp only [mden]
    exact ih (fun y hy => h y (by simp [subs, hy])) (fun y hy => h2 y (by simp [subs, hy])) _ _ s
  | evalT e k _ _ => intro _ _ t t' s; simp only [mden]
  | tsum e a b ih _ _ =>
    intro h h2 t t' s
    simp only [mden]
    exact Finset.sum_congr rfl fun k _ => ih (fun y hy => h y (by simp [subs, hy])) (fun y hy => h2 y (by simp [subs, hy])) _ _ s
  | allsum e _ => intro _ _ t t' s; simp only [mden]
  | scen e o ih =>
    intro h h2 t t' s
    simp only [mden]
    congr 1
    exact Finset.sum_congr rfl fun w _ => ih (fun y hy => h y (by simp [subs, hy])) (fun y hy => h2 y (by simp [subs, hy])) t t' _

/-- expressions are periodic when symbols and what ports receive are -/
theorem mden_periodic {M : MCtx} {T : Int}
    (hv : ∀ n t s, mden M (.var n) (t + T) s = mden M (.var n) t s)
    (hp : ∀ n t s, mden M (.par n) (t + T) s = mden M (.par n) t s)
    (hports : ∀ p f, ∀ v ∈ M.ports p f, ∀ t s, v (t + T) s = v t s)
    (e : Expr) : (∀ y ∈ e.subs, y.hasComponent = false) → ∀ t s, mden M e (t + T) s = mden M e t s := by
  induction e using Expr.ind with
  | lit v => intro _ t s; cases v <;> simp [mden]
  | var n => intro _; exact hv n
  | par n => intro _; exact hp n
  | portField p f =>
    intro _ t s
    have := hports p f
    simp only [mden]
    generalize M.ports p f = l at this
    rcases l with _ | ⟨a, _ | ⟨b, l⟩⟩
    · rfl
    · exact this a (by simp) t s
    · rfl
  | agg e a _ =>
    intro _ t s
    cases e with
    | portField p f =>
      simp only [mden]
      congr 1
      exact List.map_congr_left fun v hv => hports p f v hv t s
    | _ => simp [mden]
  | cmp l r c _ _ => intro _ t s; simp [mden]
  | cvar c n => intro h; exact absurd (h _ (mem_subs_self _)) (by simp [hasComponent])
  | cpar c n => intro h; exact absurd (h _ (mem_subs_self _)) (by simp [hasComponent])
  | pvar c n ti si => intro h; exact absurd (h _ (mem_subs_self _)) (by simp [hasComponent])
  | ppar c n ti si => intro h; exact absurd (h _ (mem_subs_self _)) (by simp [hasComponent])
  | add es ih =>
    intro h t s
    rw [mden_add, mden_add]
    congr 1
    exact List.map_congr_left fun x hx => ih x hx (fun y hy => h y (mem_subs_add.2 (.inr ⟨x, hx, hy⟩))) t s
  | neg e ih => intro h t s; simp only [mden, ih (fun y hy => h y (by simp [subs, hy]))]
  | mul l r ihl ihr =>
    intro h t s
    simp only [mden, ihl (fun y hy => h y (by simp [subs, hy])), ihr (fun y hy => h y (by simp [subs, hy]))]
  | div l r ihl ihr =>
    intro h t s
    simp only [mden, ihl (fun y hy => h y (by simp [subs, hy])), ihr (fun y hy => h y (by simp [subs, hy]))]
  | shift e k ih _ =>
    intro h t s
    simp only [mden]
    rw [add_right_comm]
    exact ih (fun y hy => h y (by simp [subs, hy])) _ _
  | evalT e k _ _ => intro _ t s; simp only [mden]
  | tsum e a b ih _ _ =>
    intro h t s
    simp only [mden]
    refine Finset.sum_congr rfl fun k _ => ?_
    rw [add_right_comm]
    exact ih (fun y hy => h y (by simp [subs, hy])) _ _
  | allsum e _ => intro _ t s; simp only [mden]
  | scen e o ih =>
    intro h t s
    simp only [mden]
    congr 1
    exact Finset.sum_congr rfl fun w _ => ih (fun y hy => h y (by simp [subs, hy])) _ _

/-- the sum over a period does not depend on where it starts -/
theorem sum_period {T : Nat} {f : Int → ℚ} (hf : ∀ t, f (t + T) = f t) (r : Int) :
    ∑ u ∈ Finset.range T, f ((u : Int) + r) = ∑ u ∈ Finset.range T, f u := by
  have step : ∀ r : Int, ∑ u ∈ Finset.range T, f ((u : Int) + (r + 1)) = ∑ u ∈ Finset.range T, f ((u : Int) + r) := by
    intro r
    have h1 := Finset.sum_range_succ' (fun u : Nat => f ((u : Int) + r)) T
    have h2 := Finset.sum_range_succ (fun u : Nat => f ((u : Int) + r)) T
    rw [h2] at h1
    have h3 : f ((T : Int) + r) = f ((0 : Nat) + r) := by
      rw [add_comm, hf]
      simp
    rw [h3] at h1
    have h4 := add_right_cancel h1
    rw [h4]
    refine Finset.sum_congr rfl fun u _ => ?_
    congr 1
    push_cast
    ring
  induction r using Int.induction_on with
  | zero => simp
  | succ n ih => rw [step, ih]
  | pred n ih =>
    rw [← ih, ← step]
    refine Finset.sum_congr rfl fun u _ => ?_
    congr 1
    ring

/-- expressions that single out no timestep are read `r` timesteps later when symbols and what ports receive are -/
theorem mden_later {M M' : MCtx} {r : Int} (hT : M'.D.T = M.D.T) (hS : M'.D.S = M.D.S)
    (hv : ∀ n t s, mden M' (.var n) t s = mden M (.var n) (t + r) s)
    (hp : ∀ n t s, 0 ≤ s ∧ s < (M.D.S : Int) → mden M' (.par n) t s = mden M (.par n) (t + r) s)
    (hports : ∀ p f t s, 0 ≤ s ∧ s < (M.D.S : Int) → ((M'.ports p f).map fun v => v t s) = ((M.ports p f).map fun v => v (t + r) s))
    (e : Expr) : (∀ y ∈ e.subs, y.hasComponent = false) → (∀ y k, Expr.evalT y k ∉ e.subs) →
    (∀ y k, Expr.shift y k ∈ e.subs → ∀ t, mden M k t 0 = mden M k 0 0) →
    (∀ y a b, Expr.tsum y a b ∈ e.subs → (∀ t, mden M a t 0 = mden M a 0 0) ∧ ∀ t, mden M b t 0 = mden M b 0 0) →
    (∀ y, Expr.allsum y ∈ e.subs → ∀ t s, mden M y (t + M.D.T) s = mden M y t s) →
    ∀ t s, 0 ≤ s ∧ s < (M.D.S : Int) → mden M' e t s = mden M e (t + r) s := by
  induction e using Expr.ind with
  | lit v => intro _ _ _ _ _ t s _; cases v <;> simp [mden]
  | var n => intro _ _ _ _ _ t s _; exact hv n t s
  | par n => intro _ _ _ _ _ t s hs; exact hp n t s hs
  | portField p f =>
    intro _ _ _ _ _ t s hs
    have := hports p f t s hs
    simp only [mden]
    generalize M.ports p f = l at this
    generalize M'.ports p f = l' at this
    rcases l with _ | ⟨a, _ | ⟨b, l⟩⟩ <;> rcases l' with _ | ⟨a', _ | ⟨b', l'⟩⟩ <;> simp_all
  | agg e a _ =>
    intro _ _ _ _ _ t s hs
    cases e with
    | portField p f => simp only [mden, hports p f t s hs]
    | _ => simp [mden]
  | cmp l r c _ _ => intro _ _ _ _ _ t s _; simp [mden]
  | cvar c n => intro h; exact absurd (h _ (mem_subs_self _)) (by simp [hasComponent])
  | cpar c n => intro h; exact absurd (h _ (mem_subs_self _)) (by simp [hasComponent])
  | pvar c n ti si => intro h; exact absurd (h _ (mem_subs_self _)) (by simp [hasComponent])
  | ppar c n ti si => intro h; exact absurd (h _ (mem_subs_self _)) (by simp [hasComponent])
  | add es ih =>
    intro h h1 h2 h3 h4 t s hs
    rw [mden_add, mden_add]
    congr 1
    exact List.map_congr_left fun x hx => ih x hx (fun y hy => h y (mem_subs_add.2 (.inr ⟨x, hx, hy⟩)))
      (fun y k hy => h1 y k (mem_subs_add.2 (.inr ⟨x, hx, hy⟩))) (fun y k hy => h2 y k (mem_subs_add.2 (.inr ⟨x, hx, hy⟩)))
      (fun y a b hy => h3 y a b (mem_subs_add.2 (.inr ⟨x, hx, hy⟩))) (fun y hy => h4 y (mem_subs_add.2 (.inr ⟨x, hx, hy⟩))) t s hs
  | neg e ih =>
    intro h h1 h2 h3 h4 t s hs
    simp only [mden, ih (fun y hy => h y (by simp [subs, hy])) (fun y k hy => h1 y k (by simp [subs, hy])) (fun y k hy => h2 y k (by simp [subs, hy]))
      (fun y a b hy => h3 y a b (by simp [subs, hy])) (fun y hy => h4 y (by simp [subs, hy])) t s hs]
  | mul l r ihl ihr =>
    intro h h1 h2 h3 h4 t s hs
    simp only [mden, ihl (fun y hy => h y (by simp [subs, hy])) (fun y k hy => h1 y k (by simp [subs, hy])) (fun y k hy => h2 y k (by simp [subs, hy]))
      (fun y a b hy => h3 y a b (by simp [subs, hy])) (fun y hy => h4 y (by simp [subs, hy])) t s hs,
      ihr (fun y hy => h y (by simp [subs, hy])) (fun y k hy => h1 y k (by simp [subs, hy])) (fun y k hy => h2 y k (by simp [subs, hy]))
      (fun y a b hy => h3 y a b (by simp [subs, hy])) (fun y hy => h4 y (by simp [subs, hy])) t s hs]
  | div l r ihl ihr =>
    intro h h1 h2 h3 h4 t s hs
    simp only [mden, ihl (fun y hy => h y (by simp [subs, hy])) (fun y k hy => h1 y k (by simp [subs, hy])) (fun y k hy => h2 y k (by simp [subs, hy]))
      (fun y a b hy => h3 y a b (by simp [subs, hy])) (fun y hy => h4 y (by simp [subs, hy])) t s hs,
      ihr (fun y hy => h y (by simp [subs, hy])) (fun y k hy => h1 y k (by simp [subs, hy])) (fun y k hy => h2 y k (by simp [subs, hy]))
      (fun y a b hy => h3 y a b (by simp [subs, hy])) (fun y hy => h4 y (by simp [subs, hy])) t s hs]
  | shift e k ih ihk =>
    intro h h1 h2 h3 h4 t s hs
    simp only [mden]
    rw [ihk (fun y hy => h y (by simp [subs, hy])) (fun y k hy => h1 y k (by simp [subs, hy])) (fun y k hy => h2 y k (by simp [subs, hy]))
      (fun y a b hy => h3 y a b (by simp [subs, hy])) (fun y hy => h4 y (by simp [subs, hy])) 0 0 ⟨le_rfl, lt_of_le_of_lt hs.1 hs.2⟩, h2 _ _ (mem_subs_self _),
      ih (fun y hy => h y (by simp [subs, hy])) (fun y k hy => h1 y k (by simp [subs, hy])) (fun y k hy => h2 y k (by simp [subs, hy]))
      (fun y a b hy => h3 y a b (by simp [subs, hy])) (fun y hy => h4 y (by simp [subs, hy])) _ s hs, add_right_comm]
  | evalT e k _ _ => intro _ h1; exact absurd (mem_subs_self _) (h1 _ _)
  | tsum e a b ih iha ihb =>
    intro h h1 h2 h3 h4 t s hs
    simp only [mden]
    rw [iha (fun y hy => h y (by simp [subs, hy])) (fun y k hy => h1 y k (by simp [subs, hy])) (fun y k hy => h2 y k (by simp [subs, hy]))
      (fun y a b hy => h3 y a b (by simp [subs, hy])) (fun y hy => h4 y (by simp [subs, hy])) 0 0 ⟨le_rfl, lt_of_le_of_lt hs.1 hs.2⟩, (h3 _ _ _ (mem_subs_self _)).1,
      ihb (fun y hy => h y (by simp [subs, hy])) (fun y k hy => h1 y k (by simp [subs, hy])) (fun y k hy => h2 y k (by simp [subs, hy]))
      (fun y a b hy => h3 y a b (by simp [subs, hy])) (fun y hy => h4 y (by simp [subs, hy])) 0 0 ⟨le_rfl, lt_of_le_of_lt hs.1 hs.2⟩, (h3 _ _ _ (mem_subs_self _)).2]
    refine Finset.sum_congr rfl fun k _ => ?_
    rw [ih (fun y hy => h y (by simp [subs, hy])) (fun y k hy => h1 y k (by simp [subs, hy])) (fun y k hy => h2 y k (by simp [subs, hy]))
      (fun y a b hy => h3 y a b (by simp [subs, hy])) (fun y hy => h4 y (by simp [subs, hy])) _ s hs, add_right_comm]
  | allsum e ih =>
    intro h h1 h2 h3 h4 t s hs
    have he := fun y (hy : y ∈ e.subs) => h y (by simp [subs, hy])
    simp only [mden, hT, ih he (fun y k hy => h1 y k (by simp [subs, hy])) (fun y k hy => h2 y k (by simp [subs, hy]))
      (fun y a b hy => h3 y a b (by simp [subs, hy])) (fun y hy => h4 y (by simp [subs, hy])) _ s hs]
    exact sum_period (f := fun u => mden M e u s) (fun t => h4 e (mem_subs_self _) t s) r
  | scen e o ih =>
    intro h h1 h2 h3 h4 t s _
    simp only [mden, hS]
    congr 1
    exact Finset.sum_congr rfl fun w hw => ih (fun y hy => h y (by simp [subs, hy])) (fun y k hy => h1 y k (by simp [subs, hy]))
      (fun y k hy => h2 y k (by simp [subs, hy])) (fun y a b hy => h3 y a b (by simp [subs, hy])) (fun y hy => h4 y (by simp [subs, hy])) _ _ ⟨by positivity, by exact_mod_cast Finset.mem_range.1 hw⟩

/-- an expression that does not depend on time has the same value at all timesteps -/
theorem mden_depends {M : MCtx} {d : SymbolDep} (hv : ∀ n, (d.var n).time = false → ∀ t t' s, mden M (.var n) t s = mden M (.var n) t' s)
    (hp : ∀ n, (d.par n).time = false → ∀ t t' s, mden M (.par n) t s = mden M (.par n) t' s)
    (hports : ∀ p f, (d.port p f).time = false → ∀ v ∈ M.ports p f, ∀ t t' s, v t s = v t' s)
    (e : Expr) : (∀ y ∈ e.subs, y.hasComponent = false) → (depends d e).time = false → ∀ t t' s, mden M e t s = mden M e t' s := by
  induction e using Expr.ind with
  | lit v => intro _ _ t t' s; cases v <;> simp [mden]
  | var n => intro _ h; exact hv n h
  | par n => intro _ h; exact hp n h
  | portField p f =>
    intro _ h t t' s
    have := hports p f h
    simp only [mden]
    generalize M.ports p f = l at this
    rcases l with _ | ⟨a, _ | ⟨b, l⟩⟩
    · rfl
    · exact this a (by simp) t t' s
    · rfl
  | agg e a _ =>
    intro _ h t t' s
    cases e with
    | portField p f =>
      simp only [mden]
      congr 1
      exact List.map_congr_left fun v hv => hports p f h v hv t t' s
    | _ => simp [mden]
  | cmp l r c _ _ => intro _ _ t t' s; simp [mden]
  | cvar c n => intro h; exact absurd (h _ (mem_subs_self _)) (by simp [hasComponent])
  | cpar c n => intro h; exact absurd (h _ (mem_subs_self _)) (by simp [hasComponent])
  | pvar c n ti si => intro h; exact absurd (h _ (mem_subs_self _)) (by simp [hasComponent])
  | ppar c n ti si => intro h; exact absurd (h _ (mem_subs_self _)) (by simp [hasComponent])
  | add es ih =>
    intro h h2 t t' s
    rw [mden_add, mden_add]
    congr 1
    refine List.map_congr_left fun x hx => ih x hx (fun y hy => h y (mem_subs_add.2 (.inr ⟨x, hx, hy⟩))) ?_ t t' s
    rw [depends_add] at h2
    simp only [Idx.all, List.any_map, List.any_eq_false] at h2
    simpa using h2 x hx
  | neg e ih => intro h h2 t t' s; simp only [mden, ih (fun y hy => h y (by simp [subs, hy])) h2 t t' s]
  | mul l r ihl ihr =>
    intro h h2 t t' s
    simp only [depends, Idx.both, Bool.or_eq_false_iff] at h2
    simp only [mden, ihl (fun y hy => h y (by simp [subs, hy])) h2.1 t t' s, ihr (fun y hy => h y (by simp [subs, hy])) h2.2 t t' s]
  | div l r ihl ihr =>
    intro h h2 t t' s
    simp only [depends, Idx.both, Bool.or_eq_false_iff] at h2
    simp only [mden, ihl (fun y hy => h y (by simp [subs, hy])) h2.1 t t' s, ihr (fun y hy => h y (by simp [subs, hy])) h2.2 t t' s]
  | shift e k ih _ =>
    intro h h2 t t' s
    simp only [mden]
    exact ih (fun y hy => h y (by simp [subs, hy])) h2 _ _ s
  | evalT e k _ _ => intro _ _ t t' s; simp only [mden]
  | tsum e a b ih _ _ =>
    intro h h2 t t' s
    simp only [mden]
    exact Finset.sum_congr rfl fun k _ => ih (fun y hy => h y (by simp [subs, hy])) h2 _ _ s
  | allsum e _ => intro _ _ t t' s; simp only [mden]
  | scen e o ih =>
    intro h h2 t t' s
    simp only [mden]
    congr 1
    exact Finset.sum_congr rfl fun w _ => ih (fun y hy => h y (by simp [subs, hy])) h2 t t' _

namespace OptCtx
variable {x x' : OptCtx} {r : Int}

theorem blockTime_periodic (x : OptCtx) (t : Int) : x.blockTime (t + x.T) = x.blockTime t := by
  unfold OptCtx.blockTime
  rw [Int.add_emod_right]

/-- readings without ports are periodic -/
theorem symbols_periodic (x : OptCtx) (σ : TermKey → ℚ) (id : String) (P : String → String → List (Int → Int → ℚ)) (n : String) (t s : Int) :
    mden (componentCtx (x.reading σ) id P) (.var n) (t + x.T) s = mden (componentCtx (x.reading σ) id P) (.var n) t s ∧
    mden (componentCtx (x.reading σ) id P) (.par n) (t + x.T) s = mden (componentCtx (x.reading σ) id P) (.par n) t s := by
  constructor
  · show σ ⟨id, n, (atT (x.varIdx id n) (t + x.T)).map (· % (x.T : Int)), _⟩ = σ ⟨id, n, (atT (x.varIdx id n) t).map (· % (x.T : Int)), _⟩
    unfold atT
    split_ifs
    · simp only [Option.map_some, Int.add_emod_right]
    · rfl
  · show x.dataValue id n (atT (x.parIdx id n) (t + x.T)) _ = x.dataValue id n (atT (x.parIdx id n) t) _
    unfold atT OptCtx.dataValue
    split_ifs
    · simp only [Option.map_some, blockTime_periodic]
    · rfl

theorem attached_value {D : DenCtx} {cs : List PortsConnection} {id p f : String} {v : Int → Int → ℚ} (h : v ∈ attached D cs id p f) :
    ∃ k ∈ cs, v = k.value D f ∧ k.hasField f ∧
      ((k.port1.component.id = id ∧ k.port1.portId = p) ∨ (k.port2.component.id = id ∧ k.port2.portId = p)) := by
  unfold attached at h
  rw [List.mem_flatMap] at h
  obtain ⟨k, hk, hv⟩ := h
  unfold PortsConnection.brings at hv
  split_ifs at hv <;> simp at hv <;> exact ⟨k, hk, by tauto, by assumption, by tauto⟩

/-- what the connections bring is periodic -/
theorem value_periodic (hn : x.NetworkOk) (σ : TermKey → ℚ) {k : PortsConnection} (hk : k ∈ x.network.connections) (f : String) (t s : Int) :
    k.value (x.reading σ) f (t + x.T) s = k.value (x.reading σ) f t s := by
  have side : ∀ (q : PortRef) d, (q = k.port1 ∨ q = k.port2) → q.fieldDef f = some d →
      mden (componentCtx (x.reading σ) q.component.id noPorts) d (t + x.T) s = mden (componentCtx (x.reading σ) q.component.id noPorts) d t s := by
    intro q d hq hd
    exact mden_periodic (fun n t s => (symbols_periodic x σ _ _ n t s).1) (fun n t s => (symbols_periodic x σ _ _ n t s).2)
      (fun p f v hv => by cases hv) d (fun y hy => ((hn.clean k hk q f d hq hd).1 y hy).2.2) t s
  unfold PortsConnection.value
  cases z1 : k.port1.fieldDef f with
  | some d => exact side _ _ (.inl rfl) z1
  | none =>
    cases z2 : k.port2.fieldDef f with
    | some d => exact side _ _ (.inr rfl) z2
    | none => rfl

/-- the value of an expression in a cyclic block is periodic -/
theorem read_periodic (hn : x.NetworkOk) (σ : TermKey → ℚ) (c : Component) {e : Expr} (he : ∀ y ∈ e.subs, y.hasComponent = false) (t s : Int) :
    mden (x.readIn σ c) e (t + x.T) s = mden (x.readIn σ c) e t s := by
  refine mden_periodic (fun n t s => (symbols_periodic x σ _ _ n t s).1) (fun n t s => (symbols_periodic x σ _ _ n t s).2) ?_ e he t s
  intro p f v hv t s
  obtain ⟨k, hk, rfl, -⟩ := attached_value hv
  exact value_periodic hn σ hk f t s

/-- `σ'` are the values `σ`, read `r` timesteps later -/
def LaterBy (r : Int) (x : OptCtx) (σ σ' : TermKey → ℚ) : Prop :=
  ∀ c n s, σ' ⟨c, n, none, s⟩ = σ ⟨c, n, none, s⟩ ∧ ∀ t : Int, σ' ⟨c, n, some (t % x.T), s⟩ = σ ⟨c, n, some ((t + r) % x.T), s⟩

namespace Rotated
variable {σ σ' : TermKey → ℚ}

theorem T_eq (h : x.Rotated r x') : x'.T = x.T := h.length

theorem varIdx (h : x.Rotated r x') (c n : String) : x'.varIdx c n = x.varIdx c n := by
  unfold OptCtx.varIdx
  rw [h.network]

theorem parIdx (h : x.Rotated r x') (c n : String) : x'.parIdx c n = x.parIdx c n := by
  unfold OptCtx.parIdx
  rw [h.network]

/-- symbols are read later -/
theorem symbol (h : x.Rotated r x') (ha : x.LaterBy r σ σ') {c : Component} (hc : c ∈ x.network.allComponents)
    {P P' : String → String → List (Int → Int → ℚ)} (n : String) (t s : Int) :
    mden (componentCtx (x'.reading σ') c.id P') (.var n) t s = mden (componentCtx (x.reading σ) c.id P) (.var n) (t + r) s ∧
    (0 ≤ s ∧ s < (x.scenarios : Int) → mden (componentCtx (x'.reading σ') c.id P') (.par n) t s = mden (componentCtx (x.reading σ) c.id P) (.par n) (t + r) s) := by
  refine ⟨?_, fun hs => h.data c hc n t s hs.1 hs.2⟩
  show σ' ⟨c.id, n, (atT (x'.varIdx c.id n) t).map (· % (x'.T : Int)), atS (x'.varIdx c.id n) s⟩ =
    σ ⟨c.id, n, (atT (x.varIdx c.id n) (t + r)).map (· % (x.T : Int)), atS (x.varIdx c.id n) s⟩
  rw [h.varIdx, h.T_eq]
  unfold atT
  split_ifs
  · exact (ha c.id n _).2 t
  · exact (ha c.id n _).1

/-- expressions whose timesteps are not singled out are read later, if what the ports receive is -/
theorem expr (h : x.Rotated r x') (ha : x.LaterBy r σ σ') {c : Component} (hc : c ∈ x.network.allComponents)
    {P P' : String → String → List (Int → Int → ℚ)}
    (hP : ∀ p f t s, 0 ≤ s ∧ s < (x.scenarios : Int) → ((P' p f).map fun v => v t s) = ((P p f).map fun v => v (t + r) s))
    (hper : ∀ p f, ∀ v ∈ P p f, ∀ t s, v (t + x.T) s = v t s)
    {e : Expr} (he : ∀ y ∈ e.subs, y.hasComponent = false) (hk : x.NoClock c.id e) (t s : Int) (hs : 0 ≤ s ∧ s < (x.scenarios : Int)) :
    mden (componentCtx (x'.reading σ') c.id P') e t s = mden (componentCtx (x.reading σ) c.id P) e (t + r) s := by
  have amount : ∀ k, (∀ z ∈ k.subs, z ∈ e.subs) → x.Steady c.id k → ∀ t, mden (componentCtx (x.reading σ) c.id P) k t 0 =
      mden (componentCtx (x.reading σ) c.id P) k 0 0 := fun k hin hst t => mden_steady (M := componentCtx (x.reading σ) c.id P) k (fun y hy => he y (hin y hy)) hst t 0 0
  refine mden_later (M := componentCtx (x.reading σ) c.id P) (M' := componentCtx (x'.reading σ') c.id P') h.T_eq h.scenarios
    (fun n t s => (h.symbol ha hc n t s).1) (fun n t s => (h.symbol ha hc n t s).2) hP e he hk.fixed ?_ ?_ ?_ t s hs
  · intro y k hy
    exact amount k (fun z hz => subs_trans hy (by simp [subs, hz])) (hk.shifts y k hy)
  · intro y a b hy
    exact ⟨amount a (fun z hz => subs_trans hy (by simp [subs, hz])) (hk.sums y a b hy).1,
      amount b (fun z hz => subs_trans hy (by simp [subs, hz])) (hk.sums y a b hy).2⟩
  · intro y hy
    exact mden_periodic (fun n t s => (symbols_periodic x σ _ _ n t s).1) (fun n t s => (symbols_periodic x σ _ _ n t s).2) hper y
      fun z hz => he z (subs_trans hy (by simp [subs, hz]))

theorem value (h : x.Rotated r x') (hn : x.NetworkOk) (hcl : x.Closed) (hck : x.Clockless) (ha : x.LaterBy r σ σ')
    {k : PortsConnection} (hk : k ∈ x.network.connections) (f : String) (t s : Int) (hs : 0 ≤ s ∧ s < (x.scenarios : Int)) :
    k.value (x'.reading σ') f t s = k.value (x.reading σ) f (t + r) s := by
  have side : ∀ (q : PortRef) d, (q = k.port1 ∨ q = k.port2) → q.fieldDef f = some d → q.component ∈ x.network.allComponents →
      mden (componentCtx (x'.reading σ') q.component.id noPorts) d t s = mden (componentCtx (x.reading σ) q.component.id noPorts) d (t + r) s := by
    intro q d hq hd hm
    exact h.expr ha hm (fun _ _ _ _ _ => rfl) (fun _ _ _ hv => by cases hv)
      (fun y hy => ((hn.clean k hk q f d hq hd).1 y hy).2.2) (hck.ports k hk q f d hq hd) t s hs
  unfold PortsConnection.value
  cases z1 : k.port1.fieldDef f with
  | some d => exact side _ _ (.inl rfl) z1 (hcl k hk).1
  | none =>
    cases z2 : k.port2.fieldDef f with
    | some d => exact side _ _ (.inr rfl) z2 (hcl k hk).2
    | none => rfl

/-- expressions of components are read later -/
theorem read (h : x.Rotated r x') (hn : x.NetworkOk) (hcl : x.Closed) (hck : x.Clockless) (ha : x.LaterBy r σ σ')
    {c : Component} (hc : c ∈ x.network.allComponents) {e : Expr} (he : ∀ y ∈ e.subs, y.hasComponent = false) (hk : x.NoClock c.id e)
    (t s : Int) (hs : 0 ≤ s ∧ s < (x.scenarios : Int)) : mden (x'.readIn σ' c) e t s = mden (x.readIn σ c) e (t + r) s := by
  refine h.expr ha hc ?_ ?_ he hk t s hs
  · intro p f t s hs
    rw [h.network]
    unfold attached
    rw [List.map_flatMap, List.map_flatMap]
    refine List.flatMap_congr fun k hk => ?_
    have := h.value hn hcl hck ha hk f t s hs
    unfold PortsConnection.brings
    split_ifs <;> simp [this]
  · intro p f v hv t s
    obtain ⟨k, hk, rfl, -⟩ := attached_value hv
    exact value_periodic hn σ hk f t s

end Rotated

/-- something periodic is true at all timesteps of a period if and only if it is true at all timesteps of the period started later -/
theorem periodic_all {T : Nat} {A : Int → Prop} (hA : ∀ t, A (t + T) ↔ A t) (r : Int) :
    (∀ t : Nat, t < T → A (t + r)) ↔ ∀ t : Nat, t < T → A t := by
  rcases Nat.eq_zero_or_pos T with rfl | hT
  · simp
  have hall : ∀ r : Int, (∀ t : Nat, t < T → A (t + r)) → ∀ t : Int, A t := by
    intro r h t
    have hmul : ∀ (n : Nat) (t : Int), A (t + T * n) ↔ A t := by
      intro n
      induction n with
      | zero => intro t; simp
      | succ n ih => intro t; rw [← ih t, ← hA (t + T * n)]; congr! 1; push_cast; ring
    have hmulz : ∀ (n : Int) (t : Int), A (t + T * n) ↔ A t := by
      intro n t
      rcases Int.eq_nat_or_neg n with ⟨m, rfl | rfl⟩
      · exact hmul m t
      · rw [← hmul m]
        congr! 1
        ring
    have h0 := Int.emod_nonneg (t - r) (by omega : (T : Int) ≠ 0)
    have h1 := Int.emod_lt_of_pos (t - r) (by omega : (0 : Int) < T)
    have h2 := Int.emod_add_mul_ediv (t - r) T
    have := h ((t - r) % T).toNat (by omega)
    rw [Int.toNat_of_nonneg h0] at this
    rw [← hmulz ((t - r) / T)] at this
    have e : (t - r) % T + r + T * ((t - r) / T) = t := by linarith
    rwa [e] at this
  exact ⟨fun h t _ => hall r h t, fun h t _ => hall 0 (fun t ht => by simpa using h t ht) _⟩

theorem aboveBound_read {M M' : MCtx} {b : Expr} {q q' : ℚ} {t t' s s' : Int} (h : mden M b t s = mden M' b t' s') (hq : q = q') :
    aboveBound M b q t s ↔ aboveBound M' b q' t' s' := by
  subst hq
  unfold aboveBound
  split <;> first | rfl | rw [h]

theorem belowBound_read {M M' : MCtx} {b : Expr} {q q' : ℚ} {t t' s s' : Int} (h : mden M b t s = mden M' b t' s') (hq : q = q') :
    belowBound M b q t s ↔ belowBound M' b q' t' s' := by
  subst hq
  unfold belowBound
  split <;> first | rfl | rw [h]

/-- the value of a variable at any timestep of the cyclic block -/
def valueAt (x : OptCtx) (σ : TermKey → ℚ) (c : Component) (v : Variable) (t s : Int) : ℚ :=
  σ ⟨c.id, v.name, (atT v.structure_ t).map (· % (x.T : Int)), atS v.structure_ s⟩

/-- what component `c` requires of the values at `(t, s)` -/
def SatisfiedAt (x : OptCtx) (σ : TermKey → ℚ) (c : Component) (t s : Int) : Prop :=
  (∀ v ∈ x.strategy.getVariables c.model, aboveOpt (x.readIn σ c) v.lowerBound (x.valueAt σ c v t s) t s ∧
    belowOpt (x.readIn σ c) v.upperBound (x.valueAt σ c v t s) t s ∧ ofType v.dataType (x.valueAt σ c v t s)) ∧
  ∀ k ∈ x.strategy.getConstraints c.model, k.Holds (x.readIn σ c) t s

theorem satisfied_iff {σ : TermKey → ℚ} {c : Component} :
    x.Satisfied σ c ↔ ∀ s t : Nat, s < x.scenarios → t < x.T → x.SatisfiedAt σ c t s := by
  have e : ∀ (v : Variable) (t s : Nat), t < x.T → x.valueAt σ c v t s = σ (instanceAt c v t s) := by
    intro v t s ht
    unfold valueAt instanceAt atT
    split_ifs
    · rw [Option.map_some, Int.emod_eq_of_lt (by positivity) (by exact_mod_cast ht)]
    · rfl
  unfold OptCtx.Satisfied SatisfiedAt
  constructor
  · intro h s t hs ht
    simp only [e _ t s ht]
    exact h t s ht hs
  · intro h t s ht hs
    have := h s t hs ht
    simp only [e _ t s ht] at this
    exact this

/-- what makes the requirements of a component the same at two places -/
theorem satisfiedAt_congr {σ σ' : TermKey → ℚ} {c : Component} {t t' s s' : Int} (hst : x'.strategy = x.strategy)
    (hv : ∀ v ∈ x.strategy.getVariables c.model, x'.valueAt σ' c v t s = x.valueAt σ c v t' s')
    (hb : ∀ v ∈ x.strategy.getVariables c.model, ∀ b, v.lowerBound = some b ∨ v.upperBound = some b →
      mden (x'.readIn σ' c) b t s = mden (x.readIn σ c) b t' s')
    (hk : ∀ k ∈ x.strategy.getConstraints c.model, ∀ e, e = k.expression ∨ e = k.lowerBound ∨ e = k.upperBound →
      mden (x'.readIn σ' c) e t s = mden (x.readIn σ c) e t' s') :
    x'.SatisfiedAt σ' c t s ↔ x.SatisfiedAt σ c t' s' := by
  unfold SatisfiedAt
  rw [hst]
  refine and_congr ?_ ?_
  · refine forall_congr' fun v => forall_congr' fun hvm => ?_
    rw [hv v hvm]
    refine and_congr ?_ (and_congr ?_ Iff.rfl)
    · unfold aboveOpt
      cases hl : v.lowerBound with
      | none => rfl
      | some b => exact aboveBound_read (hb v hvm b (.inl hl)) rfl
    · unfold belowOpt
      cases hl : v.upperBound with
      | none => rfl
      | some b => exact belowBound_read (hb v hvm b (.inr hl)) rfl
  · refine forall_congr' fun k => forall_congr' fun hkm => ?_
    have hb := hk k hkm
    unfold Constraint.Holds
    exact and_congr (aboveBound_read (hb _ (.inr (.inl rfl))) (hb _ (.inl rfl))) (belowBound_read (hb _ (.inr (.inr rfl))) (hb _ (.inl rfl)))

/-- the value of an expression that does not depend on time is the same at all timesteps -/
theorem dependence_valueAs (hn : x.NetworkOk) (var : String → String → Option Int → Option Int → ℚ) {c : Component} {e : Expr}
    (he : ∀ y ∈ e.subs, y.hasComponent = false) (h : (x.dependence c e).time = false) (t t' s : Int) :
    mden (x.readAs (x.unwrapped var) c) e t s = mden (x.readAs (x.unwrapped var) c) e t' s := by
  have sym : ∀ (id : String) (P : String → String → List (Int → Int → ℚ)) (Q : String → String → Idx),
      (∀ n, ((x.symbols id Q).var n).time = false → ∀ t t' s, mden (componentCtx (x.unwrapped var) id P) (.var n) t s = mden (componentCtx (x.unwrapped var) id P) (.var n) t' s) ∧
      ∀ n, ((x.symbols id Q).par n).time = false → ∀ t t' s, mden (componentCtx (x.unwrapped var) id P) (.par n) t s = mden (componentCtx (x.unwrapped var) id P) (.par n) t' s := by
    intro id P Q
    constructor
    · intro n h t t' s
      have h' : (x.varIdx id n).time = false := h
      show var _ _ (atT (x.varIdx id n) t) _ = var _ _ (atT (x.varIdx id n) t') _
      simp [atT, h']
    · intro n h t t' s
      have h' : (x.parIdx id n).time = false := h
      show x.dataValue _ _ (atT (x.parIdx id n) t) _ = x.dataValue _ _ (atT (x.parIdx id n) t') _
      simp [atT, h']
  refine mden_depends (sym _ _ _).1 (sym _ _ _).2 ?_ e he h t t' s
  intro p f hp v hv t t' s
  obtain ⟨k, hk, rfl, hf, hend⟩ := attached_value hv
  have hd : (x.fieldDepends k f).time = false := by
    have hp' : (x.portDepends c.id p f).time = false := hp
    unfold OptCtx.portDepends Idx.all at hp'
    simp only [List.any_eq_false, List.mem_flatMap] at hp'
    have := hp' (x.fieldDepends k f) ⟨k, hk, ?_⟩
    · simpa using this
    · unfold OptCtx.bringsDep
      rw [if_pos hf]
      rcases hend with hend | hend <;> simp [hend]
  have side : ∀ (q : PortRef) d, (q = k.port1 ∨ q = k.port2) → q.fieldDef f = some d →
      (depends (x.symbols q.component.id fun _ _ => ⟨false, false⟩) d).time = false →
      mden (componentCtx (x.unwrapped var) q.component.id noPorts) d t s = mden (componentCtx (x.unwrapped var) q.component.id noPorts) d t' s := by
    intro q d hq hd hdep
    exact mden_depends (sym _ _ _).1 (sym _ _ _).2 (fun _ _ _ _ hv => by cases hv) d
      (fun y hy => ((hn.clean k hk q f d hq hd).1 y hy).2.2) hdep t t' s
  unfold OptCtx.fieldDepends at hd
  unfold PortsConnection.value
  cases z1 : k.port1.fieldDef f with
  | some d => rw [z1] at hd; exact side _ _ (.inl rfl) z1 hd
  | none =>
    rw [z1] at hd
    cases z2 : k.port2.fieldDef f with
    | some d => rw [z2] at hd; exact side _ _ (.inr rfl) z2 hd
    | none => rfl

theorem dependence_value (hn : x.NetworkOk) (σ : TermKey → ℚ) {c : Component} {e : Expr}
    (he : ∀ y ∈ e.subs, y.hasComponent = false) (h : (x.dependence c e).time = false) (t t' s : Int) :
    mden (x.readIn σ c) e t s = mden (x.readIn σ c) e t' s := dependence_valueAs hn _ he h t t' s

namespace Rotated
variable {σ σ' : TermKey → ℚ}

theorem satisfied (h : x.Rotated r x') (hn : x.NetworkOk) (hcl : x.Closed) (ho : x.OwnSymbols) (hck : x.Clockless) (ha : x.LaterBy r σ σ')
    {c : Component} (hc : c ∈ x.network.allComponents) : x'.Satisfied σ' c ↔ x.Satisfied σ c := by
  rw [satisfied_iff, satisfied_iff, h.T_eq, h.scenarios]
  have hval : ∀ (v : Variable) (t s : Int), x'.valueAt σ' c v t s = x.valueAt σ c v (t + r) s := by
    intro v t s
    unfold valueAt
    rw [h.T_eq]
    unfold atT
    split_ifs
    · exact (ha c.id v.name _).2 t
    · exact (ha c.id v.name _).1
  have hat : ∀ (s : Nat), s < x.scenarios → ∀ t : Int, x'.SatisfiedAt σ' c t s ↔ x.SatisfiedAt σ c (t + r) s := by
    intro s hs t
    refine satisfiedAt_congr h.strategy (fun v _ => hval v t s) ?_ ?_
    · intro v hv b hb
      exact h.read hn hcl hck ha hc (ho.bounds c hc v hv b hb) (hck.bounds c hc v hv b hb) t s ⟨by positivity, by exact_mod_cast hs⟩
    · intro k hk e he
      exact h.read hn hcl hck ha hc (ho.constraints c hc k hk e he) (hck.constraints c hc k hk e he) t s ⟨by positivity, by exact_mod_cast hs⟩
  have hper : ∀ (s : Nat) (t : Int), x.SatisfiedAt σ c (t + x.T) s ↔ x.SatisfiedAt σ c t s := by
    intro s t
    refine satisfiedAt_congr rfl ?_ ?_ ?_
    · intro v _
      unfold valueAt atT
      split_ifs
      · simp only [Option.map_some, Int.add_emod_right]
      · rfl
    · intro v hv b hb
      exact read_periodic hn σ c (ho.bounds c hc v hv b hb) t s
    · intro k hk e he
      exact read_periodic hn σ c (ho.constraints c hc k hk e he) t s
  refine forall_congr' fun s => ?_
  constructor
  · intro g t hs ht
    exact (periodic_all (A := fun t => x.SatisfiedAt σ c t s) (hper s) r).1 (fun t ht => (hat s hs t).1 (g t hs ht)) t ht
  · intro g t hs ht
    exact (hat s hs t).2 ((periodic_all (A := fun t => x.SatisfiedAt σ c t s) (hper s) r).2 (fun t ht => g t hs ht) t ht)

theorem costOf (h : x.Rotated r x') (h0 : 0 < x.scenarios) (hn : x.NetworkOk) (hcl : x.Closed) (ho : x.OwnSymbols) (hck : x.Clockless) (ha : x.LaterBy r σ σ')
    {c : Component} (hc : c ∈ x.network.allComponents) : x'.costOf σ' c = x.costOf σ c := by
  have e : x'.contributions c = x.contributions c := by
    unfold OptCtx.contributions
    rw [h.strategy, h.risk]
  unfold OptCtx.costOf
  rw [e]
  congr 1
  refine List.map_congr_left fun e he => ?_
  obtain ⟨h1, h2⟩ := hck.objectives c hc e he
  have hs := ho.objectives c hc e he
  rw [h.read hn hcl hck ha hc hs h1 0 0 ⟨le_rfl, by exact_mod_cast h0⟩]
  exact dependence_value hn σ hs h2 _ _ _

end Rotated
end OptCtx
end Verif
