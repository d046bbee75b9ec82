import Verif.Spec.StepsAny
import Verif.Lemmas.Rotated
import Mathlib.Algebra.BigOperators.Field

/-! # Values in a block and at one of its timesteps alone -/

namespace Verif
open Verif.Expr Verif.OptCtx Verif.Props

/-- expressions about one timestep are read at timestep 0 of `M'` as at timestep `k` of `M`, when symbols and what ports receive are -/
theorem mden_instant {M M' : MCtx} {k : Int} (hS : M'.D.S = M.D.S) (e : Expr) :
    (∀ n, .var n ∈ e.subs → ∀ s, mden M' (.var n) 0 s = mden M (.var n) k s) →
    (∀ n s, 0 ≤ s ∧ s < (M.D.S : Int) → mden M' (.par n) 0 s = mden M (.par n) k s) →
    (∀ p f s, 0 ≤ s ∧ s < (M.D.S : Int) → ((M'.ports p f).map fun v => v 0 s) = ((M.ports p f).map fun v => v k s)) →
    (∀ y ∈ e.subs, y.hasComponent = false) → (∀ y ∈ e.subs, y.isTimeOp = false) →
    ∀ s, 0 ≤ s ∧ s < (M.D.S : Int) → mden M' e 0 s = mden M e k s := by
  induction e using Expr.ind with
  | lit v => intro _ _ _ _ _ s _; cases v <;> simp [mden]
  | var n => intro hv _ _ _ _ s _; exact hv n (mem_subs_self _) s
  | par n => intro _ hp _ _ _ s hs; exact hp n s hs
  | portField p f =>
    intro _ _ hports _ _ s hs
    have := hports p f s hs
    simp only [mden]
    generalize M.ports p f = l at this
    generalize M'.ports p f = l' at this
    rcases l with _ | ⟨a, _ | ⟨b, l⟩⟩ <;> rcases l' with _ | ⟨a', _ | ⟨b', l'⟩⟩ <;> simp_all
  | agg e a _ =>
    intro _ _ hports _ _ s hs
    cases e with
    | portField p f => simp only [mden, hports p f s hs]
    | _ => simp [mden]
  | cmp l r c _ _ => intro _ _ _ _ _ s _; simp [mden]
  | cvar c n => intro _ _ _ h; exact absurd (h _ (mem_subs_self _)) (by simp [hasComponent])
  | cpar c n => intro _ _ _ h; exact absurd (h _ (mem_subs_self _)) (by simp [hasComponent])
  | pvar c n ti si => intro _ _ _ h; exact absurd (h _ (mem_subs_self _)) (by simp [hasComponent])
  | ppar c n ti si => intro _ _ _ h; exact absurd (h _ (mem_subs_self _)) (by simp [hasComponent])
  | add es ih =>
    intro hv hp hports h h1 s hs
    rw [mden_add, mden_add]
    congr 1
    exact List.map_congr_left fun x hx => ih x hx (fun n hn => hv n (mem_subs_add.2 (.inr ⟨x, hx, hn⟩))) hp hports
      (fun y hy => h y (mem_subs_add.2 (.inr ⟨x, hx, hy⟩))) (fun y hy => h1 y (mem_subs_add.2 (.inr ⟨x, hx, hy⟩))) s hs
  | neg e ih =>
    intro hv hp hports h h1 s hs
    simp only [mden, ih (fun n hn => hv n (by simp [subs, hn])) hp hports (fun y hy => h y (by simp [subs, hy])) (fun y hy => h1 y (by simp [subs, hy])) s hs]
  | mul l r ihl ihr =>
    intro hv hp hports h h1 s hs
    simp only [mden, ihl (fun n hn => hv n (by simp [subs, hn])) hp hports (fun y hy => h y (by simp [subs, hy])) (fun y hy => h1 y (by simp [subs, hy])) s hs,
      ihr (fun n hn => hv n (by simp [subs, hn])) hp hports (fun y hy => h y (by simp [subs, hy])) (fun y hy => h1 y (by simp [subs, hy])) s hs]
  | div l r ihl ihr =>
    intro hv hp hports h h1 s hs
    simp only [mden, ihl (fun n hn => hv n (by simp [subs, hn])) hp hports (fun y hy => h y (by simp [subs, hy])) (fun y hy => h1 y (by simp [subs, hy])) s hs,
      ihr (fun n hn => hv n (by simp [subs, hn])) hp hports (fun y hy => h y (by simp [subs, hy])) (fun y hy => h1 y (by simp [subs, hy])) s hs]
  | shift e k _ _ => intro _ _ _ _ h1; exact absurd (h1 _ (mem_subs_self _)) (by simp [isTimeOp])
  | evalT e k _ _ => intro _ _ _ _ h1; exact absurd (h1 _ (mem_subs_self _)) (by simp [isTimeOp])
  | tsum e a b _ _ _ => intro _ _ _ _ h1; exact absurd (h1 _ (mem_subs_self _)) (by simp [isTimeOp])
  | allsum e _ => intro _ _ _ _ h1; exact absurd (h1 _ (mem_subs_self _)) (by simp [isTimeOp])
  | scen e o ih =>
    intro hv hp hports h h1 s _
    simp only [mden, hS]
    congr 1
    exact Finset.sum_congr rfl fun w hw => ih (fun n hn => hv n (by simp [subs, hn])) hp hports (fun y hy => h y (by simp [subs, hy]))
      (fun y hy => h1 y (by simp [subs, hy])) _ ⟨by positivity, by exact_mod_cast Finset.mem_range.1 hw⟩

namespace OptCtx
variable {x x' : OptCtx} {k : Nat}

/-- `σ'` are the values `σ` at timestep `k` -/
def MomentOf (k : Nat) (σ σ' : TermKey → ℚ) : Prop := ∀ c n s, σ' ⟨c, n, some 0, s⟩ = σ ⟨c, n, some (k : Int), s⟩

/-- the same for values at any timestep -/
def MomentVar (k : Nat) (var var' : String → String → Option Int → Option Int → ℚ) : Prop := ∀ c n s, var' c n (some 0) s = var c n (some (k : Int)) s

theorem MomentOf.var {σ σ' : TermKey → ℚ} (h : MomentOf k σ σ') (hk : k < x.T) (hT : x'.T = 1) :
    MomentVar k (fun c v t s => σ ⟨c, v, t.map (· % (x.T : Int)), s⟩) (fun c v t s => σ' ⟨c, v, t.map (· % (x'.T : Int)), s⟩) := by
  intro c n s
  rw [hT]
  simp only [Option.map_some]
  rw [Int.emod_eq_of_lt (a := (k : Int)) (b := (x.T : Int)) (by positivity) (by exact_mod_cast hk)]
  exact h _ _ _

namespace AtStep
variable {σ σ' : TermKey → ℚ} {var var' : String → String → Option Int → Option Int → ℚ}

theorem T_eq (h : x.AtStep k x') : x'.T = 1 := h.length

theorem varIdx (h : x.AtStep k x') (c n : String) : x'.varIdx c n = x.varIdx c n := by
  unfold OptCtx.varIdx
  rw [h.network]

/-- expressions about one timestep are read at this timestep, if what the ports receive is -/
theorem expr (h : x.AtStep k x') (ha : MomentVar k var var') {c : Component} (hc : c ∈ x.network.allComponents)
    {P P' : String → String → List (Int → Int → ℚ)}
    (hP : ∀ p f s, 0 ≤ s ∧ s < (x.scenarios : Int) → ((P' p f).map fun v => v 0 s) = ((P p f).map fun v => v k s))
    {e : Expr} (he : ∀ y ∈ e.subs, y.hasComponent = false) (hi : x.Instant c.id e) (s : Int) (hs : 0 ≤ s ∧ s < (x.scenarios : Int)) :
    mden (componentCtx (x'.unwrapped var') c.id P') e 0 s = mden (componentCtx (x.unwrapped var) c.id P) e k s := by
  refine mden_instant (M := componentCtx (x.unwrapped var) c.id P) (M' := componentCtx (x'.unwrapped var') c.id P') h.scenarios e ?_
    (fun n s hs => h.data c hc n s hs.1 hs.2) hP he hi.operators s hs
  intro n hn s
  show var' c.id n (atT (x'.varIdx c.id n) 0) (atS (x'.varIdx c.id n) s) = var c.id n (atT (x.varIdx c.id n) k) (atS (x.varIdx c.id n) s)
  rw [h.varIdx]
  unfold atT
  rw [if_pos (hi.variables_ n hn), if_pos (hi.variables_ n hn)]
  exact ha _ _ _

theorem value (h : x.AtStep k x') (hn : x.NetworkOk) (hcl : x.Closed) (hu : x.Unlinked) (ha : MomentVar k var var')
    {j : PortsConnection} (hj : j ∈ x.network.connections) (f : String) (s : Int) (hs : 0 ≤ s ∧ s < (x.scenarios : Int)) :
    j.value (x'.unwrapped var') f 0 s = j.value (x.unwrapped var) f k s := by
  have side : ∀ (q : PortRef) d, (q = j.port1 ∨ q = j.port2) → q.fieldDef f = some d → q.component ∈ x.network.allComponents →
      mden (componentCtx (x'.unwrapped var') q.component.id noPorts) d 0 s = mden (componentCtx (x.unwrapped var) q.component.id noPorts) d k s := by
    intro q d hq hd hm
    exact h.expr ha hm (fun _ _ _ _ => rfl) (fun y hy => ((hn.clean j hj q f d hq hd).1 y hy).2.2) (hu.ports j hj q f d hq hd) s hs
  unfold PortsConnection.value
  cases z1 : j.port1.fieldDef f with
  | some d => exact side _ _ (.inl rfl) z1 (hcl j hj).1
  | none =>
    cases z2 : j.port2.fieldDef f with
    | some d => exact side _ _ (.inr rfl) z2 (hcl j hj).2
    | none => rfl

/-- expressions of components about one timestep are read at this timestep -/
theorem readVar (h : x.AtStep k x') (hn : x.NetworkOk) (hcl : x.Closed) (hu : x.Unlinked) (ha : MomentVar k var var')
    {c : Component} (hc : c ∈ x.network.allComponents) {e : Expr} (he : ∀ y ∈ e.subs, y.hasComponent = false) (hi : x.Instant c.id e)
    (s : Int) (hs : 0 ≤ s ∧ s < (x.scenarios : Int)) : mden (x'.readAs (x'.unwrapped var') c) e 0 s = mden (x.readAs (x.unwrapped var) c) e k s := by
  refine h.expr ha hc ?_ he hi s hs
  intro p f s hs
  rw [h.network]
  unfold attached
  rw [List.map_flatMap, List.map_flatMap]
  refine List.flatMap_congr fun j hj => ?_
  have := h.value hn hcl hu ha hj f s hs
  unfold PortsConnection.brings
  split_ifs <;> simp [this]

theorem read (h : x.AtStep k x') (hk : k < x.T) (hn : x.NetworkOk) (hcl : x.Closed) (hu : x.Unlinked) (ha : MomentOf k σ σ')
    {c : Component} (hc : c ∈ x.network.allComponents) {e : Expr} (he : ∀ y ∈ e.subs, y.hasComponent = false) (hi : x.Instant c.id e)
    (s : Int) (hs : 0 ≤ s ∧ s < (x.scenarios : Int)) : mden (x'.readIn σ' c) e 0 s = mden (x.readIn σ c) e k s :=
  h.readVar hn hcl hu (ha.var hk h.T_eq) hc he hi s hs

theorem satisfied (h : x.AtStep k x') (hk : k < x.T) (hn : x.NetworkOk) (hcl : x.Closed) (ho : x.OwnSymbols) (hu : x.Unlinked)
    (ha : MomentOf k σ σ') {c : Component} (hc : c ∈ x.network.allComponents) :
    x'.Satisfied σ' c ↔ ∀ s : Nat, s < x.scenarios → x.SatisfiedAt σ c k s := by
  have hat : ∀ s : Nat, s < x.scenarios → (x'.SatisfiedAt σ' c 0 s ↔ x.SatisfiedAt σ c k s) := by
    intro s hs
    refine satisfiedAt_congr h.strategy ?_ ?_ ?_
    · intro v hv
      unfold valueAt atT
      rw [if_pos (hu.variables_ c hc v hv), if_pos (hu.variables_ c hc v hv), h.T_eq, Option.map_some, Option.map_some,
        Int.emod_eq_of_lt (a := (k : Int)) (b := (x.T : Int)) (by positivity) (by exact_mod_cast hk)]
      exact ha _ _ _
    · intro v hv b hb
      exact h.read hk hn hcl hu ha hc (ho.bounds c hc v hv b hb) (hu.bounds c hc v hv b hb) s ⟨by positivity, by exact_mod_cast hs⟩
    · intro k' hk' e he
      exact h.read hk hn hcl hu ha hc (ho.constraints c hc k' hk' e he) (hu.constraints c hc k' hk' e he) s ⟨by positivity, by exact_mod_cast hs⟩
  rw [satisfied_iff, h.T_eq, h.scenarios]
  refine forall_congr' fun s => ?_
  constructor
  · intro g hs
    exact (hat s hs).1 (g 0 hs Nat.one_pos)
  · intro g t hs ht
    obtain rfl : t = 0 := by omega
    exact (hat s hs).2 (g hs)

end AtStep

/-- the value of a sum over the timesteps is the sum of its values at each timestep alone -/
theorem Summed.valueVar {xs : Nat → OptCtx} {var : String → String → Option Int → Option Int → ℚ}
    {vars : Nat → String → String → Option Int → Option Int → ℚ} (h : ∀ k < x.T, x.AtStep k (xs k))
    (hn : x.NetworkOk) (hcl : x.Closed) (hu : x.Unlinked) (ha : ∀ k < x.T, MomentVar k var (vars k)) {c : Component} (hc : c ∈ x.network.allComponents)
    {e : Expr} (hsum : x.Summed c.id e) : (∀ y ∈ e.subs, y.hasComponent = false) → ∀ s : Int, 0 ≤ s ∧ s < (x.scenarios : Int) →
    mden (x.readAs (x.unwrapped var) c) e 0 s = ∑ k ∈ Finset.range x.T, mden ((xs k).readAs ((xs k).unwrapped (vars k)) c) e 0 s := by
  have steady : ∀ {a : Expr}, x.Instant c.id a → x.Steady c.id a → (∀ y ∈ a.subs, y.hasComponent = false) → ∀ s : Int, 0 ≤ s ∧ s < (x.scenarios : Int) → ∀ k ∈ Finset.range x.T,
      mden ((xs k).readAs ((xs k).unwrapped (vars k)) c) a 0 s = mden (x.readAs (x.unwrapped var) c) a 0 s := by
    intro a hi hst hown s hs k hk
    have hk := Finset.mem_range.1 hk
    rw [(h k hk).readVar hn hcl hu (ha k hk) hc hown hi s hs]
    exact mden_steady (M := x.readAs (x.unwrapped var) c) a hown hst _ _ s
  induction hsum with
  | @block e hi =>
    intro hown s hs
    have hown' : ∀ y ∈ e.subs, y.hasComponent = false := fun y hy => hown y (by simp [subs, hy])
    show ∑ u ∈ Finset.range x.T, mden (x.readAs (x.unwrapped var) c) e u s = _
    refine Finset.sum_congr rfl fun k hk => ?_
    have hk := Finset.mem_range.1 hk
    show _ = ∑ u ∈ Finset.range (xs k).T, mden ((xs k).readAs ((xs k).unwrapped (vars k)) c) e u s
    rw [(h k hk).T_eq, Finset.sum_range_one]
    exact ((h k hk).readVar hn hcl hu (ha k hk) hc hown' hi s hs).symm
  | @add es _ ih =>
    intro hown s hs
    rw [mden_add]
    simp only [mden_add]
    have hown' : ∀ e ∈ es, ∀ y ∈ e.subs, y.hasComponent = false := fun e he y hy => hown y (mem_subs_add.2 (.inr ⟨e, he, hy⟩))
    have swap : ∀ l : List Expr, (∀ e ∈ l, e ∈ es) → (l.map fun e => mden (x.readAs (x.unwrapped var) c) e 0 s).sum =
        ∑ k ∈ Finset.range x.T, (l.map fun e => mden ((xs k).readAs ((xs k).unwrapped (vars k)) c) e 0 s).sum := by
      intro l
      induction l with
      | nil => intro _; simp
      | cons e l ihl =>
        intro hl
        simp only [List.map_cons, List.sum_cons]
        rw [ihl fun e he => hl e (List.mem_cons_of_mem _ he), Finset.sum_add_distrib,
          ih e (hl e List.mem_cons_self) (hown' e (hl e List.mem_cons_self)) s hs]
    exact swap es fun _ he => he
  | neg _ ih =>
    intro hown s hs
    simp only [mden]
    rw [ih (fun y hy => hown y (by simp [subs, hy])) s hs, Finset.sum_neg_distrib]
  | @scen e o _ ih =>
    intro hown s hs
    have hown' : ∀ y ∈ e.subs, y.hasComponent = false := fun y hy => hown y (by simp [subs, hy])
    show (∑ w ∈ Finset.range x.scenarios, mden (x.readAs (x.unwrapped var) c) e 0 w) / x.scenarios =
      ∑ k ∈ Finset.range x.T, (∑ w ∈ Finset.range (xs k).scenarios, mden ((xs k).readAs ((xs k).unwrapped (vars k)) c) e 0 w) / (xs k).scenarios
    have e1 : ∀ k ∈ Finset.range x.T, (∑ w ∈ Finset.range (xs k).scenarios, mden ((xs k).readAs ((xs k).unwrapped (vars k)) c) e 0 w) / ((xs k).scenarios : ℚ) =
        (∑ w ∈ Finset.range x.scenarios, mden ((xs k).readAs ((xs k).unwrapped (vars k)) c) e 0 w) / x.scenarios := by
      intro k hk
      rw [(h k (Finset.mem_range.1 hk)).scenarios]
    rw [Finset.sum_congr rfl e1, ← Finset.sum_div, Finset.sum_comm]
    congr 1
    exact Finset.sum_congr rfl fun w hw => ih hown' w ⟨by positivity, by exact_mod_cast Finset.mem_range.1 hw⟩
  | mulLeft hi hst _ ih =>
    intro hown s hs
    simp only [mden]
    rw [ih (fun y hy => hown y (by simp [subs, hy])) s hs, Finset.mul_sum]
    refine Finset.sum_congr rfl fun k hk => ?_
    rw [steady hi hst (fun y hy => hown y (by simp [subs, hy])) s hs k hk]
  | mulRight hi hst _ ih =>
    intro hown s hs
    simp only [mden]
    rw [ih (fun y hy => hown y (by simp [subs, hy])) s hs, Finset.sum_mul]
    refine Finset.sum_congr rfl fun k hk => ?_
    rw [steady hi hst (fun y hy => hown y (by simp [subs, hy])) s hs k hk]
  | div hi hst _ ih =>
    intro hown s hs
    simp only [mden]
    rw [ih (fun y hy => hown y (by simp [subs, hy])) s hs, Finset.sum_div]
    refine Finset.sum_congr rfl fun k hk => ?_
    rw [steady hi hst (fun y hy => hown y (by simp [subs, hy])) s hs k hk]

theorem Summed.value {xs : Nat → OptCtx} {σ : TermKey → ℚ} {σs : Nat → TermKey → ℚ} (h : ∀ k < x.T, x.AtStep k (xs k))
    (hn : x.NetworkOk) (hcl : x.Closed) (hu : x.Unlinked) (ha : ∀ k < x.T, MomentOf k σ (σs k)) {c : Component} (hc : c ∈ x.network.allComponents)
    {e : Expr} (hsum : x.Summed c.id e) (he : ∀ y ∈ e.subs, y.hasComponent = false) (s : Int) (hs : 0 ≤ s ∧ s < (x.scenarios : Int)) :
    mden (x.readIn σ c) e 0 s = ∑ k ∈ Finset.range x.T, mden ((xs k).readIn (σs k) c) e 0 s :=
  hsum.valueVar (vars := fun k c v t s => σs k ⟨c, v, t.map (· % ((xs k).T : Int)), s⟩) h hn hcl hu
    (fun k hk => (ha k hk).var hk (h k hk).T_eq) hc he s hs

end OptCtx
end Verif
