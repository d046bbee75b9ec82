import Verif.Lemmas.Rearranged

/-!
# Readings up to the order, and components under other names
-/

namespace Verif
open Verif.Expr Verif.OptCtx Verif.Shipped Verif.Props

/-- expressions of a component have the same values when its variables, its parameters and what its ports receive have, up to the order -/
theorem mden_congr_perm {M M' : MCtx} {P : Int → Prop} (hP : ∀ s, 0 ≤ s → P s) (hT : M.D.T = M'.D.T) (hS : M.D.S = M'.D.S)
    (hv : ∀ n t s, mden M (.var n) t s = mden M' (.var n) t s)
    (hp : ∀ n t s, P s → mden M (.par n) t s = mden M' (.par n) t s)
    (hports : ∀ p f t s, P s → ((M.ports p f).map fun v => v t s).Perm ((M'.ports p f).map fun v => v t s))
    (e : Expr) : (∀ y ∈ e.subs, y.hasComponent = false) → ∀ t s, P s → mden M e t s = mden M' e t s := by
  induction e using Expr.ind with
  | lit v => intro _ t s _; cases v <;> simp [mden]
  | var n => intro _ t s _; exact hv n t s
  | par n => intro _ t s hs; exact hp n t s hs
  | portField p f =>
    intro _ t s hs
    have := hports p f t s hs
    simp only [mden]
    generalize M.ports p f = l at this
    generalize M'.ports p f = l' at this
    have hlen := this.length_eq
    rcases l with _ | ⟨a, _ | ⟨b, l⟩⟩ <;> rcases l' with _ | ⟨a', _ | ⟨b', l'⟩⟩ <;> simp_all
  | agg e a _ =>
    intro _ t s hs
    cases e with
    | portField p f => simp only [mden, (hports p f t s hs).sum_eq]
    | _ => simp [mden]
  | cmp l r c _ _ => intro _ t s _; simp [mden]
  | cvar c n => intro h; exact absurd (h _ (mem_subs_self _)) (by simp [hasComponent])
  | cpar c n => intro h; exact absurd (h _ (mem_subs_self _)) (by simp [hasComponent])
  | pvar c n ti si => intro h; exact absurd (h _ (mem_subs_self _)) (by simp [hasComponent])
  | ppar c n ti si => intro h; exact absurd (h _ (mem_subs_self _)) (by simp [hasComponent])
  | add es ih =>
    intro h t s hs
    rw [mden_add, mden_add]
    congr 1
    exact List.map_congr_left fun x hx => ih x hx (fun y hy => h y (mem_subs_add.2 (.inr ⟨x, hx, hy⟩))) t s hs
  | neg e ih => intro h t s hs; simp only [mden, ih (fun y hy => h y (by simp [subs, hy])) _ _ hs]
  | mul l r ihl ihr =>
    intro h t s hs
    simp only [mden, ihl (fun y hy => h y (by simp [subs, hy])) _ _ hs, ihr (fun y hy => h y (by simp [subs, hy])) _ _ hs]
  | div l r ihl ihr =>
    intro h t s hs
    simp only [mden, ihl (fun y hy => h y (by simp [subs, hy])) _ _ hs, ihr (fun y hy => h y (by simp [subs, hy])) _ _ hs]
  | shift e k ih ihk =>
    intro h t s hs
    simp only [mden, ih (fun y hy => h y (by simp [subs, hy])) _ _ hs, ihk (fun y hy => h y (by simp [subs, hy])) _ _ (hP 0 le_rfl)]
  | evalT e k ih ihk =>
    intro h t s hs
    simp only [mden, ih (fun y hy => h y (by simp [subs, hy])) _ _ hs, ihk (fun y hy => h y (by simp [subs, hy])) _ _ (hP 0 le_rfl)]
  | tsum e a b ih iha ihb =>
    intro h t s hs
    simp only [mden, ih (fun y hy => h y (by simp [subs, hy])) _ _ hs, iha (fun y hy => h y (by simp [subs, hy])) _ _ (hP 0 le_rfl),
      ihb (fun y hy => h y (by simp [subs, hy])) _ _ (hP 0 le_rfl)]
  | allsum e ih => intro h t s hs; simp only [mden, hT, ih (fun y hy => h y (by simp [subs, hy])) _ _ hs]
  | scen e o ih =>
    intro h t s hs
    simp only [mden, hS]
    congr 1
    exact Finset.sum_congr rfl fun w _ => ih (fun y hy => h y (by simp [subs, hy])) _ _ (hP _ (by positivity))

theorem shippedModels_unique {ref : String} {m m' : Model} {r r' : Rules} (h : (ref, m, r) ∈ shippedModels) (h' : (ref, m', r') ∈ shippedModels) :
    m = m' := by
  have nd : (shippedModels.map (·.1)).Nodup := by decide +kernel
  have := List.inj_on_of_nodup_map nd h h' rfl
  simp only [Prod.mk.injEq, true_and] at this
  exact this.1

/-- the same component under another name -/
structure Twin (ρ : String → String) (c c' : Component) : Prop where
  id : c'.id = ρ c.id
  model : c'.model = c.model

namespace StudyInput.Part

variable {ρ : String → String} {I I' : StudyInput} {net net' : Network} {db db' : DataBase}

theorem twin (h : Part ρ I I') (hs : I.Sound) (hs' : I'.Sound) (hl : I.Linked net) (hl' : I'.Linked net') {ic : InputComponent} (hic : ic ∈ I.declared)
    {c c' : Component} (hc : net.getComponent ic.id = .ok c) (hc' : net'.getComponent (ρ ic.id) = .ok c') : Twin ρ c c' := by
  obtain ⟨-, e1, ic1, -, -, f1, r1, m1⟩ := hl.of_getComponent hs hc
  obtain ⟨-, e2, ic2, -, -, f2, r2, m2⟩ := hl'.of_getComponent hs' hc'
  obtain ⟨g1, ic', g2, e⟩ := h.component? hs hs'.ids hic
  rw [g1] at f1
  rw [g2] at f2
  cases f1
  cases f2
  refine ⟨by rw [e1, e2], ?_⟩
  rw [e.model] at m2
  exact shippedModels_unique m2 m1

end StudyInput.Part

end Verif
