import Verif.Spec.ScenariosAny
import Verif.Lemmas.Rotated
import Mathlib.Algebra.BigOperators.Field

/-! # Values in several scenarios and in one of them alone -/

namespace Verif
open Verif.Expr Verif.OptCtx Verif.Props

/-- expressions made of things that are the same in all scenarios are the same in all scenarios -/
theorem mden_certain {M : MCtx} (e : Expr) : (∀ y ∈ e.subs, y.hasComponent = false) →
    (∀ y ∈ e.subs, y.isPortRef = false ∧ (∀ n, y = .var n → (M.D.vidx M.comp n).scenario = false) ∧ ∀ n, y = .par n → (M.D.pidx M.comp n).scenario = false) →
    ∀ t s s', mden M e t s = mden M e t s' := by
  induction e using Expr.ind with
  | lit v => intro _ _ t s s'; cases v <;> simp [mden]
  | var n =>
    intro _ h t s s'
    have := (h _ (mem_subs_self _)).2.1 n rfl
    simp [mden, atS, this]
  | par n =>
    intro _ h t s s'
    have := (h _ (mem_subs_self _)).2.2 n rfl
    simp [mden, atS, this]
  | portField p f => intro _ h; have := (h _ (mem_subs_self _)).1; simp [isPortRef] at this
  | agg e a _ => intro _ h; have := (h _ (mem_subs_self _)).1; simp [isPortRef] at this
  | cmp l r c _ _ => intro _ _ t s s'; simp [mden]
  | cvar c n => intro h; exact absurd (h _ (mem_subs_self _)) (by simp [hasComponent])
  | cpar c n => intro h; exact absurd (h _ (mem_subs_self _)) (by simp [hasComponent])
  | pvar c n ti si => intro h; exact absurd (h _ (mem_subs_self _)) (by simp [hasComponent])
  | ppar c n ti si => intro h; exact absurd (h _ (mem_subs_self _)) (by simp [hasComponent])
  | add es ih =>
    intro h h2 t s s'
    rw [mden_add, mden_add]
    congr 1
    exact List.map_congr_left fun x hx => ih x hx (fun y hy => h y (mem_subs_add.2 (.inr ⟨x, hx, hy⟩)))
      (fun y hy => h2 y (mem_subs_add.2 (.inr ⟨x, hx, hy⟩))) t s s'
  | neg e ih =>
    intro h h2 t s s'
    simp only [mden, ih (fun y hy => h y (by simp [subs, hy])) (fun y hy => h2 y (by simp [subs, hy])) t s s']
  | mul l r ihl ihr =>
    intro h h2 t s s'
    simp only [mden, ihl (fun y hy => h y (by simp [subs, hy])) (fun y hy => h2 y (by simp [subs, hy])) t s s',
      ihr (fun y hy => h y (by simp [subs, hy])) (fun y hy => h2 y (by simp [subs, hy])) t s s']
  | div l r ihl ihr =>
    intro h h2 t s s'
    simp only [mden, ihl (fun y hy => h y (by simp [subs, hy])) (fun y hy => h2 y (by simp [subs, hy])) t s s',
      ihr (fun y hy => h y (by simp [subs, hy])) (fun y hy => h2 y (by simp [subs, hy])) t s s']
  | shift e k ih _ =>
    intro h h2 t s s'
    simp only [mden]
    exact ih (fun y hy => h y (by simp [subs, hy])) (fun y hy => h2 y (by simp [subs, hy])) _ s s'
  | evalT e k ih _ =>
    intro h h2 t s s'
    simp only [mden]
    exact ih (fun y hy => h y (by simp [subs, hy])) (fun y hy => h2 y (by simp [subs, hy])) _ s s'
  | tsum e a b ih _ _ =>
    intro h h2 t s s'
    simp only [mden]
    exact Finset.sum_congr rfl fun k _ => ih (fun y hy => h y (by simp [subs, hy])) (fun y hy => h2 y (by simp [subs, hy])) _ s s'
  | allsum e ih =>
    intro h h2 t s s'
    simp only [mden]
    exact Finset.sum_congr rfl fun k _ => ih (fun y hy => h y (by simp [subs, hy])) (fun y hy => h2 y (by simp [subs, hy])) _ s s'
  | scen e o _ => intro _ _ t s s'; simp only [mden]

theorem mden_sure {M : MCtx} (e : Expr) (h : ∀ y ∈ e.subs, y.hasComponent = false)
    (h2 : ∀ y ∈ e.subs, y.isPortRef = false ∧ (∀ n, y ≠ .var n) ∧ ∀ n, y = .par n → (M.D.pidx M.comp n).scenario = false) (t s s' : Int) :
    mden M e t s = mden M e t s' :=
  mden_certain e h (fun y hy => ⟨(h2 y hy).1, fun n q => absurd q ((h2 y hy).2.1 n), (h2 y hy).2.2⟩) t s s'

/-- expressions about one scenario are read in scenario 0 of `M'` as in scenario `k` of `M`, when symbols and what ports receive are -/
theorem mden_perScenario {M M' : MCtx} {k : Int} (hT : M'.D.T = M.D.T) (e : Expr) :
    (∀ n, .var n ∈ e.subs → ∀ t, mden M' (.var n) t 0 = mden M (.var n) t k) →
    (∀ n t, mden M' (.par n) t 0 = mden M (.par n) t k) →
    (∀ p f t, ((M'.ports p f).map fun v => v t 0) = ((M.ports p f).map fun v => v t k)) →
    (∀ y ∈ e.subs, y.hasComponent = false) → (∀ y ∈ e.subs, y.isScen = false) →
    (∀ y j, Expr.shift y j ∈ e.subs → mden M j 0 k = mden M j 0 0) →
    (∀ y j, Expr.evalT y j ∈ e.subs → mden M j 0 k = mden M j 0 0) →
    (∀ y a b, Expr.tsum y a b ∈ e.subs → mden M a 0 k = mden M a 0 0 ∧ mden M b 0 k = mden M b 0 0) →
    ∀ t, mden M' e t 0 = mden M e t k := by
  induction e using Expr.ind with
  | lit v => intro _ _ _ _ _ _ _ _ t; cases v <;> simp [mden]
  | var n => intro hv _ _ _ _ _ _ _ t; exact hv n (mem_subs_self _) t
  | par n => intro _ hp _ _ _ _ _ _ t; exact hp n t
  | portField p f =>
    intro _ _ hports _ _ _ _ _ t
    have := hports p f t
    simp only [mden]
    generalize M.ports p f = l at this
    generalize M'.ports p f = l' at this
    rcases l with _ | ⟨a, _ | ⟨b, l⟩⟩ <;> rcases l' with _ | ⟨a', _ | ⟨b', l'⟩⟩ <;> simp_all
  | agg e a _ =>
    intro _ _ hports _ _ _ _ _ t
    cases e with
    | portField p f => simp only [mden, hports p f t]
    | _ => simp [mden]
  | cmp l r c _ _ => intro _ _ _ _ _ _ _ _ t; simp [mden]
  | cvar c n => intro _ _ _ h; exact absurd (h _ (mem_subs_self _)) (by simp [hasComponent])
  | cpar c n => intro _ _ _ h; exact absurd (h _ (mem_subs_self _)) (by simp [hasComponent])
  | pvar c n ti si => intro _ _ _ h; exact absurd (h _ (mem_subs_self _)) (by simp [hasComponent])
  | ppar c n ti si => intro _ _ _ h; exact absurd (h _ (mem_subs_self _)) (by simp [hasComponent])
  | add es ih =>
    intro hv hp hports h h1 h2 h3 h4 t
    rw [mden_add, mden_add]
    congr 1
    exact List.map_congr_left fun x hx => ih x hx (fun n hn => hv n (mem_subs_add.2 (.inr ⟨x, hx, hn⟩))) hp hports
      (fun y hy => h y (mem_subs_add.2 (.inr ⟨x, hx, hy⟩))) (fun y hy => h1 y (mem_subs_add.2 (.inr ⟨x, hx, hy⟩)))
      (fun y j hy => h2 y j (mem_subs_add.2 (.inr ⟨x, hx, hy⟩))) (fun y j hy => h3 y j (mem_subs_add.2 (.inr ⟨x, hx, hy⟩)))
      (fun y a b hy => h4 y a b (mem_subs_add.2 (.inr ⟨x, hx, hy⟩))) t
  | neg e ih =>
    intro hv hp hports h h1 h2 h3 h4 t
    simp only [mden, ih (fun n hn => hv n (by simp [subs, hn])) hp hports (fun y hy => h y (by simp [subs, hy])) (fun y hy => h1 y (by simp [subs, hy])) (fun y j hy => h2 y j (by simp [subs, hy])) (fun y j hy => h3 y j (by simp [subs, hy])) (fun y a b hy => h4 y a b (by simp [subs, hy])) t]
  | mul l r ihl ihr =>
    intro hv hp hports h h1 h2 h3 h4 t
    simp only [mden, ihl (fun n hn => hv n (by simp [subs, hn])) hp hports (fun y hy => h y (by simp [subs, hy])) (fun y hy => h1 y (by simp [subs, hy])) (fun y j hy => h2 y j (by simp [subs, hy])) (fun y j hy => h3 y j (by simp [subs, hy])) (fun y a b hy => h4 y a b (by simp [subs, hy])) t,
      ihr (fun n hn => hv n (by simp [subs, hn])) hp hports (fun y hy => h y (by simp [subs, hy])) (fun y hy => h1 y (by simp [subs, hy])) (fun y j hy => h2 y j (by simp [subs, hy])) (fun y j hy => h3 y j (by simp [subs, hy])) (fun y a b hy => h4 y a b (by simp [subs, hy])) t]
  | div l r ihl ihr =>
    intro hv hp hports h h1 h2 h3 h4 t
    simp only [mden, ihl (fun n hn => hv n (by simp [subs, hn])) hp hports (fun y hy => h y (by simp [subs, hy])) (fun y hy => h1 y (by simp [subs, hy])) (fun y j hy => h2 y j (by simp [subs, hy])) (fun y j hy => h3 y j (by simp [subs, hy])) (fun y a b hy => h4 y a b (by simp [subs, hy])) t,
      ihr (fun n hn => hv n (by simp [subs, hn])) hp hports (fun y hy => h y (by simp [subs, hy])) (fun y hy => h1 y (by simp [subs, hy])) (fun y j hy => h2 y j (by simp [subs, hy])) (fun y j hy => h3 y j (by simp [subs, hy])) (fun y a b hy => h4 y a b (by simp [subs, hy])) t]
  | shift e j ih ihj =>
    intro hv hp hports h h1 h2 h3 h4 t
    simp only [mden]
    rw [ihj (fun n hn => hv n (by simp [subs, hn])) hp hports (fun y hy => h y (by simp [subs, hy])) (fun y hy => h1 y (by simp [subs, hy])) (fun y j hy => h2 y j (by simp [subs, hy])) (fun y j hy => h3 y j (by simp [subs, hy])) (fun y a b hy => h4 y a b (by simp [subs, hy])) 0,
      h2 _ _ (mem_subs_self _), ih (fun n hn => hv n (by simp [subs, hn])) hp hports (fun y hy => h y (by simp [subs, hy])) (fun y hy => h1 y (by simp [subs, hy])) (fun y j hy => h2 y j (by simp [subs, hy])) (fun y j hy => h3 y j (by simp [subs, hy])) (fun y a b hy => h4 y a b (by simp [subs, hy]))]
  | evalT e j ih ihj =>
    intro hv hp hports h h1 h2 h3 h4 t
    simp only [mden]
    rw [ihj (fun n hn => hv n (by simp [subs, hn])) hp hports (fun y hy => h y (by simp [subs, hy])) (fun y hy => h1 y (by simp [subs, hy])) (fun y j hy => h2 y j (by simp [subs, hy])) (fun y j hy => h3 y j (by simp [subs, hy])) (fun y a b hy => h4 y a b (by simp [subs, hy])) 0,
      h3 _ _ (mem_subs_self _), ih (fun n hn => hv n (by simp [subs, hn])) hp hports (fun y hy => h y (by simp [subs, hy])) (fun y hy => h1 y (by simp [subs, hy])) (fun y j hy => h2 y j (by simp [subs, hy])) (fun y j hy => h3 y j (by simp [subs, hy])) (fun y a b hy => h4 y a b (by simp [subs, hy]))]
  | tsum e a b ih iha ihb =>
    intro hv hp hports h h1 h2 h3 h4 t
    simp only [mden]
    rw [iha (fun n hn => hv n (by simp [subs, hn])) hp hports (fun y hy => h y (by simp [subs, hy])) (fun y hy => h1 y (by simp [subs, hy])) (fun y j hy => h2 y j (by simp [subs, hy])) (fun y j hy => h3 y j (by simp [subs, hy])) (fun y a b hy => h4 y a b (by simp [subs, hy])) 0, (h4 _ _ _ (mem_subs_self _)).1,
      ihb (fun n hn => hv n (by simp [subs, hn])) hp hports (fun y hy => h y (by simp [subs, hy])) (fun y hy => h1 y (by simp [subs, hy])) (fun y j hy => h2 y j (by simp [subs, hy])) (fun y j hy => h3 y j (by simp [subs, hy])) (fun y a b hy => h4 y a b (by simp [subs, hy])) 0, (h4 _ _ _ (mem_subs_self _)).2]
    exact Finset.sum_congr rfl fun j _ => ih (fun n hn => hv n (by simp [subs, hn])) hp hports (fun y hy => h y (by simp [subs, hy])) (fun y hy => h1 y (by simp [subs, hy])) (fun y j hy => h2 y j (by simp [subs, hy])) (fun y j hy => h3 y j (by simp [subs, hy])) (fun y a b hy => h4 y a b (by simp [subs, hy])) _
  | allsum e ih =>
    intro hv hp hports h h1 h2 h3 h4 t
    simp only [mden, hT]
    exact Finset.sum_congr rfl fun j _ => ih (fun n hn => hv n (by simp [subs, hn])) hp hports (fun y hy => h y (by simp [subs, hy])) (fun y hy => h1 y (by simp [subs, hy])) (fun y j hy => h2 y j (by simp [subs, hy])) (fun y j hy => h3 y j (by simp [subs, hy])) (fun y a b hy => h4 y a b (by simp [subs, hy])) _
  | scen e o _ => intro _ _ _ _ h1; exact absurd (h1 _ (mem_subs_self _)) (by simp [isScen])

namespace OptCtx
variable {x x' : OptCtx} {k : Nat}

/-- a scenario index, for what depends on the scenario -/
def scenIf (b : Bool) (s : Int) : Option Int := if b then some s else none

/-- `σ'` are the values `σ` in scenario `k`, for variables whose dependence on the scenario satisfies `A` -/
def SeenIn (A : Bool → Prop) (k : Nat) (σ σ' : TermKey → ℚ) : Prop :=
  ∀ c n t b, A b → σ' ⟨c, n, t, scenIf b 0⟩ = σ ⟨c, n, t, scenIf b k⟩

/-- the same for values at any timestep -/
def SeenVar (A : Bool → Prop) (k : Nat) (var var' : String → String → Option Int → Option Int → ℚ) : Prop :=
  ∀ c n t b, A b → var' c n t (scenIf b 0) = var c n t (scenIf b k)

theorem SeenIn.var {A : Bool → Prop} {σ σ' : TermKey → ℚ} (h : SeenIn A k σ σ') (hT : x'.T = x.T) :
    SeenVar A k (fun c v t s => σ ⟨c, v, t.map (· % (x.T : Int)), s⟩) (fun c v t s => σ' ⟨c, v, t.map (· % (x'.T : Int)), s⟩) := by
  intro c n t b hb
  rw [hT]
  exact h _ _ _ _ hb

/-- the variables of the study depend on the scenario as `A` says -/
structure VarsAre (x : OptCtx) (A : Bool → Prop) : Prop where
  selected : ∀ c ∈ x.network.allComponents, ∀ v ∈ x.strategy.getVariables c.model, A v.structure_.scenario
  named : ∀ c ∈ x.network.allComponents, ∀ e, x.ExprOf c e → ∀ n, .var n ∈ e.subs → A (x.varIdx c.id n).scenario

namespace InScenario
variable {A : Bool → Prop} {σ σ' : TermKey → ℚ} {var var' : String → String → Option Int → Option Int → ℚ}

theorem T_eq (h : x.InScenario k x') : x'.T = x.T := h.length

theorem varIdx (h : x.InScenario k x') (c n : String) : x'.varIdx c n = x.varIdx c n := by
  unfold OptCtx.varIdx
  rw [h.network]

/-- expressions about one scenario are read in this scenario, if what the ports receive is -/
theorem expr (h : x.InScenario k x') (ha : SeenVar A k var var') {c : Component} (hc : c ∈ x.network.allComponents)
    {P P' : String → String → List (Int → Int → ℚ)}
    (hP : ∀ p f t, ((P' p f).map fun v => v t 0) = ((P p f).map fun v => v t k))
    {e : Expr} (hv : ∀ n, .var n ∈ e.subs → A (x.varIdx c.id n).scenario) (he : ∀ y ∈ e.subs, y.hasComponent = false)
    (hi : x.PerScenario c.id e) (t : Int) :
    mden (componentCtx (x'.unwrapped var') c.id P') e t 0 = mden (componentCtx (x.unwrapped var) c.id P) e t k := by
  have amount : ∀ j, (∀ z ∈ j.subs, z ∈ e.subs) → x.Sure c.id j → mden (componentCtx (x.unwrapped var) c.id P) j 0 k =
      mden (componentCtx (x.unwrapped var) c.id P) j 0 0 :=
    fun j hin hst => mden_sure (M := componentCtx (x.unwrapped var) c.id P) j (fun y hy => he y (hin y hy)) hst 0 _ _
  refine mden_perScenario (M := componentCtx (x.unwrapped var) c.id P) (M' := componentCtx (x'.unwrapped var') c.id P') h.T_eq e ?_
    (fun n t => h.data c hc n t) hP he hi.operators ?_ ?_ ?_ t
  · intro n hn t
    show var' c.id n (atT (x'.varIdx c.id n) t) (scenIf (x'.varIdx c.id n).scenario 0) = var c.id n (atT (x.varIdx c.id n) t) (scenIf (x.varIdx c.id n).scenario k)
    rw [h.varIdx]
    exact ha _ _ _ _ (hv n hn)
  · exact fun y j hy => amount j (fun z hz => subs_trans hy (by simp [subs, hz])) (hi.shifts y j hy)
  · exact fun y j hy => amount j (fun z hz => subs_trans hy (by simp [subs, hz])) (hi.fixed y j hy)
  · exact fun y a b hy => ⟨amount a (fun z hz => subs_trans hy (by simp [subs, hz])) (hi.sums y a b hy).1,
      amount b (fun z hz => subs_trans hy (by simp [subs, hz])) (hi.sums y a b hy).2⟩

theorem value (h : x.InScenario k x') (hn : x.NetworkOk) (hcl : x.Closed) (hu : x.Separate) (hA : x.VarsAre A) (ha : SeenVar A k var var')
    {j : PortsConnection} (hj : j ∈ x.network.connections) (f : String) (t : Int) :
    j.value (x'.unwrapped var') f t 0 = j.value (x.unwrapped var) f t k := by
  have side : ∀ (q : PortRef) d, (q = j.port1 ∨ q = j.port2) → q.fieldDef f = some d → q.component ∈ x.network.allComponents →
      mden (componentCtx (x'.unwrapped var') q.component.id noPorts) d t 0 = mden (componentCtx (x.unwrapped var) q.component.id noPorts) d t k := by
    intro q d hq hd hm
    exact h.expr ha hm (fun _ _ _ => rfl) (hA.named _ hm d (.port hj hq rfl hd)) (fun y hy => ((hn.clean j hj q f d hq hd).1 y hy).2.2)
      (hu.ports j hj q f d hq hd) t
  unfold PortsConnection.value
  cases z1 : j.port1.fieldDef f with
  | some d => exact side _ _ (.inl rfl) z1 (hcl j hj).1
  | none =>
    cases z2 : j.port2.fieldDef f with
    | some d => exact side _ _ (.inr rfl) z2 (hcl j hj).2
    | none => rfl

/-- expressions of components about one scenario are read in this scenario -/
theorem readVar (h : x.InScenario k x') (hn : x.NetworkOk) (hcl : x.Closed) (hu : x.Separate) (hA : x.VarsAre A) (ha : SeenVar A k var var')
    {c : Component} (hc : c ∈ x.network.allComponents) {e : Expr} (hv : ∀ n, .var n ∈ e.subs → A (x.varIdx c.id n).scenario)
    (he : ∀ y ∈ e.subs, y.hasComponent = false) (hi : x.PerScenario c.id e) (t : Int) :
    mden (x'.readAs (x'.unwrapped var') c) e t 0 = mden (x.readAs (x.unwrapped var) c) e t k := by
  refine h.expr ha hc ?_ hv he hi t
  intro p f t
  rw [h.network]
  unfold attached
  rw [List.map_flatMap, List.map_flatMap]
  refine List.flatMap_congr fun j hj => ?_
  have := h.value hn hcl hu hA ha hj f t
  unfold PortsConnection.brings
  split_ifs <;> simp [this]

theorem read (h : x.InScenario k x') (hn : x.NetworkOk) (hcl : x.Closed) (hu : x.Separate) (hA : x.VarsAre A) (ha : SeenIn A k σ σ')
    {c : Component} (hc : c ∈ x.network.allComponents) {e : Expr} (hv : ∀ n, .var n ∈ e.subs → A (x.varIdx c.id n).scenario)
    (he : ∀ y ∈ e.subs, y.hasComponent = false) (hi : x.PerScenario c.id e) (t : Int) :
    mden (x'.readIn σ' c) e t 0 = mden (x.readIn σ c) e t k :=
  h.readVar hn hcl hu hA (ha.var h.T_eq) hc hv he hi t

theorem satisfied (h : x.InScenario k x') (hn : x.NetworkOk) (hcl : x.Closed) (ho : x.OwnSymbols) (hu : x.Separate) (hA : x.VarsAre A)
    (ha : SeenIn A k σ σ') {c : Component} (hc : c ∈ x.network.allComponents) :
    x'.Satisfied σ' c ↔ ∀ t : Nat, t < x.T → x.SatisfiedAt σ c t k := by
  have hat : ∀ t : Nat, x'.SatisfiedAt σ' c t 0 ↔ x.SatisfiedAt σ c t k := by
    intro t
    refine satisfiedAt_congr h.strategy ?_ ?_ ?_
    · intro v hv
      show σ' ⟨c.id, v.name, (atT v.structure_ t).map (· % (x'.T : Int)), scenIf v.structure_.scenario 0⟩ =
        σ ⟨c.id, v.name, (atT v.structure_ t).map (· % (x.T : Int)), scenIf v.structure_.scenario k⟩
      rw [h.T_eq]
      exact ha _ _ _ _ (hA.selected c hc v hv)
    · intro v hv b hb
      exact h.read hn hcl hu hA ha hc (hA.named c hc b (.bound hv hb)) (ho.bounds c hc v hv b hb) (hu.bounds c hc v hv b hb) t
    · intro k' hk' e he
      exact h.read hn hcl hu hA ha hc (hA.named c hc e (.constraint hk' he)) (ho.constraints c hc k' hk' e he) (hu.constraints c hc k' hk' e he) t
  rw [satisfied_iff, h.T_eq, h.scenarios]
  constructor
  · intro g t ht
    exact (hat t).1 (g 0 t Nat.one_pos ht)
  · intro g s t hs ht
    obtain rfl : s = 0 := by omega
    exact (hat t).2 (g t ht)

end InScenario

/-- the value of an expectation is the average of its values in each scenario alone -/
theorem Expected.valueVar {A : Bool → Prop} {xs : Nat → OptCtx} {W : String → String → Option Int → Option Int → ℚ}
    {Ws : Nat → String → String → Option Int → Option Int → ℚ}
    (hS : 0 < x.scenarios) (h : ∀ k < x.scenarios, x.InScenario k (xs k)) (hn : x.NetworkOk) (hcl : x.Closed) (hu : x.Separate) (hA : x.VarsAre A)
    (ha : ∀ k < x.scenarios, SeenVar A k W (Ws k)) {c : Component} (hc : c ∈ x.network.allComponents) {e : Expr} (hex : x.Expected c.id e) :
    (∀ n, .var n ∈ e.subs → A (x.varIdx c.id n).scenario) → (∀ y ∈ e.subs, y.hasComponent = false) → ∀ t : Int,
    mden (x.readAs (x.unwrapped W) c) e t 0 = average x.scenarios fun k => mden ((xs k).readAs ((xs k).unwrapped (Ws k)) c) e t 0 := by
  have sure : ∀ {a : Expr}, x.PerScenario c.id a → x.Sure c.id a → (∀ n, .var n ∈ a.subs → A (x.varIdx c.id n).scenario) →
      (∀ y ∈ a.subs, y.hasComponent = false) → ∀ t : Int, ∀ k ∈ Finset.range x.scenarios,
      mden ((xs k).readAs ((xs k).unwrapped (Ws k)) c) a t 0 = mden (x.readAs (x.unwrapped W) c) a t 0 := by
    intro a hi hst hv hown t k hk
    have hk := Finset.mem_range.1 hk
    rw [(h k hk).readVar hn hcl hu hA (ha k hk) hc hv hown hi t]
    exact mden_sure (M := x.readAs (x.unwrapped W) c) a hown hst t _ _
  induction hex with
  | @certain e hi hst =>
    intro hv hown t
    unfold average
    have e1 : ∀ k ∈ Finset.range x.scenarios, mden ((xs k).readAs ((xs k).unwrapped (Ws k)) c) e t 0 = mden (x.readAs (x.unwrapped W) c) e t 0 := by
      intro k hk
      have hk := Finset.mem_range.1 hk
      rw [(h k hk).readVar hn hcl hu hA (ha k hk) hc hv hown hi t]
      exact mden_certain (M := x.readAs (x.unwrapped W) c) e hown hst t _ _
    rw [Finset.sum_congr rfl e1, Finset.sum_const, Finset.card_range, nsmul_eq_mul, mul_div_cancel_left₀]
    exact_mod_cast hS.ne'
  | @scen e o hi =>
    intro hv hown t
    have hv' : ∀ n, .var n ∈ e.subs → A (x.varIdx c.id n).scenario := fun n hn => hv n (by simp [subs, hn])
    have hown' : ∀ y ∈ e.subs, y.hasComponent = false := fun y hy => hown y (by simp [subs, hy])
    show (∑ w ∈ Finset.range x.scenarios, mden (x.readAs (x.unwrapped W) c) e t w) / (x.scenarios : ℚ) = _
    unfold average
    congr 1
    refine Finset.sum_congr rfl fun k hk => ?_
    have hk := Finset.mem_range.1 hk
    show _ = (∑ w ∈ Finset.range (xs k).scenarios, mden ((xs k).readAs ((xs k).unwrapped (Ws k)) c) e t w) / ((xs k).scenarios : ℚ)
    rw [(h k hk).scenarios, Finset.sum_range_one, Nat.cast_one, div_one]
    exact ((h k hk).readVar hn hcl hu hA (ha k hk) hc hv' hown' hi t).symm
  | @add es _ ih =>
    intro hv hown t
    have hv' : ∀ e ∈ es, ∀ n, .var n ∈ e.subs → A (x.varIdx c.id n).scenario := fun e he n hn => hv n (mem_subs_add.2 (.inr ⟨e, he, hn⟩))
    have hown' : ∀ e ∈ es, ∀ y ∈ e.subs, y.hasComponent = false := fun e he y hy => hown y (mem_subs_add.2 (.inr ⟨e, he, hy⟩))
    rw [mden_add]
    simp only [mden_add]
    have swap : ∀ l : List Expr, (∀ e ∈ l, e ∈ es) → (l.map fun e => mden (x.readAs (x.unwrapped W) c) e t 0).sum =
        average x.scenarios fun k => (l.map fun e => mden ((xs k).readAs ((xs k).unwrapped (Ws k)) c) e t 0).sum := by
      intro l
      induction l with
      | nil => intro _; simp [average]
      | cons e l ihl =>
        intro hl
        simp only [List.map_cons, List.sum_cons]
        rw [ihl fun e he => hl e (List.mem_cons_of_mem _ he), ih e (hl e List.mem_cons_self) (hv' e (hl e List.mem_cons_self))
          (hown' e (hl e List.mem_cons_self)) t]
        unfold average
        rw [Finset.sum_add_distrib, add_div]
    exact swap es fun _ he => he
  | @block e _ ih =>
    intro hv hown t
    have hv' : ∀ n, .var n ∈ e.subs → A (x.varIdx c.id n).scenario := fun n hn => hv n (by simp [subs, hn])
    have hown' : ∀ y ∈ e.subs, y.hasComponent = false := fun y hy => hown y (by simp [subs, hy])
    show ∑ u ∈ Finset.range x.T, mden (x.readAs (x.unwrapped W) c) e u 0 = (∑ k ∈ Finset.range x.scenarios, ∑ u ∈ Finset.range (xs k).T, mden ((xs k).readAs ((xs k).unwrapped (Ws k)) c) e u 0) / (x.scenarios : ℚ)
    have e1 : ∀ k ∈ Finset.range x.scenarios, ∑ u ∈ Finset.range (xs k).T, mden ((xs k).readAs ((xs k).unwrapped (Ws k)) c) e u 0 =
        ∑ u ∈ Finset.range x.T, mden ((xs k).readAs ((xs k).unwrapped (Ws k)) c) e u 0 := fun k hk => by rw [(h k (Finset.mem_range.1 hk)).T_eq]
    rw [Finset.sum_congr rfl e1, Finset.sum_comm, Finset.sum_div]
    exact Finset.sum_congr rfl fun u _ => ih hv' hown' u
  | neg _ ih =>
    intro hv hown t
    simp only [mden]
    rw [ih (fun n hn => hv n (by simp [subs, hn])) (fun y hy => hown y (by simp [subs, hy])) t]
    unfold average
    rw [Finset.sum_neg_distrib, neg_div]
  | mulLeft hi hst _ ih =>
    intro hv hown t
    simp only [mden]
    rw [ih (fun n hn => hv n (by simp [subs, hn])) (fun y hy => hown y (by simp [subs, hy])) t]
    unfold average
    rw [← mul_div_assoc, Finset.mul_sum]
    congr 1
    refine Finset.sum_congr rfl fun k hk => ?_
    beta_reduce
    rw [sure hi hst (fun n hn => hv n (by simp [subs, hn])) (fun y hy => hown y (by simp [subs, hy])) t k hk]
  | mulRight hi hst _ ih =>
    intro hv hown t
    simp only [mden]
    rw [ih (fun n hn => hv n (by simp [subs, hn])) (fun y hy => hown y (by simp [subs, hy])) t]
    unfold average
    rw [div_mul_eq_mul_div, Finset.sum_mul]
    congr 1
    refine Finset.sum_congr rfl fun k hk => ?_
    beta_reduce
    rw [sure hi hst (fun n hn => hv n (by simp [subs, hn])) (fun y hy => hown y (by simp [subs, hy])) t k hk]
  | div hi hst _ ih =>
    intro hv hown t
    simp only [mden]
    rw [ih (fun n hn => hv n (by simp [subs, hn])) (fun y hy => hown y (by simp [subs, hy])) t]
    unfold average
    rw [div_right_comm, Finset.sum_div]
    congr 1
    refine Finset.sum_congr rfl fun k hk => ?_
    beta_reduce
    rw [sure hi hst (fun n hn => hv n (by simp [subs, hn])) (fun y hy => hown y (by simp [subs, hy])) t k hk]

theorem Expected.value {A : Bool → Prop} {xs : Nat → OptCtx} {σ : TermKey → ℚ} {σs : Nat → TermKey → ℚ}
    (hS : 0 < x.scenarios) (h : ∀ k < x.scenarios, x.InScenario k (xs k)) (hn : x.NetworkOk) (hcl : x.Closed) (hu : x.Separate) (hA : x.VarsAre A)
    (ha : ∀ k < x.scenarios, SeenIn A k σ (σs k)) {c : Component} (hc : c ∈ x.network.allComponents) {e : Expr} (hex : x.Expected c.id e)
    (hv : ∀ n, .var n ∈ e.subs → A (x.varIdx c.id n).scenario) (he : ∀ y ∈ e.subs, y.hasComponent = false) (t : Int) :
    mden (x.readIn σ c) e t 0 = average x.scenarios fun k => mden ((xs k).readIn (σs k) c) e t 0 :=
  hex.valueVar (Ws := fun k c v t s => σs k ⟨c, v, t.map (· % ((xs k).T : Int)), s⟩) hS h hn hcl hu hA
    (fun k hk => (ha k hk).var (h k hk).T_eq) hc hv he t

end OptCtx
end Verif
