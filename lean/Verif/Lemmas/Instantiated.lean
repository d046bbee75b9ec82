import Verif.Lemmas.Fits
import Verif.Lemmas.Build
import Verif.Props.Problem

/-! Expressions that can be used in a component are instantiated without error. -/

namespace Verif
open Expr OptCtx

namespace OptCtx

/-- reading of the expressions of the problem when all variables are 0 -/
def zero (x : OptCtx) : MCtx := componentCtx (x.reading fun _ => 0) "" noPorts

/-- parameters of components that vary only as said -/
def CPar (x : OptCtx) (vary : Idx) : Expr → Prop
  | .cpar cid n => ∃ c ∈ x.network.allComponents, c.id = cid ∧ ∃ p, c.model.parameters.get? n = some p ∧
      (p.structure_.time = true → vary.time = true) ∧ (p.structure_.scenario = true → vary.scenario = true)
  | _ => False

/-- arithmetic over parameters of components -/
structure CArith (x : OptCtx) (vary : Idx) (e : Expr) : Prop where
  fits : Fits (x.CPar vary) (fun _ => False) x.zero e
  known : e.Known
  fixing : ∀ y ∈ e.subs, y.isTimeFixing = false
  scen : ∀ y ∈ e.subs, y.isScen = false

/-- a usable amount -/
structure CAmt (x : OptCtx) (k : Expr) : Prop where
  arith : x.CArith ⟨false, false⟩ k
  whole : ∃ n : ℤ, mden x.zero k 0 0 = n

/-- symbols of components -/
def CLeaf (x : OptCtx) : Expr → Prop
  | .cvar cid n => ∃ c ∈ x.network.allComponents, c.id = cid ∧ ∃ v ∈ x.strategy.getVariables c.model, v.name = n
  | .cpar cid n => ∃ c ∈ x.network.allComponents, c.id = cid ∧ ∃ p, c.model.parameters.get? n = some p
  | _ => False

/-- the parameters of a component that vary only as said -/
def ParLeaf (c : Component) (vary : Idx) : Expr → Prop
  | .par n => ∃ p, c.model.parameters.get? n = some p ∧ (p.structure_.time = true → vary.time = true) ∧
      (p.structure_.scenario = true → vary.scenario = true)
  | _ => False

end OptCtx

theorem Expr.Arith.sub {e y : Expr} (h : e.Arith) (hs : ∀ z ∈ y.subs, z ∈ e.subs) : y.Arith := fun z hz => h z (hs z hz)

theorem Expr.Arith.kinds {e : Expr} (h : e.Arith) : e.Known ∧ (∀ y ∈ e.subs, y.isTimeFixing = false) ∧ ∀ y ∈ e.subs, y.isScen = false := by
  refine ⟨fun y hy => ?_, fun y hy => ?_, fun y hy => ?_⟩ <;>
    (have := h y hy; cases y <;> first | rfl | cases this)

theorem computable_fits {x : OptCtx} {c : Component} {vary : Idx} (e : Expr) (h : x.Computable c vary e) :
    Fits (ParLeaf c vary) (fun _ => False) (x.constants c) e := by
  have sub : ∀ {e y : Expr}, (∀ z ∈ y.subs, z ∈ e.subs) → x.Computable c vary e → x.Computable c vary y :=
    fun hs h => ⟨h.arith.sub hs, fun v hv => h.finite v (hs _ hv), fun n hn => h.pars n (hs _ hn),
      fun l r hd => h.divisors l r (hs _ hd)⟩
  induction e using Expr.ind with
  | lit v =>
    obtain ⟨q, rfl⟩ := h.finite v (mem_subs_self _)
    rfl
  | par n => exact h.pars n (mem_subs_self _)
  | neg e ih => exact ih (sub (fun z hz => by simp [subs, hz]) h)
  | add es ih =>
    refine ⟨?_, fitsAll_iff.2 fun e he => ih e he (sub (fun z hz => mem_subs_add.2 (.inr ⟨e, he, hz⟩)) h)⟩
    rintro rfl
    exact absurd (h.arith _ (mem_subs_self _)) (by simp [isArith])
  | mul l r ihl ihr =>
    have hl := sub (y := l) (fun z hz => by simp [subs, hz]) h
    exact ⟨ihl hl, ihr (sub (fun z hz => by simp [subs, hz]) h), .inl hl.arith.kinds.1⟩
  | div l r ihl ihr =>
    have hr := sub (y := r) (fun z hz => by simp [subs, hz]) h
    exact ⟨ihl (sub (fun z hz => by simp [subs, hz]) h), ihr hr, hr.arith.kinds.1, h.divisors l r (mem_subs_self _)⟩
  | _ => exact absurd (h.arith _ (mem_subs_self _)) (by simp [isArith])

theorem keeps_self {y : Expr} : Keeps y y := fun _ _ h => h

theorem context_arith {x : OptCtx} {c : Component} (hc : c ∈ x.network.allComponents) {vary : Idx} {e : Expr}
    (h : x.Computable c vary e) : ∃ e', addComponentContext c.id e = .ok e' ∧ x.CArith vary e' ∧ Keeps e e' ∧
      ∀ t s, mden x.zero e' t s = mden (x.constants c) e t s := by
  obtain ⟨e', k⟩ := copy_fits (h := contextHooks c.id) (leaf := ParLeaf c vary) (leaf' := x.CPar vary) (amt := fun _ => False)
    (amt' := fun _ => False) (M := x.constants c) (M' := x.zero) (f := id) (g := id) rfl rfl (fun s h0 h1 => ⟨h0, h1⟩)
    (fun y hy hl => by
      cases y <;> try exact hl.elim
      next n =>
        refine ⟨.cpar c.id n, rfl, ⟨c, hc, rfl, hl⟩, ?_, fun t s => rfl⟩
        intro P hP h
        simp only [subs, List.forall_mem_cons, List.not_mem_nil, false_imp_iff, implies_true, and_true] at h ⊢
        cases hP <;> rfl)
    (fun k hk => hk.elim) e (.inl ⟨rfl, rfl⟩) (computable_fits e h)
  obtain ⟨h1, h2, h3⟩ := h.arith.kinds
  exact ⟨e', k.ok, ⟨k.fits, k.keeps _ .unknown h1, k.keeps _ .fixing h2, k.keeps _ .scen h3⟩, k.keeps, k.mean⟩

theorem ports_arith {x : OptCtx} {vary : Idx} {e : Expr} (cid : String) (ports : PortExprs) (h : x.CArith vary e) :
    ∃ e', resolvePort e cid ports = .ok e' ∧ x.CArith vary e' ∧ Keeps e e' ∧ ∀ t s, mden x.zero e' t s = mden x.zero e t s := by
  obtain ⟨e', k⟩ := copy_fits (h := portHooks cid ports) (leaf := x.CPar vary) (leaf' := x.CPar vary) (amt := fun _ => False)
    (amt' := fun _ => False) (M := x.zero) (M' := x.zero) (f := id) (g := id) rfl rfl (fun s h0 h1 => ⟨h0, h1⟩)
    (fun y hy hl => by
      cases y <;> try exact hl.elim
      next n => exact ⟨_, rfl, hl, keeps_self, fun t s => rfl⟩)
    (fun k hk => hk.elim) e (.inl ⟨rfl, rfl⟩) h.fits
  exact ⟨e', k.ok, ⟨k.fits, k.keeps _ .unknown h.known, k.keeps _ .fixing h.fixing, k.keeps _ .scen h.scen⟩, k.keeps, k.mean⟩

theorem instantiate_arith {x : OptCtx} {c : Component} (hc : c ∈ x.network.allComponents) {vary : Idx} {e : Expr}
    (ports : PortExprs) (h : x.Computable c vary e) : ∃ e', instantiate e c.id ports = .ok e' ∧ x.CArith vary e' ∧
      ∀ t s, mden x.zero e' t s = mden (x.constants c) e t s := by
  obtain ⟨e1, h1, h2, -, h3⟩ := context_arith hc h
  obtain ⟨e2, g1, g2, -, g3⟩ := ports_arith c.id ports h2
  exact ⟨e2, by simp [instantiate, h1, g1], g2, fun t s => by rw [g3, h3]⟩

/-! ### Expressions of constraints and objectives -/

/-- the references to ports of a component -/
def OptCtx.C1Leaf (x : OptCtx) (c : Component) : Expr → Prop
  | .portField p f => x.Leaf c (.portField p f)
  | .agg e o => x.Leaf c (.agg e o)
  | y => x.CLeaf y

theorem context_amount {x : OptCtx} {c : Component} (hc : c ∈ x.network.allComponents) {k : Expr} (h : x.Amount c k) :
    ∃ k', copyWith (contextHooks c.id) k = .ok k' ∧ x.CAmt k' ∧ Keeps k k' ∧
      ∀ t s, mden x.zero k' t s = mden (x.constants c) k t s := by
  obtain ⟨k', h1, h2, h3, h4⟩ := context_arith hc h.computable
  exact ⟨k', h1, ⟨h2, by rw [h4]; exact h.whole⟩, h3, h4⟩

/-- values at problem level do not depend on the reading component nor on the ports -/
theorem carith_mden {x : OptCtx} {vary : Idx} {e : Expr} (h : x.CArith vary e) (comp : String)
    (ports : String → String → List (Int → Int → ℚ)) (t s : Int) :
    mden (componentCtx (x.reading fun _ => 0) comp ports) e t s = mden x.zero e t s := by
  refine mden_congr (componentCtx (x.reading fun _ => 0) comp ports) x.zero rfl e ?_ t s
  have : ∀ e : Expr, Fits (x.CPar vary) (fun _ => False) x.zero e → ∀ y ∈ e.subs, y.isModelLevel = false := by
    intro e
    induction e using Expr.ind with
    | lit v => intro _ y hy; simp only [subs, List.mem_singleton] at hy; subst hy; rfl
    | neg e ih =>
      intro h
      simp only [subs, List.forall_mem_cons]
      exact ⟨rfl, ih h⟩
    | add es ih =>
      intro h y hy
      rcases mem_subs_add.1 hy with rfl | ⟨e, hm, hy⟩
      · rfl
      · exact ih e hm (fitsAll_iff.1 h.2 e hm) y hy
    | mul l r ihl ihr =>
      intro h
      simp only [subs, List.forall_mem_cons, List.forall_mem_append]
      exact ⟨rfl, ihl h.1, ihr h.2.1⟩
    | div l r ihl ihr =>
      intro h
      simp only [subs, List.forall_mem_cons, List.forall_mem_append]
      exact ⟨rfl, ihl h.1, ihr h.2.1⟩
    | allsum e ih =>
      intro h
      simp only [subs, List.forall_mem_cons]
      exact ⟨rfl, ih h⟩
    | scen e o ih =>
      intro h
      simp only [subs, List.forall_mem_cons]
      exact ⟨rfl, ih h.1⟩
    | cpar c n => intro _ y hy; simp only [subs, List.mem_singleton] at hy; subst hy; rfl
    | shift e k => exact fun h => absurd h.2.1 id
    | evalT e k => exact fun h => absurd h.2.1 id
    | tsum e a b => exact fun h => absurd h.2.1 id
    | _ => intro h; exact h.elim
  exact this e h.fits

theorem context_usable {x : OptCtx} {c : Component} (hc : c ∈ x.network.allComponents) {e : Expr} (h : x.Usable c e) :
    ∃ e', addComponentContext c.id e = .ok e' ∧ Fits (x.C1Leaf c) x.CAmt (x.constants c) e' ∧ Keeps e e' ∧
      ∀ t s, mden (x.constants c) e' t s = mden (x.constants c) e t s := by
  obtain ⟨e', k⟩ := copy_fits (h := contextHooks c.id) (leaf := x.Leaf c) (leaf' := x.C1Leaf c) (amt := x.Amount c)
    (amt' := x.CAmt) (M := x.constants c) (M' := x.constants c) (f := id) (g := id) rfl rfl (fun s h0 h1 => ⟨h0, h1⟩)
    (fun y hy hl => by
      cases y <;> try exact hl.elim
      next n =>
        refine ⟨.cvar c.id n, rfl, ⟨c, hc, rfl, hl⟩, ?_, fun t s => rfl⟩
        intro P hP h
        simp only [subs, List.forall_mem_cons, List.not_mem_nil, false_imp_iff, implies_true, and_true] at h ⊢
        cases hP <;> first | rfl | cases h
      next n =>
        refine ⟨.cpar c.id n, rfl, ⟨c, hc, rfl, hl⟩, ?_, fun t s => rfl⟩
        intro P hP h
        simp only [subs, List.forall_mem_cons, List.not_mem_nil, false_imp_iff, implies_true, and_true] at h ⊢
        cases hP <;> rfl
      next p f => exact ⟨_, rfl, hl, keeps_self, fun t s => rfl⟩
      next e o =>
        obtain ⟨rfl, p, f, rfl⟩ := hl
        exact ⟨.agg (.portField p f) .portSum, rfl, ⟨rfl, p, f, rfl⟩, keeps_self, fun t s => rfl⟩)
    (fun k hk => by
      obtain ⟨k', h1, h2, h3, h4⟩ := context_amount hc hk
      exact ⟨k', h1, h2, h3, by rw [← h4]; exact carith_mden h2.arith _ _ 0 0⟩)
    e (.inl ⟨rfl, rfl⟩) h
  exact ⟨e', k.ok, k.fits, k.keeps, k.mean⟩

/-- a definition carried by a connection, in its component -/
theorem context_definition {x : OptCtx} {c : Component} (hc : c ∈ x.network.allComponents) {e : Expr} (h : x.Usable c e)
    (hp : ∀ y ∈ e.subs, y.isPortRef = false) :
    ∃ e', addComponentContext c.id e = .ok e' ∧ Fits x.CLeaf x.CAmt x.zero e' ∧ Keeps e e' := by
  obtain ⟨e', k⟩ := copy_fits (h := contextHooks c.id) (leaf := fun y => x.Leaf c y ∧ y.isPortRef = false) (leaf' := x.CLeaf)
    (amt := x.Amount c) (amt' := x.CAmt) (M := x.constants c) (M' := x.zero) (f := id) (g := id) rfl rfl (fun s h0 h1 => ⟨h0, h1⟩)
    (fun y hy hl => by
      obtain ⟨hl, hp⟩ := hl
      cases y <;> try exact hl.elim
      next n =>
        refine ⟨.cvar c.id n, rfl, ⟨c, hc, rfl, hl⟩, ?_, fun t s => rfl⟩
        intro P hP h
        simp only [subs, List.forall_mem_cons, List.not_mem_nil, false_imp_iff, implies_true, and_true] at h ⊢
        cases hP <;> first | rfl | cases h
      next n =>
        refine ⟨.cpar c.id n, rfl, ⟨c, hc, rfl, hl⟩, ?_, fun t s => rfl⟩
        intro P hP h
        simp only [subs, List.forall_mem_cons, List.not_mem_nil, false_imp_iff, implies_true, and_true] at h ⊢
        cases hP <;> rfl
      next p f => cases hp
      next e o => cases hp)
    (fun k hk => by
      obtain ⟨k', h1, h2, h3, h4⟩ := context_amount hc hk
      exact ⟨k', h1, h2, h3, h4 0 0⟩)
    e (.inl ⟨rfl, rfl⟩) (Fits.mono e (fun y hy _ hl => ⟨hl, hp y hy⟩) (fun _ h => h) h)
  exact ⟨e', k.ok, k.fits, k.keeps⟩

/-- what the connections bring -/
theorem registered_fits {x : OptCtx} (hx : x.Buildable) {ports : PortExprs}
    (hreg : registerConnections x.network.connections [] = .ok ports) (key : PortFieldKey) :
    ∀ e ∈ registered ports key, Fits x.CLeaf x.CAmt x.zero e ∧ (∀ y ∈ e.subs, y.isTimeFixing = false) ∧
      ∀ y ∈ e.subs, y.isScen = false := by
  intro e he
  rcases registerConnections_from _ hx.network.accepted hreg key e he with he | ⟨k, hk, r, f, d, hr, hd, hctx⟩
  · simp [registered] at he
  · obtain ⟨hm, hu⟩ := hx.connections k hk r hr
    have hcl := hx.network.clean k hk r f d hr hd
    obtain ⟨e', h1, h2, h3⟩ := context_definition hm (hu f d hd) fun y hy => (hcl.1 y hy).1
    rw [hctx] at h1
    cases h1
    exact ⟨h2, h3 _ .fixing fun y hy => (hcl.2.2.2 y hy).1, h3 _ .scen fun y hy => (hcl.2.2.2 y hy).2⟩

theorem ports_usable {x : OptCtx} (hx : x.Buildable) {ports : PortExprs}
    (hreg : registerConnections x.network.connections [] = .ok ports) {c : Component} {e : Expr}
    (h : Fits (x.C1Leaf c) x.CAmt (x.constants c) e) :
    ∃ e', resolvePort e c.id ports = .ok e' ∧ Fits x.CLeaf x.CAmt x.zero e' ∧
      ∀ t s, mden x.zero e' t s = mden (x.constants c) e t s := by
  have hclean := networkOk_clean hx.network
  have mean : ∀ y y', y.isPortRef = true → y.AggPort → resolvePort y c.id ports = .ok y' →
      ∀ t s, mden x.zero y' t s = mden (x.constants c) y t s := by
    intro y y' hp ha hr t s
    have := Props.c15_meaning (x.reading fun _ => 0) x.network.connections hx.network.accepted hclean ports hreg c.id "" y y' ha hr t s
    refine this.trans ?_
    cases y <;> try cases hp
    · rfl
    · next e o =>
      obtain ⟨p, f, rfl⟩ := ha e o (mem_subs_self _)
      rfl
  obtain ⟨e', k⟩ := copy_fits (h := portHooks c.id ports) (leaf := x.C1Leaf c) (leaf' := x.CLeaf)
    (amt := x.CAmt) (amt' := x.CAmt) (M := x.constants c) (M' := x.zero) (f := id) (g := id) rfl rfl (fun s h0 h1 => ⟨h0, h1⟩)
    (fun y hy hl => by
      cases y <;> try exact hl.elim
      next c' n => exact ⟨_, rfl, hl, keeps_self, fun t s => rfl⟩
      next c' n => exact ⟨_, rfl, hl, keeps_self, fun t s => rfl⟩
      next p f =>
        have hlen : (registered ports ⟨c.id, p, f⟩).length = 1 := by
          rw [Props.registered_length (x.reading fun _ => 0) _ hx.network.accepted hclean ports hreg c.id p f]
          exact hl
        obtain ⟨y', hy'⟩ := List.length_eq_one_iff.1 hlen
        have hfit := registered_fits hx hreg ⟨c.id, p, f⟩ y' (by simp [hy'])
        have hok : copyWith (portHooks c.id ports) (.portField p f) = .ok y' := by
          simp only [copyWith, portHooks, Dict.get]
          unfold registered at hy'
          cases hg : Dict.get? ports ⟨c.id, p, f⟩ with
          | none => rw [hg] at hy'; cases hy'
          | some l =>
            rw [hg] at hy'
            simp only [Option.getD_some] at hy'
            subst hy'
            rfl
        refine ⟨y', hok, hfit.1, fun P hP h => ?_, mean _ _ rfl (by intro z a hz; simp [subs] at hz) hok⟩
        cases hP with
        | unknown => exact absurd (h _ (mem_subs_self _)) (by simp [isUnknown])
        | fixing => exact hfit.2.1
        | scen => exact hfit.2.2
      next e o =>
        obtain ⟨rfl, p, f, rfl⟩ := hl
        have hfit := registered_fits hx hreg ⟨c.id, p, f⟩
        have hok : copyWith (portHooks c.id ports) (.agg (.portField p f) .portSum) =
            .ok (sumExpressions (registered ports ⟨c.id, p, f⟩)) := rfl
        refine ⟨_, hok, fits_sumExpressions fun o ho => (hfit o ho).1, fun P hP h => ?_,
          mean _ _ rfl (by intro z a hz; simp [subs] at hz; exact ⟨p, f, hz.1⟩) hok⟩
        cases hP with
        | unknown => exact absurd (h _ (mem_subs_self _)) (by simp [isUnknown])
        | fixing => exact allSubs_sumExpressions (P := fun y => y.isTimeFixing = false) (fun _ => rfl) rfl fun o ho => (hfit o ho).2.1
        | scen => exact allSubs_sumExpressions (P := fun y => y.isScen = false) (fun _ => rfl) rfl fun o ho => (hfit o ho).2.2)
    (fun k hk => by
      obtain ⟨k', h1, h2, h3, h4⟩ := ports_arith c.id ports hk.arith
      exact ⟨k', h1, ⟨h2, by rw [h4]; exact hk.whole⟩, h3, by rw [h4]; exact (carith_mden hk.arith _ _ 0 0).symm⟩)
    e (.inl ⟨rfl, rfl⟩) h
  exact ⟨e', k.ok, k.fits, k.mean⟩

theorem instantiate_usable {x : OptCtx} (hx : x.Buildable) {ports : PortExprs}
    (hreg : registerConnections x.network.connections [] = .ok ports) {c : Component} (hc : c ∈ x.network.allComponents)
    {e : Expr} (h : x.Usable c e) : ∃ e', instantiate e c.id ports = .ok e' ∧ Fits x.CLeaf x.CAmt x.zero e' ∧
      ∀ t s, mden x.zero e' t s = mden (x.constants c) e t s := by
  obtain ⟨e1, h1, h2, -, h3⟩ := context_usable hc h
  obtain ⟨e2, g1, g2, g3⟩ := ports_usable hx hreg h2
  exact ⟨e2, by simp [instantiate, h1, g1], g2, fun t s => by rw [g3, h3]⟩

end Verif
