import Verif.Spec.Dependence
import Verif.Lemmas.Resolve
import Verif.Lemmas.Problem

/-! The indexing that the program computes for an instantiated expression is what the expression depends on. -/

namespace Verif
open Expr

theorem Idx.both_assoc (a b c : Idx) : (a.both b).both c = a.both (b.both c) := by simp [Idx.both, Bool.or_assoc]

theorem Idx.both_false (a : Idx) : a.both ⟨false, false⟩ = a := by simp [Idx.both]

theorem Idx.false_both (a : Idx) : (Idx.mk false false).both a = a := by simp [Idx.both]

theorem Idx.true_both (a b : Idx) (h : a.isTimeScenarioVarying = true) : a.both b = a := by
  obtain ⟨t, s⟩ := a
  simp [Idx.isTimeScenarioVarying] at h
  simp [Idx.both, h]

theorem Idx.all_cons (i : Idx) (l : List Idx) : Idx.all (i :: l) = i.both (Idx.all l) := rfl

theorem Idx.all_append (l l' : List Idx) : Idx.all (l ++ l') = (Idx.all l).both (Idx.all l') := by
  simp [Idx.all, Idx.both]

theorem Idx.all_perm {l l' : List Idx} (h : l.Perm l') : Idx.all l = Idx.all l' := by
  have : ∀ p : Idx → Bool, l.any p = l'.any p := by
    intro p
    rw [Bool.eq_iff_iff, List.any_eq_true, List.any_eq_true]
    exact ⟨fun ⟨a, b, c⟩ => ⟨a, h.mem_iff.1 b, c⟩, fun ⟨a, b, c⟩ => ⟨a, h.mem_iff.2 b, c⟩⟩
  simp only [Idx.all, this]

theorem depends_add (d : SymbolDep) (es : List Expr) : depends d (.add es) = Idx.all (es.map (depends d)) := by
  simp only [depends]
  induction es with
  | nil => rfl
  | cons e es ih => rw [dependsAny, ih]; rfl

theorem depends_operands (d : SymbolDep) (e : Expr) : Idx.all (e.operands.map (depends d)) = depends d e := by
  cases e <;> simp only [operands, List.map_cons, List.map_nil, Idx.all_cons, ← depends_add] <;> exact Idx.both_false _

theorem depends_addOp (d : SymbolDep) (a b : Expr) : depends d (addOp a b) = (depends d a).both (depends d b) := by
  rw [addOp, depends_add, List.map_append, Idx.all_append, depends_operands, depends_operands]

theorem depends_foldAdd (d : SymbolDep) {es : List Expr} {e : Expr} (h : foldAdd addOp es = .ok e) :
    depends d e = Idx.all (es.map (depends d)) := by
  cases es with
  | nil => simp [foldAdd] at h
  | cons o os =>
    simp only [foldAdd, Except.ok.injEq] at h
    subst h
    induction os generalizing o with
    | nil => exact (Idx.both_false _).symm
    | cons a os ih => rw [List.foldl_cons, ih, List.map_cons, List.map_cons, List.map_cons, Idx.all_cons, Idx.all_cons, Idx.all_cons,
        depends_addOp, Idx.both_assoc]

theorem depends_sumExpressions (d : SymbolDep) (es : List Expr) : depends d (sumExpressions es) = Idx.all (es.map (depends d)) := by
  match es with
  | [] => rfl
  | [e] => exact (Idx.both_false _).symm
  | a :: b :: os => exact depends_add d _

/-- expressions of a component depend on the same things when the same symbols and port fields do -/
theorem depends_congr {d d' : SymbolDep} (hv : ∀ n, d'.var n = d.var n) (hp : ∀ n, d'.par n = d.par n) (hf : ∀ p f, d'.port p f = d.port p f)
    (e : Expr) : (∀ y ∈ e.subs, y.hasComponent = false) → depends d' e = depends d e := by
  induction e using Expr.ind with
  | lit v => intro _; rfl
  | var n => intro _; exact hv n
  | par n => intro _; exact hp n
  | cvar c n => intro h; cases h _ (mem_subs_self _)
  | cpar c n => intro h; cases h _ (mem_subs_self _)
  | pvar c n ti si => intro _; rfl
  | ppar c n ti si => intro _; rfl
  | portField p f => intro _; exact hf p f
  | neg e ih => intro h; simp only [depends, ih fun y hy => h y (by simp [subs, hy])]
  | add es ih =>
    intro h
    rw [depends_add, depends_add]
    congr 1
    exact List.map_congr_left fun e he => ih e he fun y hy => h y (mem_subs_add.2 (.inr ⟨e, he, hy⟩))
  | mul l r ihl ihr => intro h; simp only [depends, ihl fun y hy => h y (by simp [subs, hy]), ihr fun y hy => h y (by simp [subs, hy])]
  | div l r ihl ihr => intro h; simp only [depends, ihl fun y hy => h y (by simp [subs, hy]), ihr fun y hy => h y (by simp [subs, hy])]
  | cmp l r c ihl ihr => intro h; simp only [depends, ihl fun y hy => h y (by simp [subs, hy]), ihr fun y hy => h y (by simp [subs, hy])]
  | shift e k ihe _ => intro h; simp only [depends, ihe fun y hy => h y (by simp [subs, hy])]
  | evalT e k ihe _ => intro h; simp only [depends, ihe fun y hy => h y (by simp [subs, hy])]
  | tsum e a b ihe _ _ => intro h; simp only [depends, ihe fun y hy => h y (by simp [subs, hy])]
  | allsum e ih => intro h; simp only [depends, ih fun y hy => h y (by simp [subs, hy])]
  | scen e o ih => intro h; simp only [depends, ih fun y hy => h y (by simp [subs, hy])]
  | agg e a ih =>
    intro _
    cases e <;> first | rfl | exact hf _ _

/-- leaf hooks keep what leaves depend on -/
structure HookDeps (h : Hooks) (d d' : SymbolDep) : Prop where
  var : ∀ n e, h.var n = .ok e → depends d' e = depends d (.var n)
  par : ∀ n e, h.par n = .ok e → depends d' e = depends d (.par n)
  cvar : ∀ c n e, h.cvar c n = .ok e → depends d' e = depends d (.cvar c n)
  cpar : ∀ c n e, h.cpar c n = .ok e → depends d' e = depends d (.cpar c n)
  pvar : ∀ c n ti si e, h.pvar c n ti si = .ok e → depends d' e = depends d (.pvar c n ti si)
  ppar : ∀ c n ti si e, h.ppar c n ti si = .ok e → depends d' e = depends d (.ppar c n ti si)
  portField : ∀ p f e, h.portField p f = .ok e → depends d' e = depends d (.portField p f)
  agg : ∀ p f a e, copyWith h (.agg (.portField p f) a) = .ok e → depends d' e = depends d (.agg (.portField p f) a)

theorem copyWith_depends {h : Hooks} {d d' : SymbolDep} (hm : HookDeps h d d') (e : Expr) :
    e.AggPort → ∀ e', copyWith h e = .ok e' → depends d' e' = depends d e := by
  have sub : ∀ {e x : Expr}, e.AggPort → (∀ y ∈ x.subs, y ∈ e.subs) → x.AggPort :=
    fun h1 h2 y a hy => h1 y a (h2 _ hy)
  induction e using Expr.ind with
  | lit v => intro hi e' h'; cases h'; rfl
  | var n => intro hi e' h'; exact hm.var n e' h'
  | par n => intro hi e' h'; exact hm.par n e' h'
  | cvar c n => intro hi e' h'; exact hm.cvar c n e' h'
  | cpar c n => intro hi e' h'; exact hm.cpar c n e' h'
  | pvar c n ti si => intro hi e' h'; exact hm.pvar c n ti si e' h'
  | ppar c n ti si => intro hi e' h'; exact hm.ppar c n ti si e' h'
  | portField p f => intro hi e' h'; exact hm.portField p f e' h'
  | neg e ih =>
    intro hi e' h'
    simp only [copyWith, bind_ok_iff, Except.ok.injEq] at h'
    obtain ⟨a, ha, rfl⟩ := h'
    simp only [negOp, depends, ih (sub hi (by simp +contextual [subs])) a ha]
  | add es ih =>
    intro hi e' h'
    rw [copyWith_add, bind_ok_iff] at h'
    obtain ⟨es', hes, hf⟩ := h'
    rw [depends_foldAdd d' hf, depends_add]
    have h2 := forall₂_and_mem (appendAll_ok_iff.1 hes) (S := fun x y => depends d' y = depends d x)
      (fun x hx y hr => ih x hx (sub hi fun y hy => mem_subs_add.2 (.inr ⟨x, hx, hy⟩)) y hr)
    clear hes hf ih hi
    induction h2 with
    | nil => rfl
    | cons h1 _ ih => simp only [List.map_cons, Idx.all_cons, h1, ih]
  | mul l r ihl ihr =>
    intro hi e' h'
    simp only [copyWith, bind_ok_iff, Except.ok.injEq] at h'
    obtain ⟨a, ha, b, hb, rfl⟩ := h'
    simp only [mulOp, depends, ihl (sub hi (by simp +contextual [subs])) a ha, ihr (sub hi (by simp +contextual [subs])) b hb]
  | div l r ihl ihr =>
    intro hi e' h'
    simp only [copyWith, bind_ok_iff, Except.ok.injEq] at h'
    obtain ⟨a, ha, b, hb, rfl⟩ := h'
    simp only [divOp, depends, ihl (sub hi (by simp +contextual [subs])) a ha, ihr (sub hi (by simp +contextual [subs])) b hb]
  | cmp l r c ihl ihr =>
    intro hi e' h'
    simp only [copyWith, bind_ok_iff, Except.ok.injEq] at h'
    obtain ⟨a, ha, b, hb, rfl⟩ := h'
    simp only [depends, ihl (sub hi (by simp +contextual [subs])) a ha, ihr (sub hi (by simp +contextual [subs])) b hb]
  | shift e k ihe ihk =>
    intro hi e' h'
    simp only [copyWith, bind_ok_iff, Except.ok.injEq] at h'
    obtain ⟨a, ha, b, hb, rfl⟩ := h'
    simp only [depends, ihe (sub hi (by simp +contextual [subs])) a ha]
  | evalT e k ihe ihk =>
    intro hi e' h'
    simp only [copyWith, bind_ok_iff, Except.ok.injEq] at h'
    obtain ⟨a, ha, b, hb, rfl⟩ := h'
    simp only [depends, ihe (sub hi (by simp +contextual [subs])) a ha]
  | tsum e a b ihe iha ihb =>
    intro hi e' h'
    simp only [copyWith, bind_ok_iff, Except.ok.injEq] at h'
    obtain ⟨x, hx, y, hy, z, hz, rfl⟩ := h'
    simp only [depends, ihe (sub hi (by simp +contextual [subs])) x hx]
  | allsum e ih =>
    intro hi e' h'
    simp only [copyWith, bind_ok_iff, Except.ok.injEq] at h'
    obtain ⟨a, ha, rfl⟩ := h'
    simp only [depends, ih (sub hi (by simp +contextual [subs])) a ha]
  | scen e o ih =>
    intro hi e' h'
    simp only [copyWith, bind_ok_iff, Except.ok.injEq] at h'
    obtain ⟨a, ha, rfl⟩ := h'
    simp only [depends, ih (sub hi (by simp +contextual [subs])) a ha]
  | agg e a ih =>
    intro hi e' h'
    obtain ⟨p, f, rfl⟩ := hi e a (by simp [subs])
    exact hm.agg p f a e' h'

/-- no port field -/
def noPortDep : String → String → Idx := fun _ _ => ⟨false, false⟩

theorem addComponentContext_depends (x : OptCtx) (c c' : String) (port : String → String → Idx) (e e' : Expr) (ha : e.AggPort)
    (h : addComponentContext c e = .ok e') : depends (x.symbols c' port) e' = depends (x.symbols c port) e := by
  refine copyWith_depends (h := contextHooks c) ?_ e ha e' h
  constructor
  · intro n e h; cases h; rfl
  · intro n e h; cases h; rfl
  · intro _ n e h; cases h
  · intro _ n e h; cases h
  · intro _ n _ _ e h; cases h
  · intro _ n _ _ e h; cases h
  · intro p f e h; cases h; rfl
  · intro p f a e h; cases h; rfl

theorem registerFields_depends (x : OptCtx) (c : PortsConnection) (hc : c.Accepted)
    (hagg : ∀ (r : PortRef) f d, (r = c.port1 ∨ r = c.port2) → r.fieldDef f = some d → d.AggPort)
    (ports ports' : PortExprs) (h : registerFields c c.masterPort ports = .ok ports') (c' : String) (key : PortFieldKey) :
    (registered ports' key).map (depends (x.symbols c' noPortDep)) =
      (registered ports key).map (depends (x.symbols c' noPortDep)) ++ x.bringsDep c key.component key.port key.field := by
  obtain ⟨p1, p2, h1, h2, hty, hall, _, _, nd, hget⟩ := make_ok hc.made
  obtain ⟨inst, hinst, hreg⟩ := registerFields_spec c c.masterPort nd ports ports' h
  have k1 := hc.keyed1 _ _ h1
  have k2 := hc.keyed2 _ _ h2
  rw [hreg key, List.map_append]
  congr 1
  have hkeys : ∀ f, f ∈ c.masterPort.map Prod.fst ↔ f ∈ p1.portType.fields := by
    intro f
    have := Dict.mem_keys_iff (d := c.masterPort) (k := f)
    rw [hget] at this
    by_cases hf : f ∈ p1.portType.fields
    · simp only [hf, if_true, Option.some.injEq, exists_eq', iff_true] at this ⊢
      exact this
    · simp only [hf, if_false, reduceCtorEq, exists_false, iff_false] at this ⊢
      exact this
  have hfield : c.hasField key.field ↔ key.field ∈ p1.portType.fields := by
    simp [PortsConnection.hasField, PortRef.type?, h1]
  unfold OptCtx.bringsDep
  by_cases hf : key.field ∈ p1.portType.fields
  · rw [if_pos ((hkeys _).2 hf), if_pos (hfield.2 hf)]
    have hm : (key.field, sideOf c.port1 c.port2 p1 key.field) ∈ c.masterPort :=
      Dict.mem_of_get? (by rw [hget, if_pos hf])
    obtain ⟨d, hd, hctx⟩ := hinst _ _ hm
    have hval : depends (x.symbols c' noPortDep) (inst key.field) = x.fieldDepends c key.field := by
      unfold OptCtx.fieldDepends
      rcases sideOf_fieldDef k1 k2 (hall _ hf) hd with ⟨hd1, hs⟩ | ⟨hd0, hd2, hs⟩
      · rw [hd1]
        rw [hs] at hctx
        exact addComponentContext_depends x _ c' noPortDep d _ (hagg _ _ _ (.inl rfl) hd1) hctx
      · rw [hd0, hd2]
        rw [hs] at hctx
        exact addComponentContext_depends x _ c' noPortDep d _ (hagg _ _ _ (.inr rfl) hd2) hctx
    unfold entries
    rw [List.map_append]
    congr 1
    · split <;> simp [hval]
    · split <;> simp [hval]
  · rw [if_neg (fun h => hf ((hkeys _).1 h)), if_neg (fun h => hf (hfield.1 h))]
    rfl

theorem registerConnections_depends (x : OptCtx) (cs : List PortsConnection) (hc : ∀ c ∈ cs, c.Accepted)
    (hagg : ∀ c ∈ cs, ∀ (r : PortRef) f d, (r = c.port1 ∨ r = c.port2) → r.fieldDef f = some d → d.AggPort)
    (ports ports' : PortExprs) (h : registerConnections cs ports = .ok ports') (c' : String) (key : PortFieldKey) :
    (registered ports' key).map (depends (x.symbols c' noPortDep)) =
      (registered ports key).map (depends (x.symbols c' noPortDep)) ++
        cs.flatMap fun k => x.bringsDep k key.component key.port key.field := by
  induction cs generalizing ports with
  | nil => simp only [registerConnections, Except.ok.injEq] at h; subst h; simp
  | cons c cs ih =>
    simp only [registerConnections, bind_ok_iff] at h
    obtain ⟨p, hp, h⟩ := h
    rw [ih (fun c hc' => hc c (by simp [hc'])) (fun c hc' => hagg c (by simp [hc'])) p h,
      registerFields_depends x c (hc c (by simp)) (hagg c (by simp)) ports p hp c' key]
    simp

theorem resolvePort_depends (x : OptCtx) (hc : ∀ c ∈ x.network.connections, c.Accepted)
    (hagg : ∀ c ∈ x.network.connections, ∀ (r : PortRef) f d, (r = c.port1 ∨ r = c.port2) → r.fieldDef f = some d → d.AggPort)
    (ports : PortExprs) (h : registerConnections x.network.connections [] = .ok ports) (cid c' : String) (e e' : Expr) (ha : e.AggPort)
    (hr : resolvePort e cid ports = .ok e') :
    depends (x.symbols c' noPortDep) e' = depends (x.symbols c' (x.portDepends cid)) e := by
  have hpd : ∀ p f, x.portDepends cid p f = Idx.all ((registered ports ⟨cid, p, f⟩).map (depends (x.symbols c' noPortDep))) := by
    intro p f
    rw [registerConnections_depends x _ hc hagg [] ports h c' ⟨cid, p, f⟩]
    rfl
  refine copyWith_depends (h := portHooks cid ports) ?_ e ha e' hr
  constructor
  · intro n e h; cases h; rfl
  · intro n e h; cases h; rfl
  · intro c n e h; cases h; rfl
  · intro c n e h; cases h; rfl
  · intro c n ti si e h; cases h; rfl
  · intro c n ti si e h; cases h; rfl
  · intro p f e h
    simp only [portHooks, bind_ok_iff] at h
    obtain ⟨es, hes, h⟩ := h
    have : registered ports ⟨cid, p, f⟩ = es := by
      unfold Dict.get at hes
      unfold registered
      split at hes
      · next v hv => cases hes; rw [hv]; rfl
      · cases hes
    split at h
    · cases h
      show _ = x.portDepends cid p f
      rw [hpd, this]
      exact (Idx.both_false _).symm
    · cases h
  · intro p f a e h
    cases a with
    | base => cases h
    | portSum =>
      simp only [copyWith, portHooks, Except.ok.injEq] at h
      subst h
      show _ = x.portDepends cid p f
      rw [depends_sumExpressions, hpd]
      rfl

/-- The indexing that the program computes for an instantiated expression is what the expression depends on. -/
theorem computeIndexing_depends (x : OptCtx) (cid : String) (e : Expr) :
    ∀ i, computeIndexation x.structures e = .ok i → depends (x.symbols cid noPortDep) e = i := by
  have comb : ∀ l r : Expr, (∀ i, computeIndexation x.structures l = .ok i → depends (x.symbols cid noPortDep) l = i) →
      (∀ i, computeIndexation x.structures r = .ok i → depends (x.symbols cid noPortDep) r = i) → ∀ i,
      (do let a ← computeIndexation x.structures l
          if a.isTimeScenarioVarying then .ok a
          else do
            let b ← computeIndexation x.structures r
            .ok (a.or b)) = .ok i →
      (depends (x.symbols cid noPortDep) l).both (depends (x.symbols cid noPortDep) r) = i := by
    intro l r hl hr i h
    rw [bind_ok_iff] at h
    obtain ⟨a, ha, h⟩ := h
    rw [hl a ha]
    split at h
    · next hv => cases h; exact Idx.true_both _ _ hv
    · rw [bind_ok_iff] at h
      obtain ⟨b, hb, h⟩ := h
      cases h
      rw [hr b hb]
      rfl
  induction e using Expr.ind with
  | lit v => intro i h; cases h; rfl
  | var n => intro i h; cases h
  | par n => intro i h; cases h
  | cvar c n =>
    intro i h
    simp only [computeIndexation, OptCtx.structures, bind_ok_iff, Except.ok.injEq] at h
    obtain ⟨k, hk, v, hv, rfl⟩ := h
    show x.varIdx c n = _
    unfold OptCtx.varIdx
    rw [hk]
    unfold Dict.get at hv
    split at hv
    · next w hw => cases hv; simp [hw]
    · cases hv
  | cpar c n =>
    intro i h
    simp only [computeIndexation, OptCtx.structures, bind_ok_iff, Except.ok.injEq] at h
    obtain ⟨k, hk, v, hv, rfl⟩ := h
    show x.parIdx c n = _
    unfold OptCtx.parIdx
    rw [hk]
    unfold Dict.get at hv
    split at hv
    · next w hw => cases hv; simp [hw]
    · cases hv
  | pvar c n ti si => intro i h; cases h
  | ppar c n ti si => intro i h; cases h
  | portField p f => intro i h; cases h
  | neg e ih => intro i h; exact ih i h
  | add es ih =>
    intro i h
    simp only [computeIndexation] at h
    have rest : ∀ (es : List Expr), (∀ e ∈ es, ∀ i, computeIndexation x.structures e = .ok i → depends (x.symbols cid noPortDep) e = i) →
        ∀ r i, combineRest x.structures r es = .ok i → r.both (dependsAny (x.symbols cid noPortDep) es) = i := by
      intro es
      induction es with
      | nil => intro _ r i h; cases h; exact Idx.both_false _
      | cons e es ih =>
        intro hes r i h
        simp only [combineRest, bind_ok_iff] at h
        obtain ⟨b, hb, h⟩ := h
        rw [dependsAny, hes e (.head _) b hb, ← Idx.both_assoc]
        split at h
        · next hv => cases h; exact Idx.true_both _ _ hv
        · exact ih (fun e he => hes e (.tail _ he)) _ _ h
    cases es with
    | nil => cases h; rfl
    | cons e es =>
      simp only [combineFirst, bind_ok_iff] at h
      obtain ⟨a, ha, h⟩ := h
      show (depends _ e).both (dependsAny _ es) = i
      rw [ih e (.head _) a ha]
      split at h
      · next hv => cases h; exact Idx.true_both _ _ hv
      · exact rest es (fun e he => ih e (.tail _ he)) _ _ h
  | mul l r ihl ihr => exact comb l r ihl ihr
  | div l r ihl ihr => exact comb l r ihl ihr
  | cmp l r c ihl ihr => exact comb l r ihl ihr
  | shift e k ihe _ => intro i h; exact ihe i h
  | evalT e k ihe _ =>
    intro i h
    simp only [computeIndexation, bind_ok_iff, Except.ok.injEq] at h
    obtain ⟨a, ha, rfl⟩ := h
    simp only [depends, ihe a ha]
  | tsum e a b ihe _ _ => intro i h; exact ihe i h
  | allsum e ih =>
    intro i h
    simp only [computeIndexation, bind_ok_iff, Except.ok.injEq] at h
    obtain ⟨a, ha, rfl⟩ := h
    simp only [depends, ih a ha]
  | scen e o ih =>
    intro i h
    simp only [computeIndexation, bind_ok_iff, Except.ok.injEq] at h
    obtain ⟨a, ha, rfl⟩ := h
    simp only [depends, ih a ha]
  | agg e a ih => intro i h; cases h

/-- The indexing that the program computes for an expression of a component is what it depends on. -/
theorem indexing_dependence {x : OptCtx} (hn : x.NetworkOk) {ports : PortExprs}
    (hreg : registerConnections x.network.connections [] = .ok ports) (c : Component) {e e1 : Expr} (ha : e.AggPort)
    (h1 : instantiate e c.id ports = .ok e1) {i : Idx} (hi : x.computeIndexing e1 = .ok i) : x.dependence c e = i := by
  unfold instantiate at h1
  rw [bind_ok_iff] at h1
  obtain ⟨e0, h0, h1⟩ := h1
  have hagg : ∀ k ∈ x.network.connections, ∀ (r : PortRef) f d, (r = k.port1 ∨ r = k.port2) → r.fieldDef f = some d → d.AggPort := by
    intro k hk r f d hr hd y a hy
    have := ((hn.clean k hk r f d hr hd).1 _ hy).1
    simp [isPortRef] at this
  rw [← computeIndexing_depends x c.id e1 i hi,
    resolvePort_depends x hn.accepted hagg ports hreg c.id c.id e0 e1 (addComponentContext_aggPort c.id e e0 ha h0) h1,
    addComponentContext_depends x c.id c.id _ e e0 ha h0]
  rfl

end Verif
