import Verif.Lemmas.Dependence
import Verif.Lemmas.Affine

/-! Objective contributions as models accept them: what they depend on, also through ports, is what the check of the model reports. -/

namespace Verif
open Expr

/-- Let the check of the model report an indexing for an expression (parts that the check skips may have port fields); this is what the
expression depends on, whatever its port fields depend on. -/
theorem accepted_dependence {x : OptCtx} {c : Component} (hc : x.network.getComponent c.id = .ok c) (port : String → String → Idx) (e : Expr) :
    ∀ i, computeIndexation c.model.structures e = .ok i → depends (x.symbols c.id port) e = i := by
  have comb : ∀ l r : Expr, (∀ i, computeIndexation c.model.structures l = .ok i → depends (x.symbols c.id port) l = i) →
      (∀ i, computeIndexation c.model.structures r = .ok i → depends (x.symbols c.id port) r = i) → ∀ i,
      (do let a ← computeIndexation c.model.structures l
          if a.isTimeScenarioVarying then .ok a
          else do
            let b ← computeIndexation c.model.structures r
            .ok (a.or b)) = .ok i →
      (depends (x.symbols c.id port) l).both (depends (x.symbols c.id port) r) = i := by
    intro l r hl hr i h
    rw [bind_ok_iff] at h
    obtain ⟨a, ha, h⟩ := h
    rw [hl a ha]
    split at h
    · next hv => cases h; exact Idx.true_both _ _ hv
    · rw [bind_ok_iff] at h
      obtain ⟨b, hb, h⟩ := h
      cases h
      rw [hr b hb]
      rfl
  induction e using Expr.ind with
  | lit v => intro i h; cases h; rfl
  | var n =>
    intro i h
    simp only [computeIndexation, Model.structures, bind_ok_iff, Except.ok.injEq] at h
    obtain ⟨v, hv, rfl⟩ := h
    show x.varIdx c.id n = _
    unfold OptCtx.varIdx
    rw [hc]
    unfold Dict.get at hv
    split at hv
    · next w hw => cases hv; simp [hw]
    · cases hv
  | par n =>
    intro i h
    simp only [computeIndexation, Model.structures, bind_ok_iff, Except.ok.injEq] at h
    obtain ⟨v, hv, rfl⟩ := h
    show x.parIdx c.id n = _
    unfold OptCtx.parIdx
    rw [hc]
    unfold Dict.get at hv
    split at hv
    · next w hw => cases hv; simp [hw]
    · cases hv
  | cvar c n => intro i h; cases h
  | cpar c n => intro i h; cases h
  | pvar c n ti si => intro i h; cases h
  | ppar c n ti si => intro i h; cases h
  | portField p f => intro i h; cases h
  | neg e ih => intro i h; exact ih i h
  | add es ih =>
    intro i h
    simp only [computeIndexation] at h
    have rest : ∀ (es : List Expr), (∀ e ∈ es, ∀ i, computeIndexation c.model.structures e = .ok i → depends (x.symbols c.id port) e = i) →
        ∀ r i, combineRest c.model.structures r es = .ok i → r.both (dependsAny (x.symbols c.id port) es) = i := by
      intro es
      induction es with
      | nil => intro _ r i h; cases h; exact Idx.both_false _
      | cons e es ih =>
        intro hes r i h
        simp only [combineRest, bind_ok_iff] at h
        obtain ⟨b, hb, h⟩ := h
        rw [dependsAny, hes e (.head _) b hb, ← Idx.both_assoc]
        split at h
        · next hv => cases h; exact Idx.true_both _ _ hv
        · exact ih (fun e he => hes e (.tail _ he)) _ _ h
    cases es with
    | nil => cases h; rfl
    | cons e es =>
      simp only [combineFirst, bind_ok_iff] at h
      obtain ⟨a, ha, h⟩ := h
      show (depends _ e).both (dependsAny _ es) = i
      rw [ih e (.head _) a ha]
      split at h
      · next hv => cases h; exact Idx.true_both _ _ hv
      · exact rest es (fun e he => ih e (.tail _ he)) _ _ h
  | mul l r ihl ihr => exact comb l r ihl ihr
  | div l r ihl ihr => exact comb l r ihl ihr
  | cmp l r c ihl ihr => exact comb l r ihl ihr
  | shift e k ihe _ => intro i h; exact ihe i h
  | evalT e k ihe _ =>
    intro i h
    simp only [computeIndexation, bind_ok_iff, Except.ok.injEq] at h
    obtain ⟨a, ha, rfl⟩ := h
    simp only [depends, ihe a ha]
  | tsum e a b ihe _ _ => intro i h; exact ihe i h
  | allsum e ih =>
    intro i h
    simp only [computeIndexation, bind_ok_iff, Except.ok.injEq] at h
    obtain ⟨a, ha, rfl⟩ := h
    simp only [depends, ih a ha]
  | scen e o ih =>
    intro i h
    simp only [computeIndexation, bind_ok_iff, Except.ok.injEq] at h
    obtain ⟨a, ha, rfl⟩ := h
    simp only [depends, ih a ha]
  | agg e a ih => intro i h; cases h

/-- copying looks at the leaves of the expression only -/
theorem copyWith_sameLeaves {h h' : Hooks} (hagg : h'.agg = h.agg) (e : Expr) :
    (∀ y ∈ e.subs, isHookLeaf y = true → copyWith h' y = copyWith h y) → copyWith h' e = copyWith h e := by
  have leaf : ∀ {e : Expr}, (∀ y ∈ e.subs, isHookLeaf y = true → copyWith h' y = copyWith h y) → isHookLeaf e = true →
      copyWith h' e = copyWith h e := fun ha hl => ha _ (mem_subs_self _) hl
  have sub : ∀ {e x : Expr}, (∀ y ∈ e.subs, isHookLeaf y = true → copyWith h' y = copyWith h y) → (∀ y ∈ x.subs, y ∈ e.subs) →
      ∀ y ∈ x.subs, isHookLeaf y = true → copyWith h' y = copyWith h y := fun h1 h2 y hy => h1 y (h2 y hy)
  induction e using Expr.ind with
  | lit v => intro _; rfl
  | var n => intro ha; exact leaf ha rfl
  | par n => intro ha; exact leaf ha rfl
  | cvar c n => intro ha; exact leaf ha rfl
  | cpar c n => intro ha; exact leaf ha rfl
  | pvar c n ti si => intro ha; exact leaf ha rfl
  | ppar c n ti si => intro ha; exact leaf ha rfl
  | portField p f => intro ha; exact leaf ha rfl
  | neg e ih => intro ha; simp only [copyWith, ih (sub ha (by simp +contextual [subs]))]
  | add es ih =>
    intro ha
    simp only [copyWith]
    congr 1
    have : ∀ es : List Expr, (∀ e ∈ es, copyWith h' e = copyWith h e) → copyWithList h' es = copyWithList h es := by
      intro es
      induction es with
      | nil => intro _; rfl
      | cons e es ih' => intro hes; simp only [copyWithList, hes e (.head _), ih' fun e he => hes e (.tail _ he)]
    exact this es fun e he => ih e he (sub ha fun y hy => mem_subs_add.2 (.inr ⟨e, he, hy⟩))
  | mul l r ihl ihr => intro ha; simp only [copyWith, ihl (sub ha (by simp +contextual [subs])), ihr (sub ha (by simp +contextual [subs]))]
  | div l r ihl ihr => intro ha; simp only [copyWith, ihl (sub ha (by simp +contextual [subs])), ihr (sub ha (by simp +contextual [subs]))]
  | cmp l r c ihl ihr => intro ha; simp only [copyWith, ihl (sub ha (by simp +contextual [subs])), ihr (sub ha (by simp +contextual [subs]))]
  | shift l r ihl ihr => intro ha; simp only [copyWith, ihl (sub ha (by simp +contextual [subs])), ihr (sub ha (by simp +contextual [subs]))]
  | evalT l r ihl ihr => intro ha; simp only [copyWith, ihl (sub ha (by simp +contextual [subs])), ihr (sub ha (by simp +contextual [subs]))]
  | tsum e a b ihe iha ihb =>
    intro ha
    simp only [copyWith, ihe (sub ha (by simp +contextual [subs])), iha (sub ha (by simp +contextual [subs])),
      ihb (sub ha (by simp +contextual [subs]))]
  | allsum e ih => intro ha; simp only [copyWith, ih (sub ha (by simp +contextual [subs]))]
  | scen e o ih => intro ha; simp only [copyWith, ih (sub ha (by simp +contextual [subs]))]
  | agg e a ih => intro ha; simp only [copyWith, hagg, ih (sub ha (by simp +contextual [subs]))]

/-- a symbol without component, or of the solver problem -/
def isLoose : Expr → Bool
  | .var _ | .par _ | .pvar .. | .ppar .. => true
  | _ => false

/-- symbols of components only, no port field -/
def Placed (y : Expr) : Prop := isLoose y = false ∧ y.isPortRef = false
def NotLoose (y : Expr) : Prop := isLoose y = false

theorem headDet_placed : HeadDet Placed := by
  refine ⟨⟨?_, ?_, ?_, ?_, ?_, ?_, ?_, ?_, ?_, ?_⟩, ?_⟩ <;> intros <;> simp_all [Placed, isLoose, isPortRef]
theorem headDet_notLoose : HeadDet NotLoose := by
  refine ⟨⟨?_, ?_, ?_, ?_, ?_, ?_, ?_, ?_, ?_, ?_⟩, ?_⟩ <;> intros <;> simp_all [NotLoose, isLoose]

theorem addComponentContext_notLoose {c : String} {e e' : Expr} (h : addComponentContext c e = .ok e') : AllSubs NotLoose e' := by
  refine copyWith_allSubs (h := contextHooks c) headDet_notLoose ?_ e (fun y _ hl _ => by cases y <;> first | rfl | cases hl) e' h
  constructor
  · intro n e h; exact allSubs_leaf h rfl rfl
  · intro n e h; exact allSubs_leaf h rfl rfl
  · intro _ n e h; cases h
  · intro _ n e h; cases h
  · intro _ n _ _ e h; cases h
  · intro _ n _ _ e h; cases h
  · intro p f e h; exact allSubs_leaf h rfl rfl
  · intro f h; cases h

theorem addComponentContext_placed {c : String} {e e' : Expr} (hp : ∀ y ∈ e.subs, y.isPortRef = false)
    (h : addComponentContext c e = .ok e') : AllSubs Placed e' := by
  have h' : copyWith { contextHooks c with portField := fun _ _ => .error .cannotShift } e = .ok e' := by
    rw [← h]
    refine copyWith_sameLeaves (h := contextHooks c) (by rfl) e fun y hy hl => ?_
    have := hp y hy
    cases y <;> first | rfl | (cases hl; done) | (cases this; done)
  refine copyWith_allSubs headDet_placed ?_ e (fun y hy hl _ => ⟨(by cases y <;> first | rfl | cases hl), hp y hy⟩) e' h'
  constructor
  · intro n e h; exact allSubs_leaf h rfl ⟨rfl, rfl⟩
  · intro n e h; exact allSubs_leaf h rfl ⟨rfl, rfl⟩
  · intro _ n e h; cases h
  · intro _ n e h; cases h
  · intro _ n _ _ e h; cases h
  · intro _ n _ _ e h; cases h
  · intro p f e h; cases h
  · intro f h; cases h

/-- an instantiated expression has symbols of components only -/
theorem instantiate_placed {x : OptCtx} (hn : x.NetworkOk) {ports : PortExprs}
    (hreg : registerConnections x.network.connections [] = .ok ports) {cid : String} {e e1 : Expr}
    (h : instantiate e cid ports = .ok e1) : AllSubs Placed e1 := by
  have hports : PortsAll Placed ports := by
    intro k y hy
    rcases registerConnections_from _ hn.accepted hreg k y hy with hy | ⟨c, hc', r, f, d, hr, hd', hctx⟩
    · simp [registered] at hy
    · exact addComponentContext_placed (fun y hy => ((hn.clean c hc' r f d hr hd').1 y hy).1) hctx
  unfold instantiate at h
  rw [bind_ok_iff] at h
  obtain ⟨e0, h0, h⟩ := h
  have hloose := addComponentContext_notLoose h0
  have h' : copyWith { portHooks cid ports with
      var := fun _ => .error .cannotShift, par := fun _ => .error .cannotShift, pvar := fun _ _ _ _ => .error .cannotShift,
      ppar := fun _ _ _ _ => .error .cannotShift } e0 = .ok e1 := by
    rw [← h]
    refine copyWith_sameLeaves (h := portHooks cid ports) (by rfl) e0 fun y hy hl => ?_
    have := hloose y hy
    cases y <;> first | rfl | (cases hl; done) | (cases this; done)
  have hs : ∀ es : List Expr, Placed (.add es) := fun _ => ⟨rfl, rfl⟩
  refine copyWith_allSubs headDet_placed ?_ e0 (fun y _ hl ha => ⟨(by cases y <;> first | rfl | cases hl), ?_⟩) e1 h'
  · constructor
    · intro n e h; cases h
    · intro n e h; cases h
    · intro c n e h; exact allSubs_leaf h rfl ⟨rfl, rfl⟩
    · intro c n e h; exact allSubs_leaf h rfl ⟨rfl, rfl⟩
    · intro c n _ _ e h; cases h
    · intro c n _ _ e h; cases h
    · intro p f e h
      simp only [portHooks, bind_ok_iff] at h
      obtain ⟨es, hes, h⟩ := h
      split at h
      · cases h
        have := (Props.get_ok_iff' _ _ _).1 hes
        refine hports ⟨cid, p, f⟩ e ?_
        simp [registered, this]
      · cases h
    · intro f hf e a e' h
      cases hf
      simp only at h
      split at h
      · split at h
        · cases h
          exact allSubs_sumExpressions hs ⟨rfl, rfl⟩ fun o ho => hports _ o ho
        · cases h
      · cases h
  · rcases ha with ha | ha
    · cases y <;> first | rfl | exact absurd rfl (ha _ _) | cases hl
    · cases ha

/-- what can be expanded has an indexing -/
theorem expand_indexed {x : ExpandCtx} (e : Expr) : AllSubs Placed e → ∀ e', expand x e = .ok e' →
    ∃ i, computeIndexation x.structs e = .ok i := by
  have sub : ∀ {e y : Expr}, AllSubs Placed e → (∀ z ∈ y.subs, z ∈ e.subs) → AllSubs Placed y := fun h1 h2 z hz => h1 z (h2 z hz)
  have comb : ∀ l r : Expr, (∃ i, computeIndexation x.structs l = .ok i) → (∃ i, computeIndexation x.structs r = .ok i) →
      ∃ i, (do let a ← computeIndexation x.structs l
               if a.isTimeScenarioVarying then .ok a
               else do
                 let b ← computeIndexation x.structs r
                 .ok (a.or b) : R Idx) = .ok i := by
    rintro l r ⟨a, ha⟩ ⟨b, hb⟩
    simp only [ha, hb, ok_bind]
    split <;> exact ⟨_, rfl⟩
  induction e using Expr.ind with
  | lit v => intro _ _ _; exact ⟨_, rfl⟩
  | var n => intro hp; cases (hp _ (mem_subs_self _)).1
  | par n => intro hp; cases (hp _ (mem_subs_self _)).1
  | cvar c n => intro _ e' h; simp only [expand, bind_ok_iff] at h; exact ⟨_, h.choose_spec.1⟩
  | cpar c n => intro _ e' h; simp only [expand, bind_ok_iff] at h; exact ⟨_, h.choose_spec.1⟩
  | pvar c n ti si => intro hp; cases (hp _ (mem_subs_self _)).1
  | ppar c n ti si => intro hp; cases (hp _ (mem_subs_self _)).1
  | portField p f => intro hp; cases (hp _ (mem_subs_self _)).2
  | neg e ih =>
    intro hp e' h
    simp only [expand, bind_ok_iff] at h
    obtain ⟨a, ha, -⟩ := h
    exact ih (sub hp (by simp +contextual [subs])) a ha
  | add es ih =>
    intro hp e' h
    simp only [expand, bind_ok_iff] at h
    obtain ⟨es', hes, -⟩ := h
    have all : ∀ (es : List Expr) (es' : List Expr), expandList x es = .ok es' → (∀ e ∈ es, ∀ e', expand x e = .ok e' →
        ∃ i, computeIndexation x.structs e = .ok i) → ∀ e ∈ es, ∃ i, computeIndexation x.structs e = .ok i := by
      intro es
      induction es with
      | nil => intro _ _ _ e he; cases he
      | cons e es ih' =>
        intro es' h hall a ha
        simp only [expandList, bind_ok_iff] at h
        obtain ⟨b, hb, bs, hbs, -⟩ := h
        rcases List.mem_cons.1 ha with rfl | ha
        · exact hall _ (.head _) b hb
        · exact ih' bs hbs (fun e he => hall e (.tail _ he)) a ha
    have hidx := all es es' hes fun e he e' h' => ih e he (sub hp fun y hy => mem_subs_add.2 (.inr ⟨e, he, hy⟩)) e' h'
    have rest : ∀ (es : List Expr), (∀ e ∈ es, ∃ i, computeIndexation x.structs e = .ok i) → ∀ r, ∃ i, combineRest x.structs r es = .ok i := by
      intro es
      induction es with
      | nil => intro _ r; exact ⟨_, rfl⟩
      | cons e es ih' =>
        intro hall r
        obtain ⟨b, hb⟩ := hall e (.head _)
        simp only [combineRest, hb, ok_bind]
        split
        · exact ⟨_, rfl⟩
        · exact ih' (fun e he => hall e (.tail _ he)) _
    simp only [computeIndexation]
    cases es with
    | nil => exact ⟨_, rfl⟩
    | cons e es =>
      obtain ⟨a, ha⟩ := hidx e (.head _)
      simp only [combineFirst, ha, ok_bind]
      split
      · exact ⟨_, rfl⟩
      · exact rest es (fun e he => hidx e (.tail _ he)) _
  | mul l r ihl ihr =>
    intro hp e' h
    simp only [expand, bind_ok_iff] at h
    obtain ⟨a, ha, b, hb, -⟩ := h
    exact comb l r (ihl (sub hp (by simp +contextual [subs])) a ha) (ihr (sub hp (by simp +contextual [subs])) b hb)
  | div l r ihl ihr =>
    intro hp e' h
    simp only [expand, bind_ok_iff] at h
    obtain ⟨a, ha, b, hb, -⟩ := h
    exact comb l r (ihl (sub hp (by simp +contextual [subs])) a ha) (ihr (sub hp (by simp +contextual [subs])) b hb)
  | cmp l r c ihl ihr =>
    intro hp e' h
    simp only [expand, bind_ok_iff] at h
    obtain ⟨a, ha, b, hb, -⟩ := h
    exact comb l r (ihl (sub hp (by simp +contextual [subs])) a ha) (ihr (sub hp (by simp +contextual [subs])) b hb)
  | shift e k ihe _ =>
    intro hp e' h
    simp only [expand, bind_ok_iff] at h
    obtain ⟨_, _, a, ha, -⟩ := h
    exact ihe (sub hp (by simp +contextual [subs])) a ha
  | evalT e k ihe _ =>
    intro hp e' h
    simp only [expand, bind_ok_iff] at h
    obtain ⟨_, _, a, ha, -⟩ := h
    obtain ⟨i, hi⟩ := ihe (sub hp (by simp +contextual [subs])) a ha
    exact ⟨_, by simp only [computeIndexation, hi, ok_bind]; rfl⟩
  | tsum e a b ihe _ _ =>
    intro hp e' h
    simp only [expand, bind_ok_iff] at h
    obtain ⟨_, _, _, _, a, ha, -⟩ := h
    exact ihe (sub hp (by simp +contextual [subs])) a ha
  | allsum e ih =>
    intro hp e' h
    simp only [expand, bind_ok_iff] at h
    obtain ⟨a, ha, -⟩ := h
    obtain ⟨i, hi⟩ := ih (sub hp (by simp +contextual [subs])) a ha
    exact ⟨_, by simp only [computeIndexation, hi, ok_bind]; rfl⟩
  | scen e o ih =>
    intro hp e' h
    simp only [expand] at h
    split at h
    · cases h
    · simp only [bind_ok_iff] at h
      obtain ⟨a, ha, -⟩ := h
      obtain ⟨i, hi⟩ := ih (sub hp (by simp +contextual [subs])) a ha
      exact ⟨_, by simp only [computeIndexation, hi, ok_bind]; rfl⟩
  | agg e a ih => intro hp; cases (hp _ (mem_subs_self _)).2

/-- The indexing of an instantiated objective contribution is what the check of the model reports. -/
theorem accepted_indexed {x : OptCtx} (hn : x.NetworkOk) {ports : PortExprs}
    (hreg : registerConnections x.network.connections [] = .ok ports) {c : Component} (hc : x.network.getComponent c.id = .ok c)
    {e e1 e2 : Expr} (ha : e.AggPort) (h1 : instantiate e c.id ports = .ok e1) (h2 : x.expandOperators e1 = .ok e2) {i : Idx}
    (hi : computeIndexation c.model.structures e = .ok i) : computeIndexation x.structures e1 = .ok i := by
  obtain ⟨j, hj⟩ := expand_indexed e1 (instantiate_placed hn hreg h1) e2 h2
  have hj' : computeIndexation x.structures e1 = .ok j := hj
  rw [hj', ← indexing_dependence hn hreg c ha h1 hj', ← accepted_dependence hc (x.portDepends c.id) e i hi]
  rfl

end Verif
