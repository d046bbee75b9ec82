import Verif.Lemmas.CopyOk
import Verif.Lemmas.Network

/-! Port field definitions. -/

namespace Verif
open Expr

theorem bodySubsList_eq (es : List Expr) : bodySubsList es = (es.map bodySubs).flatten := by
  induction es with
  | nil => rfl
  | cons e es ih => simp [bodySubsList, ih]

theorem mem_bodySubs_self (e : Expr) : e ∈ e.bodySubs := by cases e <;> simp [bodySubs]

/-- nodes refused in a port field definition -/
def refused (e : Expr) : Bool := e.isPortRef || e.isCmp || e.hasComponent

theorem checkPortExprList_ok (es : List Expr) :
    checkPortExprList es = .ok () ↔ ∀ e ∈ es, checkPortExpr e = .ok () := by
  induction es with
  | nil => simp [checkPortExprList]
  | cons e es ih =>
    simp only [checkPortExprList, bind_ok_iff, ih, List.mem_cons, forall_eq_or_imp]
    exact ⟨fun ⟨_, h1, h2⟩ => ⟨h1, h2⟩, fun ⟨h1, h2⟩ => ⟨(), h1, h2⟩⟩

theorem checkPortExpr_ok (e : Expr) : checkPortExpr e = .ok () ↔ ∀ y ∈ e.bodySubs, refused y = false := by
  induction e using Expr.ind with
  | lit v => simp [checkPortExpr, bodySubs, refused, isPortRef, isCmp, hasComponent]
  | var n => simp [checkPortExpr, bodySubs, refused, isPortRef, isCmp, hasComponent]
  | par n => simp [checkPortExpr, bodySubs, refused, isPortRef, isCmp, hasComponent]
  | cvar c n => simp [checkPortExpr, bodySubs, refused, isPortRef, isCmp, hasComponent]
  | cpar c n => simp [checkPortExpr, bodySubs, refused, isPortRef, isCmp, hasComponent]
  | pvar c n ti si => simp [checkPortExpr, bodySubs, refused, isPortRef, isCmp, hasComponent]
  | ppar c n ti si => simp [checkPortExpr, bodySubs, refused, isPortRef, isCmp, hasComponent]
  | portField p f => simp [checkPortExpr, bodySubs, refused, isPortRef, isCmp, hasComponent]
  | agg e a _ => simp [checkPortExpr, bodySubs, refused, isPortRef, isCmp, hasComponent]
  | cmp l r c _ _ => simp [checkPortExpr, bodySubs, refused, isPortRef, isCmp, hasComponent]
  | neg e ih => simp [checkPortExpr, bodySubs, refused, isPortRef, isCmp, hasComponent, ih]
  | add es ih =>
    rw [checkPortExpr, checkPortExprList_ok]
    simp only [bodySubs, bodySubsList_eq, List.mem_cons, List.mem_flatten, List.mem_map]
    constructor
    · rintro h y (rfl | ⟨_, ⟨x, hx, rfl⟩, hy⟩)
      · rfl
      · exact (ih x hx).1 (h x hx) y hy
    · intro h x hx
      exact (ih x hx).2 fun y hy => h y (.inr ⟨_, ⟨x, hx, rfl⟩, hy⟩)
  | mul l r ihl ihr =>
    simp only [checkPortExpr, bind_ok_iff, ihl, ihr, bodySubs, List.mem_cons, List.mem_append, or_imp, forall_and,
      forall_eq, exists_const, refused, isPortRef, isCmp, hasComponent, Bool.or_self, true_and]
  | div l r ihl ihr =>
    simp only [checkPortExpr, bind_ok_iff, ihl, ihr, bodySubs, List.mem_cons, List.mem_append, or_imp, forall_and,
      forall_eq, exists_const, refused, isPortRef, isCmp, hasComponent, Bool.or_self, true_and]
  | shift e k ih _ => simp [checkPortExpr, bodySubs, refused, isPortRef, isCmp, hasComponent, ih]
  | evalT e k ih _ => simp [checkPortExpr, bodySubs, refused, isPortRef, isCmp, hasComponent, ih]
  | tsum e a b ih _ _ => simp [checkPortExpr, bodySubs, refused, isPortRef, isCmp, hasComponent, ih]
  | allsum e ih => simp [checkPortExpr, bodySubs, refused, isPortRef, isCmp, hasComponent, ih]
  | scen e o ih => simp [checkPortExpr, bodySubs, refused, isPortRef, isCmp, hasComponent, ih]

theorem checkPortExprList_error (es : List Expr)
    (ih : ∀ e ∈ es, ∀ x, checkPortExpr e = .error x → ∃ m, x = .valueError m) :
    ∀ x, checkPortExprList es = .error x → ∃ m, x = .valueError m := by
  induction es with
  | nil => intro x h; cases h
  | cons e es ih2 =>
    intro x h
    simp only [checkPortExprList, bind_error_iff] at h
    rcases h with h | ⟨_, _, h⟩
    · exact ih e (by simp) x h
    · exact ih2 (fun e he => ih e (by simp [he])) x h

theorem checkPortExpr_error (e : Expr) : ∀ x, checkPortExpr e = .error x → ∃ m, x = .valueError m := by
  induction e using Expr.ind with
  | neg e ih => intro x h; exact ih x h
  | shift e k ih _ => intro x h; exact ih x h
  | evalT e k ih _ => intro x h; exact ih x h
  | tsum e a b ih _ _ => intro x h; exact ih x h
  | allsum e ih => intro x h; exact ih x h
  | scen e o ih => intro x h; exact ih x h
  | add es ih => intro x h; exact checkPortExprList_error es ih x h
  | mul l r ihl ihr =>
    intro x h
    simp only [checkPortExpr, bind_error_iff] at h
    rcases h with h | ⟨_, _, h⟩
    · exact ihl x h
    · exact ihr x h
  | div l r ihl ihr =>
    intro x h
    simp only [checkPortExpr, bind_error_iff] at h
    rcases h with h | ⟨_, _, h⟩
    · exact ihl x h
    · exact ihr x h
  | _ => intro x h; cases h <;> exact ⟨_, rfl⟩

/-- every sub-expression is in the body or inside an amount -/
theorem subs_of_body {P : Expr → Prop} (e : Expr) (ha : e.AmountsAll P) (hb : ∀ y ∈ e.bodySubs, P y) :
    ∀ y ∈ e.subs, P y := by
  have sub : ∀ {e x : Expr}, e.AmountsAll P → (∀ y ∈ x.subs, y ∈ e.subs) → x.AmountsAll P :=
    fun h hs => ⟨fun x k hx => h.1 x k (hs _ hx), fun x k hx => h.2.1 x k (hs _ hx),
      fun x a b hx => h.2.2 x a b (hs _ hx)⟩
  induction e using Expr.ind with
  | neg e ih =>
    simp only [subs, bodySubs, List.mem_cons, forall_eq_or_imp] at hb ⊢
    exact ⟨hb.1, ih (sub ha (by simp +contextual [subs])) hb.2⟩
  | allsum e ih =>
    simp only [subs, bodySubs, List.mem_cons, forall_eq_or_imp] at hb ⊢
    exact ⟨hb.1, ih (sub ha (by simp +contextual [subs])) hb.2⟩
  | scen e o ih =>
    simp only [subs, bodySubs, List.mem_cons, forall_eq_or_imp] at hb ⊢
    exact ⟨hb.1, ih (sub ha (by simp +contextual [subs])) hb.2⟩
  | agg e o ih =>
    simp only [subs, bodySubs, List.mem_cons, forall_eq_or_imp] at hb ⊢
    exact ⟨hb.1, ih (sub ha (by simp +contextual [subs])) hb.2⟩
  | mul l r ihl ihr =>
    simp only [subs, bodySubs, List.mem_cons, forall_eq_or_imp, List.mem_append, or_imp, forall_and] at hb ⊢
    exact ⟨hb.1, ihl (sub ha (by simp +contextual [subs])) hb.2.1, ihr (sub ha (by simp +contextual [subs])) hb.2.2⟩
  | div l r ihl ihr =>
    simp only [subs, bodySubs, List.mem_cons, forall_eq_or_imp, List.mem_append, or_imp, forall_and] at hb ⊢
    exact ⟨hb.1, ihl (sub ha (by simp +contextual [subs])) hb.2.1, ihr (sub ha (by simp +contextual [subs])) hb.2.2⟩
  | cmp l r c ihl ihr =>
    simp only [subs, bodySubs, List.mem_cons, forall_eq_or_imp, List.mem_append, or_imp, forall_and] at hb ⊢
    exact ⟨hb.1, ihl (sub ha (by simp +contextual [subs])) hb.2.1, ihr (sub ha (by simp +contextual [subs])) hb.2.2⟩
  | shift e k ih _ =>
    simp only [bodySubs, List.mem_cons, forall_eq_or_imp] at hb
    simp only [subs, List.mem_cons, forall_eq_or_imp, List.mem_append, or_imp, forall_and, forall_eq]
    exact ⟨hb.1, ih (sub ha (by simp +contextual [subs])) hb.2, ha.1 e k (mem_subs_self _)⟩
  | evalT e k ih _ =>
    simp only [bodySubs, List.mem_cons, forall_eq_or_imp] at hb
    simp only [subs, List.mem_cons, forall_eq_or_imp, List.mem_append, or_imp, forall_and, forall_eq]
    exact ⟨hb.1, ih (sub ha (by simp +contextual [subs])) hb.2, ha.2.1 e k (mem_subs_self _)⟩
  | tsum e a b ih _ _ =>
    simp only [bodySubs, List.mem_cons, forall_eq_or_imp] at hb
    simp only [subs, List.mem_cons, forall_eq_or_imp, List.mem_append, or_imp, forall_and, forall_eq]
    exact ⟨hb.1, ⟨ih (sub ha (by simp +contextual [subs])) hb.2, (ha.2.2 e a b (mem_subs_self _)).1⟩,
      (ha.2.2 e a b (mem_subs_self _)).2⟩
  | add es ih =>
    intro y hy
    rcases mem_subs_add.1 hy with rfl | ⟨x, hx, hy⟩
    · exact hb _ (mem_bodySubs_self _)
    · refine ih x hx (sub ha fun z hz => mem_subs_add.2 (.inr ⟨x, hx, hz⟩)) (fun z hz => hb z ?_) y hy
      simp only [bodySubs, bodySubsList_eq, List.mem_cons, List.mem_flatten, List.mem_map]
      exact .inr ⟨_, ⟨x, hx, rfl⟩, hz⟩
  | _ => simpa [subs, bodySubs] using hb

/-! ### The context adder and the port resolver -/

theorem addComponentContext_ok_iff (c : String) (e : Expr) :
    (∃ e', addComponentContext c e = .ok e') ↔ (∀ y ∈ e.subs, y.hasComponent = false) ∧ add [] ∉ e.subs := by
  unfold addComponentContext
  rw [copyWith_ok_iff (visits_subs (h := contextHooks c) rfl)]
  have : ∀ y, NodeOk (contextHooks c) y ↔ y.hasComponent = false ∧ y ≠ add [] := by
    intro y
    cases y <;> simp [NodeOk, contextHooks, copyHooks, hasComponent]
  simp only [this, forall_and]
  refine and_congr_right fun _ => ⟨fun h hx => h _ hx rfl, ?_⟩
  rintro h y hy rfl
  exact h hy

theorem addComponentContext_error (c : String) (e : Expr) (x : Err) (h : addComponentContext c e = .error x) :
    x = .indexError ∨ ∃ m, x = .valueError m := by
  obtain ⟨y, hy, he⟩ := copyWith_error_node (visits_subs (h := contextHooks c) rfl) e x h
  cases y <;> simp only [NodeErr, contextHooks, copyHooks, reduceCtorEq, Except.error.injEq, false_and, exists_const] at he
  all_goals first | exact .inr ⟨_, he.symm⟩ | exact .inl he.2

theorem addComponentContext_leaves (c : String) (e e' : Expr) (h : addComponentContext c e = .ok e') :
    e'.leaves = e.leaves.map (ofComponent c) := by
  refine copyWith_leaves (h := contextHooks c) ?_ e e' h
  constructor
  · intro v; rfl
  · intro n e h; cases h; simp [leaves, ofComponent]
  · intro n e h; cases h; simp [leaves, ofComponent]
  · intro _ n e h; cases h
  · intro _ n e h; cases h
  · intro _ n _ _ e h; cases h
  · intro _ n _ _ e h; cases h
  · intro p f e h; cases h; simp [leaves, ofComponent]
  · rfl

theorem mem_leaves_of_subs (e : Expr) : ∀ y ∈ e.subs, isHookLeaf y = true → y ∈ e.leaves := by
  induction e using Expr.ind with
  | add es ih =>
    intro y hy hl
    rcases mem_subs_add.1 hy with rfl | ⟨x, hx, hy⟩
    · cases hl
    · simp only [leaves, leavesList_eq, List.mem_flatten, List.mem_map]
      exact ⟨_, ⟨x, hx, rfl⟩, ih x hx y hy hl⟩
  | neg e ih =>
    intro y hy hl
    simp only [subs, List.mem_cons] at hy
    rcases hy with rfl | hy
    · cases hl
    · exact ih y hy hl
  | allsum e ih =>
    intro y hy hl
    simp only [subs, List.mem_cons] at hy
    rcases hy with rfl | hy
    · cases hl
    · exact ih y hy hl
  | scen e o ih =>
    intro y hy hl
    simp only [subs, List.mem_cons] at hy
    rcases hy with rfl | hy
    · cases hl
    · exact ih y hy hl
  | agg e o ih =>
    intro y hy hl
    simp only [subs, List.mem_cons] at hy
    rcases hy with rfl | hy
    · cases hl
    · exact ih y hy hl
  | mul l r ihl ihr =>
    intro y hy hl
    simp only [subs, List.mem_cons, List.mem_append] at hy
    rcases hy with rfl | hy | hy
    · cases hl
    · exact List.mem_append.2 (.inl (ihl y hy hl))
    · exact List.mem_append.2 (.inr (ihr y hy hl))
  | div l r ihl ihr =>
    intro y hy hl
    simp only [subs, List.mem_cons, List.mem_append] at hy
    rcases hy with rfl | hy | hy
    · cases hl
    · exact List.mem_append.2 (.inl (ihl y hy hl))
    · exact List.mem_append.2 (.inr (ihr y hy hl))
  | cmp l r c ihl ihr =>
    intro y hy hl
    simp only [subs, List.mem_cons, List.mem_append] at hy
    rcases hy with rfl | hy | hy
    · cases hl
    · exact List.mem_append.2 (.inl (ihl y hy hl))
    · exact List.mem_append.2 (.inr (ihr y hy hl))
  | shift l r ihl ihr =>
    intro y hy hl
    simp only [subs, List.mem_cons, List.mem_append] at hy
    rcases hy with rfl | hy | hy
    · cases hl
    · exact List.mem_append.2 (.inl (ihl y hy hl))
    · exact List.mem_append.2 (.inr (ihr y hy hl))
  | evalT l r ihl ihr =>
    intro y hy hl
    simp only [subs, List.mem_cons, List.mem_append] at hy
    rcases hy with rfl | hy | hy
    · cases hl
    · exact List.mem_append.2 (.inl (ihl y hy hl))
    · exact List.mem_append.2 (.inr (ihr y hy hl))
  | tsum e l r ihe ihl ihr =>
    intro y hy hl
    simp only [subs, List.mem_cons, List.mem_append] at hy
    rcases hy with rfl | (hy | hy) | hy
    · cases hl
    · exact List.mem_append.2 (.inl (List.mem_append.2 (.inl (ihe y hy hl))))
    · exact List.mem_append.2 (.inl (List.mem_append.2 (.inr (ihl y hy hl))))
    · exact List.mem_append.2 (.inr (ihr y hy hl))
  | _ => intro y hy _; simpa [subs, leaves] using hy

theorem mem_subs_of_leaves (e : Expr) : ∀ y ∈ e.leaves, y ∈ e.subs := by
  induction e using Expr.ind with
  | add es ih =>
    intro y hy
    simp only [leaves, leavesList_eq, List.mem_flatten, List.mem_map] at hy
    obtain ⟨_, ⟨x, hx, rfl⟩, hy⟩ := hy
    exact mem_subs_add.2 (.inr ⟨x, hx, ih x hx y hy⟩)
  | neg e ih => intro y hy; exact List.mem_cons.2 (.inr (ih y hy))
  | allsum e ih => intro y hy; exact List.mem_cons.2 (.inr (ih y hy))
  | scen e o ih => intro y hy; exact List.mem_cons.2 (.inr (ih y hy))
  | agg e o ih => intro y hy; exact List.mem_cons.2 (.inr (ih y hy))
  | mul l r ihl ihr => intro y hy; simp only [leaves, List.mem_append] at hy; simp only [subs, List.mem_cons, List.mem_append]; exact .inr (hy.imp (ihl y) (ihr y))
  | div l r ihl ihr => intro y hy; simp only [leaves, List.mem_append] at hy; simp only [subs, List.mem_cons, List.mem_append]; exact .inr (hy.imp (ihl y) (ihr y))
  | cmp l r c ihl ihr => intro y hy; simp only [leaves, List.mem_append] at hy; simp only [subs, List.mem_cons, List.mem_append]; exact .inr (hy.imp (ihl y) (ihr y))
  | shift l r ihl ihr => intro y hy; simp only [leaves, List.mem_append] at hy; simp only [subs, List.mem_cons, List.mem_append]; exact .inr (hy.imp (ihl y) (ihr y))
  | evalT l r ihl ihr => intro y hy; simp only [leaves, List.mem_append] at hy; simp only [subs, List.mem_cons, List.mem_append]; exact .inr (hy.imp (ihl y) (ihr y))
  | tsum e l r ihe ihl ihr => intro y hy; simp only [leaves, List.mem_append] at hy; simp only [subs, List.mem_cons, List.mem_append]; exact .inr (hy.imp (Or.imp (ihe y) (ihl y)) (ihr y))
  | _ => intro y hy; simpa [subs, leaves] using hy

/-- a component symbol, or an unchanged leaf: what the context adder leaves -/
theorem addComponentContext_leaf (c : String) (e e' : Expr) (h : addComponentContext c e = .ok e') (y : Expr)
    (hy : y ∈ e'.subs) (hl : isHookLeaf y = true) : ∃ x ∈ e.subs, y = ofComponent c x := by
  have := mem_leaves_of_subs e' y hy hl
  rw [addComponentContext_leaves c e e' h, List.mem_map] at this
  obtain ⟨x, hx, rfl⟩ := this
  exact ⟨x, mem_subs_of_leaves e x hx, rfl⟩

/-- inner nodes keep their kind -/
theorem addComponentContext_inner (c : String) (P : Expr → Prop) (hd : HeadDet P) (hleaf : ∀ y, isHookLeaf y = true → P y)
    (e e' : Expr) (hi : ∀ y ∈ e.subs, P y) (h : addComponentContext c e = .ok e') : ∀ y ∈ e'.subs, P y := by
  have single : ∀ y, isHookLeaf y = true → AllSubs P y := by
    intro y hy x hx
    cases y <;> simp only [isHookLeaf, reduceCtorEq, Bool.false_eq_true] at hy <;>
      (simp only [subs, List.mem_singleton] at hx; subst hx; exact hleaf _ rfl)
  refine copyWith_allSubs (h := contextHooks c) hd ?_ e (fun y hy _ _ => hi y hy) e' h
  constructor
  · intro n e h; cases h; exact single _ rfl
  · intro n e h; cases h; exact single _ rfl
  · intro _ n e h; cases h
  · intro _ n e h; cases h
  · intro _ n _ _ e h; cases h
  · intro _ n _ _ e h; cases h
  · intro p f e h; cases h; exact single _ rfl
  · intro f h; cases h

/-- after the context adder, an expression without port references and comparisons has no model-level node left -/
theorem addComponentContext_problem (c : String) (e e' : Expr)
    (hi : ∀ y ∈ e.subs, y.isPortRef = false ∧ y.isCmp = false) (h : addComponentContext c e = .ok e') :
    ∀ y ∈ e'.subs, y.isModelLevel = false := by
  have h1 := addComponentContext_inner c (fun y => isHookLeaf y = true ∨ (y.isPortRef = false ∧ y.isCmp = false))
    ⟨⟨fun _ => .inr ⟨rfl, rfl⟩, fun _ _ _ => .inr ⟨rfl, rfl⟩, fun _ _ _ _ _ => .inr ⟨rfl, rfl⟩,
      fun _ _ _ _ _ => .inr ⟨rfl, rfl⟩, fun _ _ _ _ _ h => by simp [isHookLeaf, isCmp] at h,
      fun _ _ _ _ _ => .inr ⟨rfl, rfl⟩, fun _ _ _ _ _ => .inr ⟨rfl, rfl⟩, fun _ _ _ _ _ _ _ => .inr ⟨rfl, rfl⟩,
      fun _ _ _ => .inr ⟨rfl, rfl⟩, fun _ _ _ _ => .inr ⟨rfl, rfl⟩⟩,
      fun _ _ _ h => by simp [isHookLeaf, isPortRef] at h⟩ (fun _ h => .inl h) e e' (fun y hy => .inr (hi y hy)) h
  intro y hy
  by_cases hl : isHookLeaf y = true
  · obtain ⟨x, hx, rfl⟩ := addComponentContext_leaf c e e' h y hy hl
    have := (hi x hx).1
    cases x <;> simp_all [ofComponent, isModelLevel, isPortRef, isHookLeaf]
  · rcases h1 y hy with h | ⟨h1, h2⟩
    · exact absurd h hl
    · cases y <;> simp_all [isModelLevel, isPortRef, isCmp, isHookLeaf]

theorem addComponentContext_aggPort (c : String) (e e' : Expr) (ha : e.AggPort) (h : addComponentContext c e = .ok e') :
    e'.AggPort := by
  let P : Expr → Prop := fun y => ∀ x a, y = agg x a → ∃ p f, x = portField p f
  have single : ∀ y, isHookLeaf y = true → AllSubs P y := by
    intro y hy x hx z a hz
    subst hz
    cases y <;> simp only [isHookLeaf, Bool.false_eq_true] at hy <;>
      (simp only [subs, List.mem_singleton, reduceCtorEq] at hx)
  have := copyWith_allSubs' (h := contextHooks c) (P := P)
    ⟨by simp [P], by simp [P], by simp [P], by simp [P], by simp [P], by simp [P], by simp [P], by simp [P], by simp [P],
      by simp [P]⟩
    (by
      intro e e' o h hP x a hx
      cases hx
      obtain ⟨p, f, rfl⟩ := hP e _ rfl
      cases h
      exact ⟨p, f, rfl⟩)
    (by
      constructor
      · intro n e h; cases h; exact single _ rfl
      · intro n e h; cases h; exact single _ rfl
      · intro _ n e h; cases h
      · intro _ n e h; cases h
      · intro _ n _ _ e h; cases h
      · intro _ n _ _ e h; cases h
      · intro p f e h; cases h; exact single _ rfl
      · intro f h; cases h) e (fun y hy _ _ x a hx => ha x a (hx ▸ hy)) e' h
  exact fun x a hx => this _ hx x a rfl

/-- after the context adder, only port references and problem-level nodes are left -/
theorem addComponentContext_levels (c : String) (e e' : Expr) (hi : ∀ y ∈ e.subs, y.isCmp = false)
    (h : addComponentContext c e = .ok e') : ∀ y ∈ e'.subs, y.isPortRef = true ∨ y.isModelLevel = false := by
  have h1 := addComponentContext_inner c (fun y => y.isCmp = false)
    ⟨⟨fun _ => rfl, fun _ _ _ => rfl, fun _ _ _ _ _ => rfl, fun _ _ _ _ _ => rfl,
      fun _ _ _ _ _ h => (by cases h), fun _ _ _ _ _ => rfl, fun _ _ _ _ _ => rfl, fun _ _ _ _ _ _ _ => rfl,
      fun _ _ _ => rfl, fun _ _ _ _ => rfl⟩, fun _ _ _ _ => rfl⟩
    (fun y hy => by cases y <;> simp_all [isHookLeaf, isCmp]) e e' hi h
  intro y hy
  by_cases hl : isHookLeaf y = true
  · obtain ⟨x, hx, rfl⟩ := addComponentContext_leaf c e e' h y hy hl
    cases x <;> simp_all [ofComponent, isModelLevel, isPortRef, isHookLeaf]
  · have := h1 y hy
    cases y <;> simp_all [isModelLevel, isPortRef, isCmp, isHookLeaf]

end Verif
