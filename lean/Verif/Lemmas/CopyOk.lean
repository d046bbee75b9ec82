import Verif.Lemmas.CopySubs
import Verif.Spec.Network

/-! When a copying visitor succeeds. -/

namespace Verif
open Expr

/-- the nodes visited by a copy with hooks `h` -/
structure Visits (h : Hooks) (V : Expr → List Expr) : Prop where
  lit : ∀ v, V (.lit v) = [.lit v]
  var : ∀ n, V (.var n) = [.var n]
  par : ∀ n, V (.par n) = [.par n]
  cvar : ∀ c n, V (.cvar c n) = [.cvar c n]
  cpar : ∀ c n, V (.cpar c n) = [.cpar c n]
  pvar : ∀ c n ti si, V (.pvar c n ti si) = [.pvar c n ti si]
  ppar : ∀ c n ti si, V (.ppar c n ti si) = [.ppar c n ti si]
  portField : ∀ p f, V (.portField p f) = [.portField p f]
  neg : ∀ e, V (.neg e) = .neg e :: V e
  add : ∀ es x, x ∈ V (.add es) ↔ x = .add es ∨ ∃ e ∈ es, x ∈ V e
  mul : ∀ l r, V (.mul l r) = .mul l r :: (V l ++ V r)
  div : ∀ l r, V (.div l r) = .div l r :: (V l ++ V r)
  cmp : ∀ l r c, V (.cmp l r c) = .cmp l r c :: (V l ++ V r)
  shift : ∀ l r, V (.shift l r) = .shift l r :: (V l ++ V r)
  evalT : ∀ l r, V (.evalT l r) = .evalT l r :: (V l ++ V r)
  tsum : ∀ e a b, V (.tsum e a b) = .tsum e a b :: (V e ++ V a ++ V b)
  allsum : ∀ e, V (.allsum e) = .allsum e :: V e
  scen : ∀ e o, V (.scen e o) = .scen e o :: V e
  agg : ∀ e a, V (.agg e a) = .agg e a :: if h.agg.isSome then [] else V e

/-- the copy of this node does not raise by itself -/
def NodeOk (h : Hooks) : Expr → Prop
  | .var n => ∃ e, h.var n = .ok e
  | .par n => ∃ e, h.par n = .ok e
  | .cvar c n => ∃ e, h.cvar c n = .ok e
  | .cpar c n => ∃ e, h.cpar c n = .ok e
  | .pvar c n ti si => ∃ e, h.pvar c n ti si = .ok e
  | .ppar c n ti si => ∃ e, h.ppar c n ti si = .ok e
  | .portField p f => ∃ e, h.portField p f = .ok e
  | .add es => es ≠ []
  | .agg e a => ∀ f, h.agg = some f → ∃ e', f e a = .ok e'
  | _ => True

theorem nodeOk_add (h : Hooks) {es} : NodeOk h (.add es) ↔ es ≠ [] := Iff.rfl
theorem nodeOk_neg (h : Hooks) {e} : NodeOk h (.neg e) ↔ True := by simp [NodeOk]
theorem nodeOk_mul (h : Hooks) {l r} : NodeOk h (.mul l r) ↔ True := by simp [NodeOk]
theorem nodeOk_div (h : Hooks) {l r} : NodeOk h (.div l r) ↔ True := by simp [NodeOk]
theorem nodeOk_cmp (h : Hooks) {l r c} : NodeOk h (.cmp l r c) ↔ True := by simp [NodeOk]
theorem nodeOk_shift (h : Hooks) {l r} : NodeOk h (.shift l r) ↔ True := by simp [NodeOk]
theorem nodeOk_evalT (h : Hooks) {l r} : NodeOk h (.evalT l r) ↔ True := by simp [NodeOk]
theorem nodeOk_tsum (h : Hooks) {e l r} : NodeOk h (.tsum e l r) ↔ True := by simp [NodeOk]
theorem nodeOk_allsum (h : Hooks) {e} : NodeOk h (.allsum e) ↔ True := by simp [NodeOk]
theorem nodeOk_scen (h : Hooks) {e o} : NodeOk h (.scen e o) ↔ True := by simp [NodeOk]
theorem nodeOk_lit (h : Hooks) {v} : NodeOk h (.lit v) ↔ True := by simp [NodeOk]

theorem appendAll_ok_of_all {α β} {f : α → R β} {xs : List α} :
    (∃ ys, appendAll f xs = .ok ys) ↔ ∀ x ∈ xs, ∃ y, f x = .ok y := by
  constructor
  · rintro ⟨ys, h⟩ x hx
    obtain ⟨y, _, hy⟩ := forall₂_mem_left (appendAll_ok_iff.1 h) hx
    exact ⟨y, hy⟩
  · intro h
    induction xs with
    | nil => exact ⟨[], rfl⟩
    | cons x xs ih =>
      obtain ⟨y, hy⟩ := h x (by simp)
      obtain ⟨ys, hys⟩ := ih fun z hz => h z (by simp [hz])
      exact ⟨y :: ys, by simp [hy, hys]⟩

theorem exists_bind_ok {α β} {m : R α} {f : α → R β} :
    (∃ b, (m >>= f) = .ok b) ↔ ∃ a, m = .ok a ∧ ∃ b, f a = .ok b := by
  simp only [bind_ok_iff]
  constructor
  · rintro ⟨b, a, h1, h2⟩; exact ⟨a, h1, b, h2⟩
  · rintro ⟨a, h1, b, h2⟩; exact ⟨b, a, h1, h2⟩

theorem copyWith_ok_iff {h : Hooks} {V : Expr → List Expr} (hv : Visits h V) (e : Expr) :
    (∃ e', copyWith h e = .ok e') ↔ ∀ y ∈ V e, NodeOk h y := by
  induction e using Expr.ind with
  | lit v => simp [hv.lit, copyWith, NodeOk]
  | var n => simp [hv.var, copyWith, NodeOk]
  | par n => simp [hv.par, copyWith, NodeOk]
  | cvar c n => simp [hv.cvar, copyWith, NodeOk]
  | cpar c n => simp [hv.cpar, copyWith, NodeOk]
  | pvar c n ti si => simp [hv.pvar, copyWith, NodeOk]
  | ppar c n ti si => simp [hv.ppar, copyWith, NodeOk]
  | portField p f => simp [hv.portField, copyWith, NodeOk]
  | neg e ih => simp [hv.neg, copyWith, nodeOk_neg, exists_bind_ok, ih]
  | mul l r ihl ihr =>
    simp only [hv.mul, copyWith, nodeOk_mul, exists_bind_ok, List.mem_cons, List.mem_append, forall_eq, or_imp,
      forall_and, true_and, ← ihl, ← ihr, Except.ok.injEq, exists_eq', and_true, exists_and_right]
  | div l r ihl ihr =>
    simp only [hv.div, copyWith, nodeOk_div, exists_bind_ok, List.mem_cons, List.mem_append, forall_eq, or_imp,
      forall_and, true_and, ← ihl, ← ihr, Except.ok.injEq, exists_eq', and_true, exists_and_right]
  | cmp l r c ihl ihr =>
    simp only [hv.cmp, copyWith, nodeOk_cmp, exists_bind_ok, List.mem_cons, List.mem_append, forall_eq, or_imp,
      forall_and, true_and, ← ihl, ← ihr, Except.ok.injEq, exists_eq', and_true, exists_and_right]
  | shift l r ihl ihr =>
    simp only [hv.shift, copyWith, nodeOk_shift, exists_bind_ok, List.mem_cons, List.mem_append, forall_eq, or_imp,
      forall_and, true_and, ← ihl, ← ihr, Except.ok.injEq, exists_eq', and_true, exists_and_right]
  | evalT l r ihl ihr =>
    simp only [hv.evalT, copyWith, nodeOk_evalT, exists_bind_ok, List.mem_cons, List.mem_append, forall_eq, or_imp,
      forall_and, true_and, ← ihl, ← ihr, Except.ok.injEq, exists_eq', and_true, exists_and_right]
  | tsum e l r ihe ihl ihr =>
    simp only [hv.tsum, copyWith, nodeOk_tsum, exists_bind_ok, List.mem_cons, List.mem_append, forall_eq, or_imp,
      forall_and, true_and, ← ihe, ← ihl, ← ihr, Except.ok.injEq, exists_eq', and_true, exists_and_right, and_assoc]
  | allsum e ih => simp [hv.allsum, copyWith, nodeOk_allsum, exists_bind_ok, ih]
  | scen e o ih => simp [hv.scen, copyWith, nodeOk_scen, exists_bind_ok, ih]
  | add es ih =>
    rw [copyWith_add, exists_bind_ok]
    simp only [hv.add]
    have : (∀ a, (∃ x ∈ es, a ∈ V x) → NodeOk h a) ↔ ∀ x ∈ es, ∃ e', copyWith h x = .ok e' := by
      constructor
      · intro hh x hx; rw [ih x hx]; exact fun y hy => hh y ⟨x, hx, hy⟩
      · rintro hh a ⟨x, hx, ha⟩; exact (ih x hx).1 (hh x hx) a ha
    simp only [or_imp, forall_and, forall_eq, nodeOk_add, this, ← appendAll_ok_of_all]
    constructor
    · rintro ⟨es', h1, e', h2⟩
      refine ⟨?_, es', h1⟩
      rintro rfl
      cases h1
      cases h2
    · rintro ⟨hne, es', h1⟩
      refine ⟨es', h1, foldAdd_ok ?_⟩
      rintro rfl
      have := appendAll_length h1
      exact hne (List.length_eq_zero_iff.1 this.symm)
  | agg e a ih =>
    rw [hv.agg]
    cases hg : h.agg with
    | some f => simp [copyWith, NodeOk, hg]
    | none =>
      simp only [copyWith, hg, exists_bind_ok, Except.ok.injEq, exists_eq', and_true, ih, Option.isSome_none,
        Bool.false_eq_true, if_false, List.mem_cons, forall_eq_or_imp]
      simp [NodeOk, hg]

theorem visits_subs {h : Hooks} (hn : h.agg = none) : Visits h subs where
  lit _ := rfl
  var _ := rfl
  par _ := rfl
  cvar _ _ := rfl
  cpar _ _ := rfl
  pvar _ _ _ _ := rfl
  ppar _ _ _ _ := rfl
  portField _ _ := rfl
  neg _ := by simp [subs]
  add _ _ := mem_subs_add
  mul _ _ := by simp [subs]
  div _ _ := by simp [subs]
  cmp _ _ _ := by simp [subs]
  shift _ _ := by simp [subs]
  evalT _ _ := by simp [subs]
  tsum _ _ _ := by simp [subs]
  allsum _ := by simp [subs]
  scen _ _ := by simp [subs]
  agg _ _ := by simp [subs, hn]

theorem plainSubsList_eq (es : List Expr) : plainSubsList es = (es.map plainSubs).flatten := by
  induction es with
  | nil => rfl
  | cons e es ih => simp [plainSubsList, ih]

theorem visits_plainSubs {h : Hooks} (hn : h.agg.isSome) : Visits h plainSubs where
  lit _ := rfl
  var _ := rfl
  par _ := rfl
  cvar _ _ := rfl
  cpar _ _ := rfl
  pvar _ _ _ _ := rfl
  ppar _ _ _ _ := rfl
  portField _ _ := rfl
  neg _ := by simp [plainSubs]
  add _ _ := by simp [plainSubs, plainSubsList_eq]
  mul _ _ := by simp [plainSubs]
  div _ _ := by simp [plainSubs]
  cmp _ _ _ := by simp [plainSubs]
  shift _ _ := by simp [plainSubs]
  evalT _ _ := by simp [plainSubs]
  tsum _ _ _ := by simp [plainSubs]
  allsum _ := by simp [plainSubs]
  scen _ _ := by simp [plainSubs]
  agg _ _ := by simp [plainSubs, hn]

/-- the copy of this node raises `x` by itself -/
def NodeErr (h : Hooks) (x : Err) : Expr → Prop
  | .var n => h.var n = .error x
  | .par n => h.par n = .error x
  | .cvar c n => h.cvar c n = .error x
  | .cpar c n => h.cpar c n = .error x
  | .pvar c n ti si => h.pvar c n ti si = .error x
  | .ppar c n ti si => h.ppar c n ti si = .error x
  | .portField p f => h.portField p f = .error x
  | .add es => es = [] ∧ x = .indexError
  | .agg e a => ∃ f, h.agg = some f ∧ f e a = .error x
  | _ => False

theorem bind_error_iff {α β} {m : R α} {f : α → R β} {x : Err} :
    (m >>= f) = .error x ↔ m = .error x ∨ ∃ a, m = .ok a ∧ f a = .error x := by
  cases m with
  | error y => simp
  | ok a => simp

theorem appendAll_error {α β} {f : α → R β} {xs : List α} {x : Err} (h : appendAll f xs = .error x) :
    ∃ a ∈ xs, f a = .error x := by
  induction xs with
  | nil => cases h
  | cons a xs ih =>
    rw [appendAll_cons, bind_error_iff] at h
    rcases h with h | ⟨b, _, h⟩
    · exact ⟨a, by simp, h⟩
    · rw [bind_error_iff] at h
      rcases h with h | ⟨_, _, h⟩
      · obtain ⟨y, hy, hy'⟩ := ih h
        exact ⟨y, by simp [hy], hy'⟩
      · cases h

theorem copyWith_error_node {h : Hooks} {V : Expr → List Expr} (hv : Visits h V) (e : Expr) :
    ∀ x, copyWith h e = .error x → ∃ y ∈ V e, NodeErr h x y := by
  induction e using Expr.ind with
  | lit v => intro x hx; cases hx
  | var n => intro x hx; exact ⟨.var n, by rw [hv.var]; simp, hx⟩
  | par n => intro x hx; exact ⟨.par n, by rw [hv.par]; simp, hx⟩
  | cvar c n => intro x hx; exact ⟨.cvar c n, by rw [hv.cvar]; simp, hx⟩
  | cpar c n => intro x hx; exact ⟨.cpar c n, by rw [hv.cpar]; simp, hx⟩
  | pvar c n ti si => intro x hx; exact ⟨.pvar c n ti si, by rw [hv.pvar]; simp, hx⟩
  | ppar c n ti si => intro x hx; exact ⟨.ppar c n ti si, by rw [hv.ppar]; simp, hx⟩
  | portField p f => intro x hx; exact ⟨.portField p f, by rw [hv.portField]; simp, hx⟩
  | neg e ih =>
    intro x hx
    simp only [copyWith, bind_error_iff, reduceCtorEq, and_false, exists_false, or_false] at hx
    obtain ⟨y, hy, hy'⟩ := ih x hx
    exact ⟨y, by rw [hv.neg]; simp [hy], hy'⟩
  | allsum e ih =>
    intro x hx
    simp only [copyWith, bind_error_iff, reduceCtorEq, and_false, exists_false, or_false] at hx
    obtain ⟨y, hy, hy'⟩ := ih x hx
    exact ⟨y, by rw [hv.allsum]; simp [hy], hy'⟩
  | scen e o ih =>
    intro x hx
    simp only [copyWith, bind_error_iff, reduceCtorEq, and_false, exists_false, or_false] at hx
    obtain ⟨y, hy, hy'⟩ := ih x hx
    exact ⟨y, by rw [hv.scen]; simp [hy], hy'⟩
  | mul l r ihl ihr =>
    intro x hx
    simp only [copyWith, bind_error_iff, reduceCtorEq, and_false, exists_false, or_false] at hx
    rcases hx with hx | ⟨_, _, hx⟩
    · obtain ⟨y, hy, hy'⟩ := ihl x hx
      exact ⟨y, by rw [hv.mul]; simp [hy], hy'⟩
    · obtain ⟨y, hy, hy'⟩ := ihr x hx
      exact ⟨y, by rw [hv.mul]; simp [hy], hy'⟩
  | div l r ihl ihr =>
    intro x hx
    simp only [copyWith, bind_error_iff, reduceCtorEq, and_false, exists_false, or_false] at hx
    rcases hx with hx | ⟨_, _, hx⟩
    · obtain ⟨y, hy, hy'⟩ := ihl x hx
      exact ⟨y, by rw [hv.div]; simp [hy], hy'⟩
    · obtain ⟨y, hy, hy'⟩ := ihr x hx
      exact ⟨y, by rw [hv.div]; simp [hy], hy'⟩
  | cmp l r c ihl ihr =>
    intro x hx
    simp only [copyWith, bind_error_iff, reduceCtorEq, and_false, exists_false, or_false] at hx
    rcases hx with hx | ⟨_, _, hx⟩
    · obtain ⟨y, hy, hy'⟩ := ihl x hx
      exact ⟨y, by rw [hv.cmp]; simp [hy], hy'⟩
    · obtain ⟨y, hy, hy'⟩ := ihr x hx
      exact ⟨y, by rw [hv.cmp]; simp [hy], hy'⟩
  | shift l r ihl ihr =>
    intro x hx
    simp only [copyWith, bind_error_iff, reduceCtorEq, and_false, exists_false, or_false] at hx
    rcases hx with hx | ⟨_, _, hx⟩
    · obtain ⟨y, hy, hy'⟩ := ihl x hx
      exact ⟨y, by rw [hv.shift]; simp [hy], hy'⟩
    · obtain ⟨y, hy, hy'⟩ := ihr x hx
      exact ⟨y, by rw [hv.shift]; simp [hy], hy'⟩
  | evalT l r ihl ihr =>
    intro x hx
    simp only [copyWith, bind_error_iff, reduceCtorEq, and_false, exists_false, or_false] at hx
    rcases hx with hx | ⟨_, _, hx⟩
    · obtain ⟨y, hy, hy'⟩ := ihl x hx
      exact ⟨y, by rw [hv.evalT]; simp [hy], hy'⟩
    · obtain ⟨y, hy, hy'⟩ := ihr x hx
      exact ⟨y, by rw [hv.evalT]; simp [hy], hy'⟩
  | tsum e l r ihe ihl ihr =>
    intro x hx
    simp only [copyWith, bind_error_iff, reduceCtorEq, and_false, exists_false, or_false] at hx
    rcases hx with hx | ⟨_, _, hx | ⟨_, _, hx⟩⟩
    · obtain ⟨y, hy, hy'⟩ := ihe x hx
      exact ⟨y, by rw [hv.tsum]; simp [hy], hy'⟩
    · obtain ⟨y, hy, hy'⟩ := ihl x hx
      exact ⟨y, by rw [hv.tsum]; simp [hy], hy'⟩
    · obtain ⟨y, hy, hy'⟩ := ihr x hx
      exact ⟨y, by rw [hv.tsum]; simp [hy], hy'⟩
  | add es ih =>
    intro x hx
    rw [copyWith_add, bind_error_iff] at hx
    rcases hx with hx | ⟨es', h1, hx⟩
    · obtain ⟨a, ha, hx⟩ := appendAll_error hx
      obtain ⟨y, hy, hy'⟩ := ih a ha x hx
      exact ⟨y, by rw [hv.add]; exact .inr ⟨a, ha, hy⟩, hy'⟩
    · cases es' with
      | cons o os => cases hx
      | nil =>
        cases hx
        exact ⟨.add es, by rw [hv.add]; simp, List.length_eq_zero_iff.1 (appendAll_length h1).symm, rfl⟩
  | agg e a ih =>
    intro x hx
    cases hg : h.agg with
    | some f =>
      simp only [copyWith, hg] at hx
      exact ⟨.agg e a, by rw [hv.agg]; simp, f, hg, hx⟩
    | none =>
      simp only [copyWith, hg, bind_error_iff, reduceCtorEq, and_false, exists_false, or_false] at hx
      obtain ⟨y, hy, hy'⟩ := ih x hx
      exact ⟨y, by rw [hv.agg]; simp [hy, hg], hy'⟩

/-! ### Leaves -/

theorem leavesList_eq (es : List Expr) : leavesList es = (es.map leaves).flatten := by
  induction es with
  | nil => rfl
  | cons e es ih => simp [leavesList, ih]

theorem leaves_operands (e : Expr) : e.leaves = (e.operands.map leaves).flatten := by
  cases e
  case add es => simp [leaves, leavesList_eq, operands]
  all_goals simp [operands]

theorem leaves_foldAdd {es : List Expr} {e : Expr} (h : foldAdd addOp es = .ok e) :
    e.leaves = (es.map leaves).flatten := by
  cases es with
  | nil => cases h
  | cons o os =>
    cases h
    induction os generalizing o with
    | nil => simp
    | cons a os ih =>
      rw [List.foldl_cons, ih]
      have : (o.addOp a).leaves = o.leaves ++ a.leaves := by
        rw [leaves_operands o, leaves_operands a]
        simp [addOp, leaves, leavesList_eq]
      simp [this]

/-- the hooks replace each leaf by one leaf -/
structure LeafMap (h : Hooks) (g : Expr → Expr) : Prop where
  lit : ∀ v, g (.lit v) = .lit v
  var : ∀ n e, h.var n = .ok e → e.leaves = [g (.var n)]
  par : ∀ n e, h.par n = .ok e → e.leaves = [g (.par n)]
  cvar : ∀ c n e, h.cvar c n = .ok e → e.leaves = [g (.cvar c n)]
  cpar : ∀ c n e, h.cpar c n = .ok e → e.leaves = [g (.cpar c n)]
  pvar : ∀ c n ti si e, h.pvar c n ti si = .ok e → e.leaves = [g (.pvar c n ti si)]
  ppar : ∀ c n ti si e, h.ppar c n ti si = .ok e → e.leaves = [g (.ppar c n ti si)]
  portField : ∀ p f e, h.portField p f = .ok e → e.leaves = [g (.portField p f)]
  agg : h.agg = none

theorem copyWith_leaves {h : Hooks} {g : Expr → Expr} (hl : LeafMap h g) (e : Expr) :
    ∀ e', copyWith h e = .ok e' → e'.leaves = e.leaves.map g := by
  induction e using Expr.ind with
  | lit v => intro e' h'; cases h'; simp [leaves, hl.lit]
  | var n => intro e' h'; simpa [leaves] using hl.var n e' h'
  | par n => intro e' h'; simpa [leaves] using hl.par n e' h'
  | cvar c n => intro e' h'; simpa [leaves] using hl.cvar c n e' h'
  | cpar c n => intro e' h'; simpa [leaves] using hl.cpar c n e' h'
  | pvar c n ti si => intro e' h'; simpa [leaves] using hl.pvar c n ti si e' h'
  | ppar c n ti si => intro e' h'; simpa [leaves] using hl.ppar c n ti si e' h'
  | portField p f => intro e' h'; simpa [leaves] using hl.portField p f e' h'
  | neg e ih =>
    intro e' h'
    simp only [copyWith, bind_ok_iff, Except.ok.injEq] at h'
    obtain ⟨a, ha, rfl⟩ := h'
    simp only [negOp, leaves, ih a ha]
  | allsum e ih =>
    intro e' h'
    simp only [copyWith, bind_ok_iff, Except.ok.injEq] at h'
    obtain ⟨a, ha, rfl⟩ := h'
    simp only [leaves, ih a ha]
  | scen e o ih =>
    intro e' h'
    simp only [copyWith, bind_ok_iff, Except.ok.injEq] at h'
    obtain ⟨a, ha, rfl⟩ := h'
    simp only [leaves, ih a ha]
  | agg e o ih =>
    intro e' h'
    simp only [copyWith, hl.agg, bind_ok_iff, Except.ok.injEq] at h'
    obtain ⟨a, ha, rfl⟩ := h'
    simp only [leaves, ih a ha]
  | mul l r ihl ihr =>
    intro e' h'
    simp only [copyWith, bind_ok_iff, Except.ok.injEq] at h'
    obtain ⟨a, ha, b, hb, rfl⟩ := h'
    simp only [mulOp, leaves, ihl a ha, ihr b hb, List.map_append]
  | div l r ihl ihr =>
    intro e' h'
    simp only [copyWith, bind_ok_iff, Except.ok.injEq] at h'
    obtain ⟨a, ha, b, hb, rfl⟩ := h'
    simp only [divOp, leaves, ihl a ha, ihr b hb, List.map_append]
  | cmp l r c ihl ihr =>
    intro e' h'
    simp only [copyWith, bind_ok_iff, Except.ok.injEq] at h'
    obtain ⟨a, ha, b, hb, rfl⟩ := h'
    simp only [leaves, ihl a ha, ihr b hb, List.map_append]
  | shift l r ihl ihr =>
    intro e' h'
    simp only [copyWith, bind_ok_iff, Except.ok.injEq] at h'
    obtain ⟨a, ha, b, hb, rfl⟩ := h'
    simp only [leaves, ihl a ha, ihr b hb, List.map_append]
  | evalT l r ihl ihr =>
    intro e' h'
    simp only [copyWith, bind_ok_iff, Except.ok.injEq] at h'
    obtain ⟨a, ha, b, hb, rfl⟩ := h'
    simp only [leaves, ihl a ha, ihr b hb, List.map_append]
  | tsum e l r ihe ihl ihr =>
    intro e' h'
    simp only [copyWith, bind_ok_iff, Except.ok.injEq] at h'
    obtain ⟨c, hc, a, ha, b, hb, rfl⟩ := h'
    simp only [leaves, ihe c hc, ihl a ha, ihr b hb, List.map_append]
  | add es ih =>
    intro e' h'
    rw [copyWith_add, bind_ok_iff] at h'
    obtain ⟨es', hes, hf⟩ := h'
    rw [leaves_foldAdd hf]
    simp only [leaves, leavesList_eq]
    have h2 := forall₂_and_mem (appendAll_ok_iff.1 hes) (S := fun x y => y.leaves = x.leaves.map g)
      (fun x hx y hr => ih x hx y hr)
    clear hes hf ih
    induction h2 with
    | nil => rfl
    | cons h1 _ ih => simp [h1, ih]

/-- hooks that agree on the visited nodes give the same copy -/
theorem copyWith_congr {h k : Hooks} (e : Expr)
    (hag : h.agg = k.agg ∨ ∀ x a, agg x a ∉ e.subs)
    (hl : ∀ y ∈ e.subs, isHookLeaf y → copyWith h y = copyWith k y) : copyWith h e = copyWith k e := by
  have leaf : ∀ y, isHookLeaf y → (∀ z ∈ y.subs, isHookLeaf z → copyWith h z = copyWith k z) →
    copyWith h y = copyWith k y := fun y hy hz => hz y (mem_subs_self y) hy
  induction e using Expr.ind with
  | lit v => rfl
  | var n => exact leaf _ rfl hl
  | par n => exact leaf _ rfl hl
  | cvar c n => exact leaf _ rfl hl
  | cpar c n => exact leaf _ rfl hl
  | pvar c n ti si => exact leaf _ rfl hl
  | ppar c n ti si => exact leaf _ rfl hl
  | portField p f => exact leaf _ rfl hl
  | neg e ih => simp only [copyWith, ih (hag.imp id fun hg x a hx => hg x a (by simp [subs, hx])) (fun y hy => hl y (by simp [subs, hy]))]
  | allsum e ih => simp only [copyWith, ih (hag.imp id fun hg x a hx => hg x a (by simp [subs, hx])) (fun y hy => hl y (by simp [subs, hy]))]
  | scen e o ih => simp only [copyWith, ih (hag.imp id fun hg x a hx => hg x a (by simp [subs, hx])) (fun y hy => hl y (by simp [subs, hy]))]
  | agg e a ih =>
    rcases hag with hag | hag
    · have := ih (.inl hag) (fun y hy => hl y (by simp [subs, hy]))
      simp only [copyWith, hag, this]
    · exact absurd (mem_subs_self _) (hag e a)
  | mul l r ihl ihr =>
    simp only [copyWith, ihl (hag.imp id fun hg x a hx => hg x a (by simp [subs, hx])) (fun y hy => hl y (by simp [subs, hy])),
      ihr (hag.imp id fun hg x a hx => hg x a (by simp [subs, hx])) (fun y hy => hl y (by simp [subs, hy]))]
  | div l r ihl ihr =>
    simp only [copyWith, ihl (hag.imp id fun hg x a hx => hg x a (by simp [subs, hx])) (fun y hy => hl y (by simp [subs, hy])),
      ihr (hag.imp id fun hg x a hx => hg x a (by simp [subs, hx])) (fun y hy => hl y (by simp [subs, hy]))]
  | cmp l r c ihl ihr =>
    simp only [copyWith, ihl (hag.imp id fun hg x a hx => hg x a (by simp [subs, hx])) (fun y hy => hl y (by simp [subs, hy])),
      ihr (hag.imp id fun hg x a hx => hg x a (by simp [subs, hx])) (fun y hy => hl y (by simp [subs, hy]))]
  | shift l r ihl ihr =>
    simp only [copyWith, ihl (hag.imp id fun hg x a hx => hg x a (by simp [subs, hx])) (fun y hy => hl y (by simp [subs, hy])),
      ihr (hag.imp id fun hg x a hx => hg x a (by simp [subs, hx])) (fun y hy => hl y (by simp [subs, hy]))]
  | evalT l r ihl ihr =>
    simp only [copyWith, ihl (hag.imp id fun hg x a hx => hg x a (by simp [subs, hx])) (fun y hy => hl y (by simp [subs, hy])),
      ihr (hag.imp id fun hg x a hx => hg x a (by simp [subs, hx])) (fun y hy => hl y (by simp [subs, hy]))]
  | tsum e l r ihe ihl ihr =>
    simp only [copyWith, ihe (hag.imp id fun hg x a hx => hg x a (by simp [subs, hx])) (fun y hy => hl y (by simp [subs, hy])),
      ihl (hag.imp id fun hg x a hx => hg x a (by simp [subs, hx])) (fun y hy => hl y (by simp [subs, hy])),
      ihr (hag.imp id fun hg x a hx => hg x a (by simp [subs, hx])) (fun y hy => hl y (by simp [subs, hy]))]
  | add es ih =>
    rw [copyWith_add, copyWith_add, appendAll_congr]
    intro x hx
    exact ih x hx (hag.imp id fun hg y a hy => hg y a (mem_subs_add.2 (.inr ⟨x, hx, hy⟩)))
      (fun y hy => hl y (mem_subs_add.2 (.inr ⟨x, hx, hy⟩)))

end Verif
