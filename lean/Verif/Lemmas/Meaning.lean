import Verif.Spec.Meaning
import Verif.Lemmas.Expand

/-! Meaning of model expressions: operators, and copying visitors. -/

namespace Verif
open Expr

theorem mdenSum_eq (M : MCtx) (es : List Expr) (t s : Int) :
    mdenSum M es t s = (es.map fun e => mden M e t s).sum := by
  induction es with
  | nil => simp [mdenSum]
  | cons e es ih => simp [mdenSum, ih]

theorem mden_add (M : MCtx) (es : List Expr) (t s : Int) :
    mden M (add es) t s = (es.map fun e => mden M e t s).sum := by
  rw [mden, mdenSum_eq]

theorem mden_operands (M : MCtx) (e : Expr) (t s : Int) :
    mden M e t s = (e.operands.map fun e => mden M e t s).sum := by
  cases e
  case add es => rw [mden_add]; rfl
  all_goals simp [operands]

theorem mden_addOp (M : MCtx) (a b : Expr) (t s : Int) :
    mden M (a.addOp b) t s = mden M a t s + mden M b t s := by
  rw [mden_operands M a, mden_operands M b, addOp, mden_add]
  simp

theorem mden_subOp (M : MCtx) (a b : Expr) (t s : Int) :
    mden M (a.subOp b) t s = mden M a t s - mden M b t s := by
  rw [mden_operands M a, mden_operands M b, subOp, mden_add, List.map_append, List.sum_append, sub_eq_add_neg]
  congr 1
  rw [List.map_map]
  induction b.operands with
  | nil => simp
  | cons x xs ih => simp [ih, negOp, mden, add_comm]

theorem mden_foldAdd (M : MCtx) {es : List Expr} {e : Expr} (h : foldAdd addOp es = .ok e) (t s : Int) :
    mden M e t s = (es.map fun e => mden M e t s).sum := by
  cases es with
  | nil => simp [foldAdd] at h
  | cons o os =>
    simp only [foldAdd, Except.ok.injEq] at h
    subst h
    induction os generalizing o with
    | nil => simp
    | cons a os ih => rw [List.foldl_cons, ih, List.map_cons, List.sum_cons, mden_addOp]; simp [add_assoc]

theorem mden_sumExpressions (M : MCtx) (es : List Expr) (t s : Int) :
    mden M (sumExpressions es) t s = (es.map fun e => mden M e t s).sum := by
  match es with
  | [] => simp only [sumExpressions, List.map_nil, List.sum_nil]; rfl
  | [e] => simp [sumExpressions]
  | a :: b :: os => simp only [sumExpressions]; rw [mden_add]

/-- the two contexts only differ by the component, the ports and the amounts -/
structure SameData (M M' : MCtx) : Prop where
  env : M'.D.env = M.D.env
  vidx : M'.D.vidx = M.D.vidx
  pidx : M'.D.pidx = M.D.pidx
  T : M'.D.T = M.D.T
  S : M'.D.S = M.D.S

/-- leaf hooks keep the meaning -/
structure HookMeans (h : Hooks) (M M' : MCtx) : Prop where
  var : ∀ n e, h.var n = .ok e → ∀ t s, mden M' e t s = mden M (.var n) t s
  par : ∀ n e, h.par n = .ok e → ∀ t s, mden M' e t s = mden M (.par n) t s
  cvar : ∀ c n e, h.cvar c n = .ok e → ∀ t s, mden M' e t s = mden M (.cvar c n) t s
  cpar : ∀ c n e, h.cpar c n = .ok e → ∀ t s, mden M' e t s = mden M (.cpar c n) t s
  pvar : ∀ c n ti si e, h.pvar c n ti si = .ok e → ∀ t s, mden M' e t s = mden M (.pvar c n ti si) t s
  ppar : ∀ c n ti si e, h.ppar c n ti si = .ok e → ∀ t s, mden M' e t s = mden M (.ppar c n ti si) t s
  portField : ∀ p f e, h.portField p f = .ok e → ∀ t s, mden M' e t s = mden M (.portField p f) t s
  agg : ∀ p f a e, copyWith h (.agg (.portField p f) a) = .ok e →
    ∀ t s, mden M' e t s = mden M (.agg (.portField p f) a) t s

/-- A copy whose hooks keep the meaning of leaves keeps the meaning of the expression. -/
theorem copyWith_mden {h : Hooks} {M M' : MCtx} (hd : SameData M M') (hm : HookMeans h M M')
    (e : Expr) :
    e.AggPort → ∀ e', copyWith h e = .ok e' → ∀ t s, mden M' e' t s = mden M e t s := by
  have sub : ∀ {e x : Expr}, e.AggPort → (∀ y ∈ x.subs, y ∈ e.subs) → x.AggPort :=
    fun h1 h2 y a hy => h1 y a (h2 _ hy)
  induction e using Expr.ind with
  | lit v => intro hi e' h' t s; cases h'; cases v <;> simp [mden]
  | var n => intro hi e' h'; exact hm.var n e' h'
  | par n => intro hi e' h'; exact hm.par n e' h'
  | cvar c n => intro hi e' h'; exact hm.cvar c n e' h'
  | cpar c n => intro hi e' h'; exact hm.cpar c n e' h'
  | pvar c n ti si => intro hi e' h'; exact hm.pvar c n ti si e' h'
  | ppar c n ti si => intro hi e' h'; exact hm.ppar c n ti si e' h'
  | portField p f => intro hi e' h'; exact hm.portField p f e' h'
  | neg e ih =>
    intro hi e' h' t s
    simp only [copyWith, bind_ok_iff, Except.ok.injEq] at h'
    obtain ⟨a, ha, rfl⟩ := h'
    simp only [negOp, mden, ih (sub hi (by simp +contextual [subs])) a ha]
  | add es ih =>
    intro hi e' h' t s
    rw [copyWith_add, bind_ok_iff] at h'
    obtain ⟨es', hes, hf⟩ := h'
    rw [mden_foldAdd M' hf, mden_add]
    have h2 := forall₂_and_mem (appendAll_ok_iff.1 hes) (S := fun x y => mden M' y t s = mden M x t s)
      (fun x hx y hr => ih x hx (sub hi fun y hy => mem_subs_add.2 (.inr ⟨x, hx, hy⟩)) y hr t s)
    clear hes hf ih hi
    induction h2 with
    | nil => rfl
    | cons h1 _ ih => simp [h1, ih]
  | mul l r ihl ihr =>
    intro hi e' h' t s
    simp only [copyWith, bind_ok_iff, Except.ok.injEq] at h'
    obtain ⟨a, ha, b, hb, rfl⟩ := h'
    simp only [mulOp, mden, ihl (sub hi (by simp +contextual [subs])) a ha,
      ihr (sub hi (by simp +contextual [subs])) b hb]
  | div l r ihl ihr =>
    intro hi e' h' t s
    simp only [copyWith, bind_ok_iff, Except.ok.injEq] at h'
    obtain ⟨a, ha, b, hb, rfl⟩ := h'
    simp only [divOp, mden, ihl (sub hi (by simp +contextual [subs])) a ha,
      ihr (sub hi (by simp +contextual [subs])) b hb]
  | cmp l r c ihl ihr =>
    intro hi e' h' t s
    simp only [copyWith, bind_ok_iff, Except.ok.injEq] at h'
    obtain ⟨a, ha, b, hb, rfl⟩ := h'
    simp [mden]
  | shift e k ihe ihk =>
    intro hi e' h' t s
    simp only [copyWith, bind_ok_iff, Except.ok.injEq] at h'
    obtain ⟨a, ha, b, hb, rfl⟩ := h'
    simp only [mden, ihe (sub hi (by simp +contextual [subs])) a ha,
      ihk (sub hi (by simp +contextual [subs])) b hb]
  | evalT e k ihe ihk =>
    intro hi e' h' t s
    simp only [copyWith, bind_ok_iff, Except.ok.injEq] at h'
    obtain ⟨a, ha, b, hb, rfl⟩ := h'
    simp only [mden, ihe (sub hi (by simp +contextual [subs])) a ha,
      ihk (sub hi (by simp +contextual [subs])) b hb]
  | tsum e p q ihe ihp ihq =>
    intro hi e' h' t s
    simp only [copyWith, bind_ok_iff, Except.ok.injEq] at h'
    obtain ⟨a, ha, b, hb, c, hc, rfl⟩ := h'
    simp only [mden, ihe (sub hi (by simp +contextual [subs])) a ha,
      ihp (sub hi (by simp +contextual [subs])) b hb, ihq (sub hi (by simp +contextual [subs])) c hc]
  | allsum e ih =>
    intro hi e' h' t s
    simp only [copyWith, bind_ok_iff, Except.ok.injEq] at h'
    obtain ⟨a, ha, rfl⟩ := h'
    simp only [mden, ih (sub hi (by simp +contextual [subs])) a ha, hd.T]
  | scen e o ih =>
    intro hi e' h' t s
    simp only [copyWith, bind_ok_iff, Except.ok.injEq] at h'
    obtain ⟨a, ha, rfl⟩ := h'
    simp only [mden, ih (sub hi (by simp +contextual [subs])) a ha, hd.S]
  | agg e a _ =>
    intro hi e' h'
    obtain ⟨p, f, rfl⟩ := hi e a (mem_subs_self _)
    exact hm.agg p f a e' h'

/-- On expressions without bare symbols and port references the two readings agree. -/
theorem den_eq_mden (M : MCtx) (D : DenCtx) (hd : D.env = M.D.env ∧ D.vidx = M.D.vidx ∧ D.pidx = M.D.pidx ∧
    D.T = M.D.T ∧ D.S = M.D.S)
    (hamt : ∀ k, (∀ y ∈ k.subs, y.isModelLevel = false) → D.amt k = (mden M k 0 0).floor) (e : Expr) : (∀ y ∈ e.subs, y.isModelLevel = false) →
    ∀ t s, den D e t s = mden M e t s := by
  obtain ⟨h1, h2, h3, h4, h5⟩ := hd
  induction e using Expr.ind with
  | lit v => intro _ t s; cases v <;> simp [mden, den]
  | var n => intro h; exact absurd (h _ (mem_subs_self _)) (by simp [isModelLevel])
  | par n => intro h; exact absurd (h _ (mem_subs_self _)) (by simp [isModelLevel])
  | portField p f => intro h; exact absurd (h _ (mem_subs_self _)) (by simp [isModelLevel])
  | agg e a _ => intro h; exact absurd (h _ (mem_subs_self _)) (by simp [isModelLevel])
  | cmp l r c _ _ => intro _ t s; simp [mden, den, h1, h2, h3]
  | cvar c n => intro _ t s; simp [mden, den, h1, h2, h3]
  | cpar c n => intro _ t s; simp [mden, den, h1, h2, h3]
  | pvar c n ti si => intro _ t s; simp [mden, den, h1, h2, h3]
  | ppar c n ti si => intro _ t s; simp [mden, den, h1, h2, h3]
  | add es ih =>
    intro h t s
    rw [mden_add, den_add]
    congr 1
    exact List.map_congr_left fun x hx => ih x hx (fun y hy => h y (mem_subs_add.2 (.inr ⟨x, hx, hy⟩))) t s
  | neg e ih => intro h t s; simp only [mden, den, h4, h5, ih (fun y hy => h y (by simp [subs, hy]))]
  | mul l r ihl ihr =>
    intro h t s
    simp only [mden, den, ihl (fun y hy => h y (by simp [subs, hy])), ihr (fun y hy => h y (by simp [subs, hy]))]
  | div l r ihl ihr =>
    intro h t s
    simp only [mden, den, ihl (fun y hy => h y (by simp [subs, hy])), ihr (fun y hy => h y (by simp [subs, hy]))]
  | shift e k ih _ => intro h t s; simp only [mden, den, hamt k (fun y hy => h y (by simp [subs, hy])), ih (fun y hy => h y (by simp [subs, hy]))]
  | evalT e k ih _ => intro h t s; simp only [mden, den, hamt k (fun y hy => h y (by simp [subs, hy])), ih (fun y hy => h y (by simp [subs, hy]))]
  | tsum e a b ih _ _ =>
    intro h t s
    simp only [mden, den, hamt a (fun y hy => h y (by simp [subs, hy])), hamt b (fun y hy => h y (by simp [subs, hy])),
      ih (fun y hy => h y (by simp [subs, hy]))]
  | allsum e ih => intro h t s; simp only [mden, den, h4, h5, ih (fun y hy => h y (by simp [subs, hy]))]
  | scen e o ih => intro h t s; simp only [mden, den, h4, h5, ih (fun y hy => h y (by simp [subs, hy]))]

/-- the data `D` where time shifts and bounds are the value of their expression -/
def DenCtx.std (D : DenCtx) : DenCtx :=
  { D with amt := fun k => (mden ⟨D, "", fun _ _ => []⟩ k 0 0).floor }

/-- without bare symbols and port references, the component and the ports do not matter -/
theorem mden_congr (M M' : MCtx) (hD : M.D = M'.D) (e : Expr) : (∀ y ∈ e.subs, y.isModelLevel = false) →
    ∀ t s, mden M e t s = mden M' e t s := by
  induction e using Expr.ind with
  | lit v => intro _ t s; cases v <;> simp [mden]
  | var n => intro h; exact absurd (h _ (mem_subs_self _)) (by simp [isModelLevel])
  | par n => intro h; exact absurd (h _ (mem_subs_self _)) (by simp [isModelLevel])
  | portField p f => intro h; exact absurd (h _ (mem_subs_self _)) (by simp [isModelLevel])
  | agg e a _ => intro h; exact absurd (h _ (mem_subs_self _)) (by simp [isModelLevel])
  | cmp l r c _ _ => intro _ t s; simp [mden]
  | cvar c n => intro _ t s; simp [mden, hD]
  | cpar c n => intro _ t s; simp [mden, hD]
  | pvar c n ti si => intro _ t s; simp [mden, hD]
  | ppar c n ti si => intro _ t s; simp [mden, hD]
  | add es ih =>
    intro h t s
    rw [mden_add, mden_add]
    congr 1
    exact List.map_congr_left fun x hx => ih x hx (fun y hy => h y (mem_subs_add.2 (.inr ⟨x, hx, hy⟩))) t s
  | neg e ih => intro h t s; simp only [mden, ih (fun y hy => h y (by simp [subs, hy]))]
  | mul l r ihl ihr =>
    intro h t s
    simp only [mden, ihl (fun y hy => h y (by simp [subs, hy])), ihr (fun y hy => h y (by simp [subs, hy]))]
  | div l r ihl ihr =>
    intro h t s
    simp only [mden, ihl (fun y hy => h y (by simp [subs, hy])), ihr (fun y hy => h y (by simp [subs, hy]))]
  | shift e k ih ihk =>
    intro h t s
    simp only [mden, ih (fun y hy => h y (by simp [subs, hy])), ihk (fun y hy => h y (by simp [subs, hy]))]
  | evalT e k ih ihk =>
    intro h t s
    simp only [mden, ih (fun y hy => h y (by simp [subs, hy])), ihk (fun y hy => h y (by simp [subs, hy]))]
  | tsum e a b ih iha ihb =>
    intro h t s
    simp only [mden, ih (fun y hy => h y (by simp [subs, hy])), iha (fun y hy => h y (by simp [subs, hy])),
      ihb (fun y hy => h y (by simp [subs, hy]))]
  | allsum e ih => intro h t s; simp only [mden, hD, ih (fun y hy => h y (by simp [subs, hy]))]
  | scen e o ih => intro h t s; simp only [mden, hD, ih (fun y hy => h y (by simp [subs, hy]))]

theorem den_std (D : DenCtx) (c : String) (ports) (e : Expr) (h : ∀ y ∈ e.subs, y.isModelLevel = false) (t s : Int) :
    den D.std e t s = mden ⟨D, c, ports⟩ e t s := by
  rw [den_eq_mden ⟨D, "", fun _ _ => []⟩ D.std ⟨rfl, rfl, rfl, rfl, rfl⟩ (fun _ _ => rfl) e h t s]
  exact mden_congr ⟨D, "", fun _ _ => []⟩ ⟨D, c, ports⟩ rfl e h t s

end Verif
