import Verif.Lemmas.CopyEval
import Verif.Spec.Expr
import Mathlib.Tactic.Tauto

/-! Copies are flat; copying a flat expression is the identity. -/

namespace Verif
open Expr

theorem flat_of_subs {e x : Expr} (h : Flat e) (hs : ∀ y ∈ x.subs, y ∈ e.subs) : Flat x :=
  fun es hes => h es (hs _ hes)

theorem flat_add {es : List Expr} :
    Flat (add es) ↔ 2 ≤ es.length ∧ (∀ o ∈ es, o.isSum = false) ∧ ∀ o ∈ es, Flat o := by
  constructor
  · intro h
    refine ⟨(h es (mem_subs_self _)).1, (h es (mem_subs_self _)).2, fun o ho => ?_⟩
    exact flat_of_subs h fun y hy => mem_subs_add.2 (.inr ⟨o, ho, hy⟩)
  · rintro ⟨h1, h2, h3⟩ fs hfs
    rcases mem_subs_add.1 hfs with h | ⟨e, he, h⟩
    · cases h; exact ⟨h1, h2⟩
    · exact h3 e he fs h

theorem operands_flat {e : Expr} (h : Flat e) :
    e.operands ≠ [] ∧ (∀ o ∈ e.operands, o.isSum = false) ∧ ∀ o ∈ e.operands, Flat o := by
  cases e
  case add es =>
    obtain ⟨h1, h2, h3⟩ := flat_add.1 h
    refine ⟨?_, h2, h3⟩
    rintro rfl
    simp [operands] at h1
  all_goals simp [operands, isSum, h]

theorem flat_addOp {a b : Expr} (ha : Flat a) (hb : Flat b) : Flat (a.addOp b) := by
  obtain ⟨a1, a2, a3⟩ := operands_flat ha
  obtain ⟨b1, b2, b3⟩ := operands_flat hb
  refine flat_add.2 ⟨?_, ?_, ?_⟩
  · have := List.length_pos_iff.2 a1
    have := List.length_pos_iff.2 b1
    simp only [List.length_append]; omega
  · intro o ho
    rcases List.mem_append.1 ho with h | h
    · exact a2 o h
    · exact b2 o h
  · intro o ho
    rcases List.mem_append.1 ho with h | h
    · exact a3 o h
    · exact b3 o h

theorem flat_foldAdd {es : List Expr} {e : Expr} (h : foldAdd addOp es = .ok e)
    (hes : ∀ o ∈ es, Flat o) : Flat e := by
  cases es with
  | nil => simp [foldAdd] at h
  | cons o os =>
    simp only [foldAdd, Except.ok.injEq] at h
    subst h
    have ho := hes o (by simp)
    have hos : ∀ x ∈ os, Flat x := fun x hx => hes x (by simp [hx])
    clear hes
    induction os generalizing o with
    | nil => exact ho
    | cons a os ih => exact ih _ (flat_addOp ho (hos a (by simp))) fun x hx => hos x (by simp [hx])

theorem flat_leaf {e : Expr} (h : e.subs = [e]) (hs : e.isSum = false) : Flat e := by
  intro es hes
  rw [h] at hes
  simp at hes
  subst hes
  simp [isSum] at hs

theorem flat_neg {e : Expr} : Flat (neg e) ↔ Flat e := by
  simp [Flat, subs]
theorem flat_mul {a b : Expr} : Flat (mul a b) ↔ Flat a ∧ Flat b := by
  simp [Flat, subs, or_imp, forall_and]; tauto
theorem flat_div {a b : Expr} : Flat (div a b) ↔ Flat a ∧ Flat b := by
  simp [Flat, subs, or_imp, forall_and]; tauto
theorem flat_cmp {a b : Expr} {c} : Flat (cmp a b c) ↔ Flat a ∧ Flat b := by
  simp [Flat, subs, or_imp, forall_and]; tauto
theorem flat_shift {a b : Expr} : Flat (shift a b) ↔ Flat a ∧ Flat b := by
  simp [Flat, subs, or_imp, forall_and]; tauto
theorem flat_evalT {a b : Expr} : Flat (evalT a b) ↔ Flat a ∧ Flat b := by
  simp [Flat, subs, or_imp, forall_and]; tauto
theorem flat_tsum {a b c : Expr} : Flat (tsum a b c) ↔ Flat a ∧ Flat b ∧ Flat c := by
  simp [Flat, subs, or_imp, forall_and]; tauto
theorem flat_allsum {e : Expr} : Flat (allsum e) ↔ Flat e := by
  simp [Flat, subs]
theorem flat_scen {e : Expr} {o} : Flat (scen e o) ↔ Flat e := by
  simp [Flat, subs]
theorem flat_agg {e : Expr} {a} : Flat (agg e a) ↔ Flat e := by
  simp [Flat, subs]

structure HookFlat (h : Hooks) : Prop where
  agg : h.agg = none
  var : ∀ n e, h.var n = .ok e → Flat e
  par : ∀ n e, h.par n = .ok e → Flat e
  cvar : ∀ c n e, h.cvar c n = .ok e → Flat e
  cpar : ∀ c n e, h.cpar c n = .ok e → Flat e
  pvar : ∀ c n ti si e, h.pvar c n ti si = .ok e → Flat e
  ppar : ∀ c n ti si e, h.ppar c n ti si = .ok e → Flat e
  portField : ∀ p f e, h.portField p f = .ok e → Flat e

theorem copyWith_flat {h : Hooks} (hh : HookFlat h) (e : Expr) : ∀ e', copyWith h e = .ok e' → Flat e' := by
  induction e using Expr.ind with
  | neg e ih =>
    intro e' h'
    simp only [copyWith, bind_ok_iff, Except.ok.injEq] at h'
    obtain ⟨a, ha, rfl⟩ := h'
    exact flat_neg.2 (ih a ha)
  | add es ih =>
    intro e' h'
    rw [copyWith_add, bind_ok_iff] at h'
    obtain ⟨es', hes, hf⟩ := h'
    refine flat_foldAdd hf fun o ho => ?_
    obtain ⟨x, hx, hxo⟩ := forall₂_mem_right (appendAll_ok_iff.1 hes) ho
    exact ih x hx o hxo
  | mul l r ihl ihr =>
    intro e' h'
    simp only [copyWith, bind_ok_iff, Except.ok.injEq] at h'
    obtain ⟨a, ha, b, hb, rfl⟩ := h'
    exact flat_mul.2 ⟨ihl a ha, ihr b hb⟩
  | div l r ihl ihr =>
    intro e' h'
    simp only [copyWith, bind_ok_iff, Except.ok.injEq] at h'
    obtain ⟨a, ha, b, hb, rfl⟩ := h'
    exact flat_div.2 ⟨ihl a ha, ihr b hb⟩
  | cmp l r c ihl ihr =>
    intro e' h'
    simp only [copyWith, bind_ok_iff, Except.ok.injEq] at h'
    obtain ⟨a, ha, b, hb, rfl⟩ := h'
    exact flat_cmp.2 ⟨ihl a ha, ihr b hb⟩
  | shift l r ihl ihr =>
    intro e' h'
    simp only [copyWith, bind_ok_iff, Except.ok.injEq] at h'
    obtain ⟨a, ha, b, hb, rfl⟩ := h'
    exact flat_shift.2 ⟨ihl a ha, ihr b hb⟩
  | evalT l r ihl ihr =>
    intro e' h'
    simp only [copyWith, bind_ok_iff, Except.ok.injEq] at h'
    obtain ⟨a, ha, b, hb, rfl⟩ := h'
    exact flat_evalT.2 ⟨ihl a ha, ihr b hb⟩
  | tsum e a b ihe iha ihb =>
    intro e' h'
    simp only [copyWith, bind_ok_iff, Except.ok.injEq] at h'
    obtain ⟨x, hx, y, hy, z, hz, rfl⟩ := h'
    exact flat_tsum.2 ⟨ihe x hx, iha y hy, ihb z hz⟩
  | allsum e ih =>
    intro e' h'
    simp only [copyWith, bind_ok_iff, Except.ok.injEq] at h'
    obtain ⟨a, ha, rfl⟩ := h'
    exact flat_allsum.2 (ih a ha)
  | scen e o ih =>
    intro e' h'
    simp only [copyWith, bind_ok_iff, Except.ok.injEq] at h'
    obtain ⟨a, ha, rfl⟩ := h'
    exact flat_scen.2 (ih a ha)
  | agg e o ih =>
    intro e' h'
    simp only [copyWith, hh.agg, bind_ok_iff, Except.ok.injEq] at h'
    obtain ⟨a, ha, rfl⟩ := h'
    exact flat_agg.2 (ih a ha)
  | lit v => intro e' h'; cases h'; exact flat_leaf rfl rfl
  | var n => exact hh.var n
  | par n => exact hh.par n
  | cvar c n => exact hh.cvar c n
  | cpar c n => exact hh.cpar c n
  | pvar c n ti si => exact hh.pvar c n ti si
  | ppar c n ti si => exact hh.ppar c n ti si
  | portField p f => exact hh.portField p f

theorem copy_flat (e : Expr) : ∀ e', copyExpression e = .ok e' → Flat e' := by
  refine copyWith_flat ?_ e
  constructor
  · rfl
  all_goals
    intros
    rename_i h'
    simp only [copyHooks, Except.ok.injEq] at h'
    subst h'
    exact flat_leaf rfl rfl

theorem foldl_addOp_nonSum (os acc : List Expr) (h : ∀ o ∈ os, o.isSum = false) :
    os.foldl addOp (add acc) = add (acc ++ os) := by
  induction os generalizing acc with
  | nil => simp
  | cons o os ih =>
    have ho : o.operands = [o] := by
      have := h o (by simp)
      cases o <;> simp_all [operands, isSum]
    rw [List.foldl_cons]
    have : (add acc).addOp o = add (acc ++ [o]) := by simp [addOp, ho]
    rw [this, ih _ (fun x hx => h x (by simp [hx]))]
    simp

theorem foldAdd_nonSum {es : List Expr} (h : ∀ o ∈ es, o.isSum = false) (hl : 2 ≤ es.length) :
    foldAdd addOp es = .ok (add es) := by
  match es, hl with
  | a :: b :: os, _ =>
    have ho : ∀ o : Expr, o.isSum = false → o.operands = [o] := by
      intro o; cases o <;> simp [operands, isSum]
    simp only [foldAdd, List.foldl_cons, Except.ok.injEq]
    have : a.addOp b = add [a, b] := by
      simp [addOp, ho a (h a (by simp)), ho b (h b (by simp))]
    rw [this, foldl_addOp_nonSum]
    · simp
    · intro o ho; exact h o (by simp [ho])

theorem copy_of_flat (e : Expr) : Flat e → copyExpression e = .ok e := by
  unfold copyExpression
  induction e using Expr.ind with
  | neg e ih => intro h; simp [copyWith, ih (flat_neg.1 h), negOp]
  | add es ih =>
    intro h
    obtain ⟨h1, h2, h3⟩ := flat_add.1 h
    rw [copyWith_add]
    have : appendAll (copyWith copyHooks) es = .ok es := by
      rw [appendAll_ok_iff, List.forall₂_same]
      exact fun x hx => ih x hx (h3 x hx)
    rw [this, ok_bind, foldAdd_nonSum h2 h1]
  | mul l r ihl ihr => intro h; simp [copyWith, ihl (flat_mul.1 h).1, ihr (flat_mul.1 h).2, mulOp]
  | div l r ihl ihr => intro h; simp [copyWith, ihl (flat_div.1 h).1, ihr (flat_div.1 h).2, divOp]
  | cmp l r c ihl ihr => intro h; simp [copyWith, ihl (flat_cmp.1 h).1, ihr (flat_cmp.1 h).2]
  | shift l r ihl ihr => intro h; simp [copyWith, ihl (flat_shift.1 h).1, ihr (flat_shift.1 h).2]
  | evalT l r ihl ihr => intro h; simp [copyWith, ihl (flat_evalT.1 h).1, ihr (flat_evalT.1 h).2]
  | tsum e a b ihe iha ihb =>
    intro h
    simp [copyWith, ihe (flat_tsum.1 h).1, iha (flat_tsum.1 h).2.1, ihb (flat_tsum.1 h).2.2]
  | allsum e ih => intro h; simp [copyWith, ih (flat_allsum.1 h)]
  | scen e o ih => intro h; simp [copyWith, ih (flat_scen.1 h)]
  | agg e a ih =>
    intro h
    have := ih (flat_agg.1 h)
    simp only [copyWith, this]
    rfl
  | _ => intro h; rfl

end Verif
