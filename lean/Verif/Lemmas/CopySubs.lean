import Verif.Lemmas.CopyFlat

/-! Which nodes occur in the output of a copying visitor. -/

namespace Verif
open Expr

/-- leaves handled by the hooks -/
def isHookLeaf : Expr → Bool
  | var _ => true
  | par _ => true
  | cvar .. => true
  | cpar .. => true
  | pvar .. => true
  | ppar .. => true
  | portField .. => true
  | _ => false

/-- `P` holds of all sums, and otherwise only looks at the constructor of inner nodes -/
structure HeadDet0 (P : Expr → Prop) : Prop where
  add : ∀ es, P (.add es)
  neg : ∀ e e', P (.neg e) → P (.neg e')
  mul : ∀ a b a' b', P (.mul a b) → P (.mul a' b')
  div : ∀ a b a' b', P (.div a b) → P (.div a' b')
  cmp : ∀ a b c a' b', P (.cmp a b c) → P (.cmp a' b' c)
  shift : ∀ a b a' b', P (.shift a b) → P (.shift a' b')
  evalT : ∀ a b a' b', P (.evalT a b) → P (.evalT a' b')
  tsum : ∀ a b c a' b' c', P (.tsum a b c) → P (.tsum a' b' c')
  allsum : ∀ e e', P (.allsum e) → P (.allsum e')
  scen : ∀ e e' o, P (.scen e o) → P (.scen e' o)

structure HeadDet (P : Expr → Prop) : Prop extends HeadDet0 P where
  agg : ∀ e e' o, P (.agg e o) → P (.agg e' o)

def AllSubs (P : Expr → Prop) (e : Expr) : Prop := ∀ x ∈ e.subs, P x

structure HookAll (h : Hooks) (P : Expr → Prop) : Prop where
  var : ∀ n e, h.var n = .ok e → AllSubs P e
  par : ∀ n e, h.par n = .ok e → AllSubs P e
  cvar : ∀ c n e, h.cvar c n = .ok e → AllSubs P e
  cpar : ∀ c n e, h.cpar c n = .ok e → AllSubs P e
  pvar : ∀ c n ti si e, h.pvar c n ti si = .ok e → AllSubs P e
  ppar : ∀ c n ti si e, h.ppar c n ti si = .ok e → AllSubs P e
  portField : ∀ p f e, h.portField p f = .ok e → AllSubs P e
  agg : ∀ f, h.agg = some f → ∀ e a e', f e a = .ok e' → AllSubs P e'

theorem allSubs_operands {P : Expr → Prop} {e : Expr} (h : AllSubs P e) :
    ∀ o ∈ e.operands, AllSubs P o := by
  cases e
  case add es =>
    intro o ho x hx
    exact h x (mem_subs_add.2 (.inr ⟨o, ho, hx⟩))
  all_goals intro o ho; simp only [operands, List.mem_singleton] at ho; subst ho; exact h

theorem allSubs_add {P : Expr → Prop} (hadd : ∀ es, P (add es)) {es : List Expr}
    (h : ∀ o ∈ es, AllSubs P o) : AllSubs P (add es) := by
  intro x hx
  rcases mem_subs_add.1 hx with rfl | ⟨o, ho, hx⟩
  · exact hadd es
  · exact h o ho x hx

theorem allSubs_addOp {P : Expr → Prop} (hadd : ∀ es, P (add es)) {a b : Expr}
    (ha : AllSubs P a) (hb : AllSubs P b) : AllSubs P (a.addOp b) := by
  refine allSubs_add hadd fun o ho => ?_
  rcases List.mem_append.1 ho with h | h
  · exact allSubs_operands ha o h
  · exact allSubs_operands hb o h

theorem allSubs_foldAdd {P : Expr → Prop} (hadd : ∀ es, P (add es)) {es : List Expr} {e : Expr}
    (h : foldAdd addOp es = .ok e) (hes : ∀ o ∈ es, AllSubs P o) : AllSubs P e := by
  cases es with
  | nil => simp [foldAdd] at h
  | cons o os =>
    simp only [foldAdd, Except.ok.injEq] at h
    subst h
    have ho := hes o (by simp)
    have hos : ∀ x ∈ os, AllSubs P x := fun x hx => hes x (by simp [hx])
    clear hes
    induction os generalizing o with
    | nil => exact ho
    | cons a os ih => exact ih _ (allSubs_addOp hadd ho (hos a (by simp))) fun x hx => hos x (by simp [hx])

theorem allSubs_sumExpressions {P : Expr → Prop} (hadd : ∀ es, P (add es)) (h0 : P (lit 0)) {es : List Expr}
    (h : ∀ o ∈ es, AllSubs P o) : AllSubs P (sumExpressions es) := by
  match es with
  | [] => intro x hx; simp only [sumExpressions, subs, List.mem_singleton] at hx; subst hx; exact h0
  | [e] => exact h e (by simp)
  | a :: b :: os => exact allSubs_add hadd h

/-- inner nodes of the input satisfy `P` -/
def InnerP (h : Hooks) (P : Expr → Prop) (e : Expr) : Prop :=
  ∀ x ∈ e.subs, isHookLeaf x = false → ((∀ y a, x ≠ agg y a) ∨ h.agg = none) → P x

theorem innerP_of {h : Hooks} {P : Expr → Prop} {e x : Expr} (hi : InnerP h P e)
    (hs : ∀ y ∈ x.subs, y ∈ e.subs) : InnerP h P x := fun y hy => hi y (hs y hy)

theorem copyWith_allSubs' {h : Hooks} {P : Expr → Prop} (hd : HeadDet0 P)
    (hagg : ∀ e e' o, copyWith h e = .ok e' → P (.agg e o) → P (.agg e' o)) (hh : HookAll h P) (e : Expr) :
    InnerP h P e → ∀ e', copyWith h e = .ok e' → AllSubs P e' := by
  have self : ∀ {e : Expr}, InnerP h P e → isHookLeaf e = false → (∀ y a, e ≠ agg y a) → P e :=
    fun hi h1 h2 => hi _ (mem_subs_self _) h1 (.inl h2)
  induction e using Expr.ind with
  | lit v =>
    intro hi e' h'
    simp only [copyWith, Except.ok.injEq] at h'
    subst h'
    intro x hx
    simp only [subs, List.mem_singleton] at hx
    subst hx
    exact self hi rfl (by simp)
  | var n => intro _ e' h'; exact hh.var n e' h'
  | par n => intro _ e' h'; exact hh.par n e' h'
  | cvar c n => intro _ e' h'; exact hh.cvar c n e' h'
  | cpar c n => intro _ e' h'; exact hh.cpar c n e' h'
  | pvar c n ti si => intro _ e' h'; exact hh.pvar c n ti si e' h'
  | ppar c n ti si => intro _ e' h'; exact hh.ppar c n ti si e' h'
  | portField p f => intro _ e' h'; exact hh.portField p f e' h'
  | neg e ih =>
    intro hi e' h'
    simp only [copyWith, bind_ok_iff, Except.ok.injEq] at h'
    obtain ⟨a, ha, rfl⟩ := h'
    intro x hx
    rcases List.mem_cons.1 hx with rfl | hx
    · exact hd.neg e a (self hi rfl (by simp))
    · exact ih (innerP_of hi (by simp +contextual [subs])) a ha x hx
  | add es ih =>
    intro hi e' h'
    rw [copyWith_add, bind_ok_iff] at h'
    obtain ⟨es', hes, hf⟩ := h'
    refine allSubs_foldAdd hd.add hf fun o ho => ?_
    obtain ⟨x, hx, hxo⟩ := forall₂_mem_right (appendAll_ok_iff.1 hes) ho
    exact ih x hx (innerP_of hi fun y hy => mem_subs_add.2 (.inr ⟨x, hx, hy⟩)) o hxo
  | mul l r ihl ihr =>
    intro hi e' h'
    simp only [copyWith, bind_ok_iff, Except.ok.injEq] at h'
    obtain ⟨a, ha, b, hb, rfl⟩ := h'
    intro x hx
    simp only [mulOp, subs, List.mem_cons, List.mem_append] at hx
    rcases hx with rfl | hx | hx
    · exact hd.mul l r _ _ (self hi rfl (by simp))
    · exact ihl (innerP_of hi (by simp +contextual [subs])) a ha x hx
    · exact ihr (innerP_of hi (by simp +contextual [subs])) b hb x hx
  | div l r ihl ihr =>
    intro hi e' h'
    simp only [copyWith, bind_ok_iff, Except.ok.injEq] at h'
    obtain ⟨a, ha, b, hb, rfl⟩ := h'
    intro x hx
    simp only [divOp, subs, List.mem_cons, List.mem_append] at hx
    rcases hx with rfl | hx | hx
    · exact hd.div l r _ _ (self hi rfl (by simp))
    · exact ihl (innerP_of hi (by simp +contextual [subs])) a ha x hx
    · exact ihr (innerP_of hi (by simp +contextual [subs])) b hb x hx
  | cmp l r c ihl ihr =>
    intro hi e' h'
    simp only [copyWith, bind_ok_iff, Except.ok.injEq] at h'
    obtain ⟨a, ha, b, hb, rfl⟩ := h'
    intro x hx
    simp only [subs, List.mem_cons, List.mem_append] at hx
    rcases hx with rfl | hx | hx
    · exact hd.cmp l r _ _ _ (self hi rfl (by simp))
    · exact ihl (innerP_of hi (by simp +contextual [subs])) a ha x hx
    · exact ihr (innerP_of hi (by simp +contextual [subs])) b hb x hx
  | shift l r ihl ihr =>
    intro hi e' h'
    simp only [copyWith, bind_ok_iff, Except.ok.injEq] at h'
    obtain ⟨a, ha, b, hb, rfl⟩ := h'
    intro x hx
    simp only [subs, List.mem_cons, List.mem_append] at hx
    rcases hx with rfl | hx | hx
    · exact hd.shift l r _ _ (self hi rfl (by simp))
    · exact ihl (innerP_of hi (by simp +contextual [subs])) a ha x hx
    · exact ihr (innerP_of hi (by simp +contextual [subs])) b hb x hx
  | evalT l r ihl ihr =>
    intro hi e' h'
    simp only [copyWith, bind_ok_iff, Except.ok.injEq] at h'
    obtain ⟨a, ha, b, hb, rfl⟩ := h'
    intro x hx
    simp only [subs, List.mem_cons, List.mem_append] at hx
    rcases hx with rfl | hx | hx
    · exact hd.evalT l r _ _ (self hi rfl (by simp))
    · exact ihl (innerP_of hi (by simp +contextual [subs])) a ha x hx
    · exact ihr (innerP_of hi (by simp +contextual [subs])) b hb x hx
  | tsum e a b ihe iha ihb =>
    intro hi e' h'
    simp only [copyWith, bind_ok_iff, Except.ok.injEq] at h'
    obtain ⟨a', ha, b', hb, c', hc, rfl⟩ := h'
    intro x hx
    simp only [subs, List.mem_cons, List.mem_append] at hx
    rcases hx with rfl | (hx | hx) | hx
    · exact hd.tsum e a b _ _ _ (self hi rfl (by simp))
    · exact ihe (innerP_of hi (by simp +contextual [subs])) _ ha x hx
    · exact iha (innerP_of hi (by simp +contextual [subs])) _ hb x hx
    · exact ihb (innerP_of hi (by simp +contextual [subs])) _ hc x hx
  | allsum e ih =>
    intro hi e' h'
    simp only [copyWith, bind_ok_iff, Except.ok.injEq] at h'
    obtain ⟨a, ha, rfl⟩ := h'
    intro x hx
    rcases List.mem_cons.1 hx with rfl | hx
    · exact hd.allsum e a (self hi rfl (by simp))
    · exact ih (innerP_of hi (by simp +contextual [subs])) a ha x hx
  | scen e o ih =>
    intro hi e' h'
    simp only [copyWith, bind_ok_iff, Except.ok.injEq] at h'
    obtain ⟨a, ha, rfl⟩ := h'
    intro x hx
    rcases List.mem_cons.1 hx with rfl | hx
    · exact hd.scen e a o (self hi rfl (by simp))
    · exact ih (innerP_of hi (by simp +contextual [subs])) a ha x hx
  | agg e o ih =>
    intro hi e' h'
    simp only [copyWith] at h'
    split at h'
    next f hf => exact hh.agg f hf e o e' h'
    next hn =>
      simp only [bind_ok_iff, Except.ok.injEq] at h'
      obtain ⟨a, ha, rfl⟩ := h'
      intro x hx
      rcases List.mem_cons.1 hx with rfl | hx
      · exact hagg e a o ha (hi _ (mem_subs_self _) rfl (.inr hn))
      · exact ih (innerP_of hi (by simp +contextual [subs])) a ha x hx

theorem copyWith_allSubs {h : Hooks} {P : Expr → Prop} (hd : HeadDet P) (hh : HookAll h P) (e : Expr) :
    InnerP h P e → ∀ e', copyWith h e = .ok e' → AllSubs P e' :=
  copyWith_allSubs' hd.toHeadDet0 (fun e e' o _ => hd.agg e e' o) hh e

/-- a copy with total leaf hooks fails only on an empty sum -/
theorem copyExpression_ok (e : Expr) : add [] ∉ e.subs → ∃ e', copyExpression e = .ok e' := by
  unfold copyExpression
  have bin : ∀ {l r : Expr} {x : Expr}, x ∉ l.subs ++ r.subs → x ∉ l.subs ∧ x ∉ r.subs := by
    intro l r x h; simpa using h
  induction e using Expr.ind with
  | neg e ih =>
    intro h
    obtain ⟨a, ha⟩ := ih (fun hx => h (by simp [subs, hx]))
    exact ⟨_, by simp [copyWith, ha]; rfl⟩
  | add es ih =>
    intro h
    have hne : es ≠ [] := by rintro rfl; exact h (mem_subs_self _)
    have : ∃ es', appendAll (copyWith copyHooks) es = .ok es' := by
      have hm : ∀ e ∈ es, ∃ e', copyWith copyHooks e = .ok e' :=
        fun e he => ih e he fun hx => h (mem_subs_add.2 (.inr ⟨e, he, hx⟩))
      clear ih h hne
      induction es with
      | nil => exact ⟨[], rfl⟩
      | cons e es ih2 =>
        obtain ⟨a, ha⟩ := hm e (by simp)
        obtain ⟨as, has⟩ := ih2 fun x hx => hm x (by simp [hx])
        exact ⟨a :: as, by simp [ha, has]⟩
    obtain ⟨es', hes⟩ := this
    rw [copyWith_add, hes, ok_bind]
    exact foldAdd_ok (by rintro rfl; have := appendAll_length hes; simp at this; exact hne (List.length_eq_zero_iff.1 this.symm))
  | mul l r ihl ihr =>
    intro h
    obtain ⟨a, ha⟩ := ihl (fun hx => h (by simp [subs, hx]))
    obtain ⟨b, hb⟩ := ihr (fun hx => h (by simp [subs, hx]))
    exact ⟨_, by simp [copyWith, ha, hb]; rfl⟩
  | div l r ihl ihr =>
    intro h
    obtain ⟨a, ha⟩ := ihl (fun hx => h (by simp [subs, hx]))
    obtain ⟨b, hb⟩ := ihr (fun hx => h (by simp [subs, hx]))
    exact ⟨_, by simp [copyWith, ha, hb]; rfl⟩
  | cmp l r c ihl ihr =>
    intro h
    obtain ⟨a, ha⟩ := ihl (fun hx => h (by simp [subs, hx]))
    obtain ⟨b, hb⟩ := ihr (fun hx => h (by simp [subs, hx]))
    exact ⟨_, by simp [copyWith, ha, hb]; rfl⟩
  | shift l r ihl ihr =>
    intro h
    obtain ⟨a, ha⟩ := ihl (fun hx => h (by simp [subs, hx]))
    obtain ⟨b, hb⟩ := ihr (fun hx => h (by simp [subs, hx]))
    exact ⟨_, by simp [copyWith, ha, hb]; rfl⟩
  | evalT l r ihl ihr =>
    intro h
    obtain ⟨a, ha⟩ := ihl (fun hx => h (by simp [subs, hx]))
    obtain ⟨b, hb⟩ := ihr (fun hx => h (by simp [subs, hx]))
    exact ⟨_, by simp [copyWith, ha, hb]; rfl⟩
  | tsum e l r ihe ihl ihr =>
    intro h
    obtain ⟨x, hx⟩ := ihe (fun hx => h (by simp [subs, hx]))
    obtain ⟨a, ha⟩ := ihl (fun hx => h (by simp [subs, hx]))
    obtain ⟨b, hb⟩ := ihr (fun hx => h (by simp [subs, hx]))
    exact ⟨_, by simp [copyWith, ha, hb, hx]; rfl⟩
  | allsum e ih =>
    intro h
    obtain ⟨a, ha⟩ := ih (fun hx => h (by simp [subs, hx]))
    exact ⟨_, by simp [copyWith, ha]; rfl⟩
  | scen e o ih =>
    intro h
    obtain ⟨a, ha⟩ := ih (fun hx => h (by simp [subs, hx]))
    exact ⟨_, by simp [copyWith, ha]; rfl⟩
  | agg e o ih =>
    intro h
    obtain ⟨a, ha⟩ := ih (fun hx => h (by simp [subs, hx]))
    refine ⟨.agg a o, ?_⟩
    simp only [copyWith, ha]; rfl
  | _ => intro _; exact ⟨_, rfl⟩

end Verif
