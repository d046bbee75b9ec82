import Verif.Spec.Buildable
import Verif.Lemmas.Meaning
import Verif.Lemmas.CopyOk
import Verif.Lemmas.Expand

/-! Expressions that fit stay so through the copying visitors. -/

namespace Verif
open Expr

namespace Expr

/-- time or scenario operator -/
def isOperator : Expr → Bool
  | shift .. => true
  | evalT .. => true
  | tsum .. => true
  | allsum _ => true
  | scen .. => true
  | _ => false

/-- symbols, and references to ports -/
def isLeaf : Expr → Bool
  | var _ => true
  | par _ => true
  | cvar .. => true
  | cpar .. => true
  | pvar .. => true
  | ppar .. => true
  | portField .. => true
  | agg .. => true
  | _ => false

end Expr

/-- the kinds of nodes that copying does not introduce -/
inductive KeptKind : (Expr → Bool) → Prop
  | unknown : KeptKind isUnknown
  | fixing : KeptKind isTimeFixing
  | scen : KeptKind isScen

/-- `P` on inner nodes depends only on the constructor, and holds of operators only -/
structure HeadKind (P : Expr → Bool) : Prop where
  lit : ∀ v, P (.lit v) = false
  neg : ∀ e, P (.neg e) = false
  add : ∀ es, P (.add es) = false
  mul : ∀ a b, P (.mul a b) = false
  div : ∀ a b, P (.div a b) = false
  shift : ∀ a b a' b', P (.shift a b) = false → P (.shift a' b') = false
  evalT : ∀ a b a' b', P (.evalT a b) = false → P (.evalT a' b') = false
  tsum : ∀ a b c a' b' c', P (.tsum a b c) = false → P (.tsum a' b' c') = false
  allsum : ∀ e e', P (.allsum e) = false → P (.allsum e') = false
  scen : ∀ e e' o, P (.scen e o) = false → P (.scen e' o) = false

theorem KeptKind.head {P : Expr → Bool} (h : KeptKind P) : HeadKind P := by
  cases h <;> constructor <;> intros <;> first | rfl | simp_all [isTimeFixing, isScen, isOperator]

/-- copying `e` to `e'` introduces no new kind of node -/
def Keeps (e e' : Expr) : Prop := ∀ P, KeptKind P → (∀ y ∈ e.subs, P y = false) → ∀ y ∈ e'.subs, P y = false

theorem fitsAll_iff {leaf amt : Expr → Prop} {M : MCtx} {es : List Expr} :
    FitsAll leaf amt M es ↔ ∀ e ∈ es, Fits leaf amt M e := by
  induction es with
  | nil => simp [FitsAll]
  | cons e es ih => simp [FitsAll, ih]

theorem fits_operands {leaf amt : Expr → Prop} {M : MCtx} {e : Expr} (h : Fits leaf amt M e) :
    e.operands ≠ [] ∧ ∀ o ∈ e.operands, Fits leaf amt M o := by
  cases e
  case add es => exact ⟨h.1, fitsAll_iff.1 h.2⟩
  all_goals exact ⟨by simp [operands], fun o ho => by simp only [operands, List.mem_singleton] at ho; subst ho; exact h⟩

theorem fits_addOp {leaf amt : Expr → Prop} {M : MCtx} {a b : Expr} (ha : Fits leaf amt M a) (hb : Fits leaf amt M b) :
    Fits leaf amt M (a.addOp b) := by
  refine ⟨by simp [(fits_operands ha).1], fitsAll_iff.2 fun o ho => ?_⟩
  rcases List.mem_append.1 ho with h | h
  · exact (fits_operands ha).2 o h
  · exact (fits_operands hb).2 o h

theorem fits_foldAdd {leaf amt : Expr → Prop} {M : MCtx} {es : List Expr} (hne : es ≠ [])
    (h : ∀ o ∈ es, Fits leaf amt M o) : ∃ e, foldAdd addOp es = .ok e ∧ Fits leaf amt M e := by
  cases es with
  | nil => exact absurd rfl hne
  | cons o os =>
    refine ⟨_, rfl, ?_⟩
    have h0 := h o (by simp)
    have hs : ∀ o ∈ os, Fits leaf amt M o := fun o ho => h o (by simp [ho])
    clear h hne
    induction os generalizing o with
    | nil => exact h0
    | cons a os ih => exact ih _ (fits_addOp h0 (hs a (by simp))) fun o ho => hs o (by simp [ho])

theorem fits_sumExpressions {leaf amt : Expr → Prop} {M : MCtx} {es : List Expr} (h : ∀ o ∈ es, Fits leaf amt M o) :
    Fits leaf amt M (sumExpressions es) := by
  match es with
  | [] => rfl
  | [e] => exact h e (by simp)
  | a :: b :: os => exact ⟨by simp, fitsAll_iff.2 h⟩

theorem fits_leaf {leaf amt : Expr → Prop} {M : MCtx} {y : Expr} (h : y.isLeaf = true) : Fits leaf amt M y ↔ leaf y := by
  cases y <;> first | exact Iff.rfl | cases h

theorem Fits.mono {leaf leaf' amt amt' : Expr → Prop} {M : MCtx} (e : Expr) (hl : ∀ y ∈ e.subs, y.isLeaf = true → leaf y → leaf' y)
    (ha : ∀ k, amt k → amt' k) (h : Fits leaf amt M e) : Fits leaf' amt' M e := by
  induction e using Expr.ind with
  | lit v => exact h
  | neg e ih => exact ih (fun y hy => hl y (by simp [subs, hy])) h
  | add es ih =>
    exact ⟨h.1, fitsAll_iff.2 fun e he => ih e he (fun y hy => hl y (mem_subs_add.2 (.inr ⟨e, he, hy⟩))) (fitsAll_iff.1 h.2 e he)⟩
  | mul l r ihl ihr =>
    exact ⟨ihl (fun y hy => hl y (by simp [subs, hy])) h.1, ihr (fun y hy => hl y (by simp [subs, hy])) h.2.1, h.2.2⟩
  | div l r ihl ihr =>
    exact ⟨ihl (fun y hy => hl y (by simp [subs, hy])) h.1, ihr (fun y hy => hl y (by simp [subs, hy])) h.2.1, h.2.2⟩
  | cmp l r c => exact h
  | shift e k ih => exact ⟨ih (fun y hy => hl y (by simp [subs, hy])) h.1, ha _ h.2.1, h.2.2⟩
  | evalT e k ih => exact ⟨ih (fun y hy => hl y (by simp [subs, hy])) h.1, ha _ h.2.1, h.2.2⟩
  | tsum e a b ih => exact ⟨ih (fun y hy => hl y (by simp [subs, hy])) h.1, ha _ h.2.1, ha _ h.2.2.1, h.2.2.2⟩
  | allsum e ih => exact ih (fun y hy => hl y (by simp [subs, hy])) h
  | scen e o ih => exact ⟨ih (fun y hy => hl y (by simp [subs, hy])) h.1, h.2⟩
  | var => exact hl _ (mem_subs_self _) rfl h
  | par => exact hl _ (mem_subs_self _) rfl h
  | cvar => exact hl _ (mem_subs_self _) rfl h
  | cpar => exact hl _ (mem_subs_self _) rfl h
  | pvar => exact hl _ (mem_subs_self _) rfl h
  | ppar => exact hl _ (mem_subs_self _) rfl h
  | portField => exact hl _ (mem_subs_self _) rfl h
  | agg => exact hl _ (mem_subs_self _) rfl h

/-- the result of copying -/
structure Copied (h : Hooks) (leaf amt : Expr → Prop) (M M' : MCtx) (f g : Int → Int) (e e' : Expr) : Prop where
  ok : copyWith h e = .ok e'
  fits : Fits leaf amt M' e'
  keeps : Keeps e e'
  mean : ∀ t s, mden M' e' t s = mden M e (f t) (g s)

theorem copy_fits {h : Hooks} {leaf leaf' amt amt' : Expr → Prop} {M M' : MCtx} {f g : Int → Int} (hS : M'.D.S = M.D.S)
    (hT : M'.D.T = M.D.T) (hg : ∀ s : Int, 0 ≤ s → s < M.D.S → 0 ≤ g s ∧ g s < M.D.S)
    (hleaf : ∀ y, y.isLeaf = true → leaf y → ∃ y', Copied h leaf' amt' M M' f g y y')
    (hamt : ∀ k, amt k → ∃ k', copyWith h k = .ok k' ∧ amt' k' ∧ Keeps k k' ∧ mden M' k' 0 0 = mden M k 0 0)
    (e : Expr) (hops : (f = id ∧ g = id) ∨ ∀ y ∈ e.subs, y.isOperator = false) (he : Fits leaf amt M e) :
    ∃ e', Copied h leaf' amt' M M' f g e e' := by
  have sub : ∀ {e x : Expr}, (∀ y ∈ x.subs, y ∈ e.subs) → ((f = id ∧ g = id) ∨ ∀ y ∈ e.subs, y.isOperator = false) →
      ((f = id ∧ g = id) ∨ ∀ y ∈ x.subs, y.isOperator = false) :=
    fun hs h => h.imp id fun h y hy => h y (hs y hy)
  have op : ∀ {e : Expr}, e.isOperator = true → ((f = id ∧ g = id) ∨ ∀ y ∈ e.subs, y.isOperator = false) →
      f = id ∧ g = id := by
    intro e he h
    rcases h with h | h
    · exact h
    · rw [h e (mem_subs_self e)] at he; cases he
  induction e using Expr.ind with
  | lit v => exact ⟨.lit v, rfl, he, fun P hP h => h, fun t s => by cases v <;> rfl⟩
  | neg e ih =>
    obtain ⟨e', k⟩ := ih (sub (fun y hy => by simp [subs, hy]) hops) he
    refine ⟨.neg e', by simp [copyWith, k.ok, negOp], k.fits, fun P hP h => ?_, fun t s => by simp [mden, k.mean]⟩
    simp only [subs, List.forall_mem_cons] at h ⊢
    exact ⟨hP.head.neg _, k.keeps P hP h.2⟩
  | add es ih =>
    have hall : ∃ es', copyWithList h es = .ok es' ∧ List.Forall₂ (Copied h leaf' amt' M M' f g) es es' := by
      have hs : ∀ e ∈ es, ∃ e', Copied h leaf' amt' M M' f g e e' := fun e hm =>
        ih e hm (sub (fun y hy => mem_subs_add.2 (.inr ⟨e, hm, hy⟩)) hops) (fitsAll_iff.1 he.2 e hm)
      clear ih he hops
      induction es with
      | nil => exact ⟨[], rfl, .nil⟩
      | cons e es ih =>
        obtain ⟨e', k⟩ := hs e (by simp)
        obtain ⟨es', h1, h2⟩ := ih fun e hm => hs e (by simp [hm])
        exact ⟨e' :: es', by simp [copyWithList, k.ok, h1], .cons k h2⟩
    obtain ⟨es', h1, h2⟩ := hall
    have hfits : ∀ o ∈ es', Fits leaf' amt' M' o := by
      intro o ho
      obtain ⟨e, -, k⟩ := forall₂_mem_right h2 ho
      exact k.fits
    have hne : es' ≠ [] := by
      rintro rfl
      cases h2
      exact he.1 rfl
    obtain ⟨e', h3, h4⟩ := fits_foldAdd hne hfits
    refine ⟨e', by simp [copyWith, h1, h3], h4, fun P hP h => ?_, fun t s => ?_⟩
    · refine allSubs_foldAdd (P := fun y => P y = false) (fun _ => hP.head.add _) h3 fun o ho => ?_
      obtain ⟨e, hm, k⟩ := forall₂_mem_right h2 ho
      exact k.keeps P hP fun y hy => h y (mem_subs_add.2 (.inr ⟨e, hm, hy⟩))
    · rw [mden_foldAdd M' h3, mden_add]
      clear h3 h4 hfits hne ih he hops h1
      induction h2 with
      | nil => rfl
      | cons k _ ih => simp [k.mean, ih]
  | mul l r ihl ihr =>
    obtain ⟨l', kl⟩ := ihl (sub (fun y hy => by simp [subs, hy]) hops) he.1
    obtain ⟨r', kr⟩ := ihr (sub (fun y hy => by simp [subs, hy]) hops) he.2.1
    refine ⟨.mul l' r', by simp [copyWith, kl.ok, kr.ok, mulOp], ⟨kl.fits, kr.fits, ?_⟩, fun P hP h => ?_,
      fun t s => by simp [mden, kl.mean, kr.mean]⟩
    · exact he.2.2.imp (kl.keeps _ .unknown) (kr.keeps _ .unknown)
    · simp only [subs, List.forall_mem_cons, List.forall_mem_append] at h ⊢
      exact ⟨hP.head.mul _ _, kl.keeps P hP h.2.1, kr.keeps P hP h.2.2⟩
  | div l r ihl ihr =>
    obtain ⟨l', kl⟩ := ihl (sub (fun y hy => by simp [subs, hy]) hops) he.1
    obtain ⟨r', kr⟩ := ihr (sub (fun y hy => by simp [subs, hy]) hops) he.2.1
    refine ⟨.div l' r', by simp [copyWith, kl.ok, kr.ok, divOp], ⟨kl.fits, kr.fits, kr.keeps _ .unknown he.2.2.1, ?_⟩, fun P hP h => ?_,
      fun t s => by simp [mden, kl.mean, kr.mean]⟩
    · intro t s h0 h1
      rw [kr.mean]
      rw [hS] at h1
      obtain ⟨a, b⟩ := hg s h0 h1
      exact he.2.2.2 _ _ a b
    · simp only [subs, List.forall_mem_cons, List.forall_mem_append] at h ⊢
      exact ⟨hP.head.div _ _, kl.keeps P hP h.2.1, kr.keeps P hP h.2.2⟩
  | cmp l r c => exact absurd he (by simp [Fits])
  | shift e k ih =>
    obtain ⟨e', ke⟩ := ih (sub (fun y hy => by simp [subs, hy]) hops) he.1
    obtain ⟨k', k1, k2, k3, k4⟩ := hamt k he.2.1
    refine ⟨.shift e' k', by simp [copyWith, ke.ok, k1], ⟨ke.fits, k2, ke.keeps _ .fixing he.2.2⟩, fun P hP h => ?_, fun t s => ?_⟩
    · simp only [subs, List.forall_mem_cons, List.forall_mem_append] at h ⊢
      exact ⟨hP.head.shift _ _ _ _ h.1, ke.keeps P hP h.2.1, k3 P hP h.2.2⟩
    · obtain ⟨rfl, rfl⟩ := op rfl hops
      simp [mden, ke.mean, k4]
  | evalT e k ih =>
    obtain ⟨e', ke⟩ := ih (sub (fun y hy => by simp [subs, hy]) hops) he.1
    obtain ⟨k', k1, k2, k3, k4⟩ := hamt k he.2.1
    refine ⟨.evalT e' k', by simp [copyWith, ke.ok, k1], ⟨ke.fits, k2, ke.keeps _ .fixing he.2.2⟩, fun P hP h => ?_, fun t s => ?_⟩
    · simp only [subs, List.forall_mem_cons, List.forall_mem_append] at h ⊢
      exact ⟨hP.head.evalT _ _ _ _ h.1, ke.keeps P hP h.2.1, k3 P hP h.2.2⟩
    · obtain ⟨rfl, rfl⟩ := op rfl hops
      simp [mden, ke.mean, k4]
  | tsum e a b ih =>
    obtain ⟨e', ke⟩ := ih (sub (fun y hy => by simp [subs, hy]) hops) he.1
    obtain ⟨a', a1, a2, a3, a4⟩ := hamt a he.2.1
    obtain ⟨b', b1, b2, b3, b4⟩ := hamt b he.2.2.1
    refine ⟨.tsum e' a' b', by simp [copyWith, ke.ok, a1, b1], ⟨ke.fits, a2, b2, ke.keeps _ .fixing he.2.2.2⟩, fun P hP h => ?_, fun t s => ?_⟩
    · simp only [subs, List.forall_mem_cons, List.forall_mem_append] at h ⊢
      exact ⟨hP.head.tsum _ _ _ _ _ _ h.1, ⟨ke.keeps P hP h.2.1.1, a3 P hP h.2.1.2⟩, b3 P hP h.2.2⟩
    · obtain ⟨rfl, rfl⟩ := op rfl hops
      simp [mden, ke.mean, a4, b4]
  | allsum e ih =>
    obtain ⟨e', ke⟩ := ih (sub (fun y hy => by simp [subs, hy]) hops) he
    refine ⟨.allsum e', by simp [copyWith, ke.ok], ke.fits, fun P hP h => ?_, fun t s => ?_⟩
    · simp only [subs, List.forall_mem_cons] at h ⊢
      exact ⟨hP.head.allsum _ _ h.1, ke.keeps P hP h.2⟩
    · obtain ⟨rfl, rfl⟩ := op rfl hops
      simp [mden, ke.mean, hT]
  | scen e o ih =>
    obtain ⟨e', ke⟩ := ih (sub (fun y hy => by simp [subs, hy]) hops) he.1
    refine ⟨.scen e' o, by simp [copyWith, ke.ok], ⟨ke.fits, he.2.1, ke.keeps _ .scen he.2.2⟩, fun P hP h => ?_, fun t s => ?_⟩
    · simp only [subs, List.forall_mem_cons] at h ⊢
      exact ⟨hP.head.scen _ _ _ h.1, ke.keeps P hP h.2⟩
    · obtain ⟨rfl, rfl⟩ := op rfl hops
      simp [mden, ke.mean, hS]
  | var => exact hleaf _ rfl he
  | par => exact hleaf _ rfl he
  | cvar => exact hleaf _ rfl he
  | cpar => exact hleaf _ rfl he
  | pvar => exact hleaf _ rfl he
  | ppar => exact hleaf _ rfl he
  | portField => exact hleaf _ rfl he
  | agg => exact hleaf _ rfl he

/-- without time shift, fixed timestep or scenario operator, no operator is left -/
theorem plain_of_fits {leaf : Expr → Prop} {M : MCtx} (e : Expr) (hl : ∀ y, leaf y → ∀ z ∈ y.subs, z.isOperator = false)
    (hf : ∀ y ∈ e.subs, y.isTimeFixing = false) (hs : ∀ y ∈ e.subs, y.isScen = false)
    (he : Fits leaf (fun _ => False) M e) : ∀ y ∈ e.subs, y.isOperator = false := by
  induction e using Expr.ind with
  | lit v => simp [subs, isOperator]
  | neg e ih =>
    simp only [subs, List.forall_mem_cons] at hf hs ⊢
    exact ⟨rfl, ih hf.2 hs.2 he⟩
  | add es ih =>
    intro y hy
    rcases mem_subs_add.1 hy with rfl | ⟨e, hm, hy⟩
    · rfl
    · exact ih e hm (fun y hy => hf y (mem_subs_add.2 (.inr ⟨e, hm, hy⟩))) (fun y hy => hs y (mem_subs_add.2 (.inr ⟨e, hm, hy⟩)))
        (fitsAll_iff.1 he.2 e hm) y hy
  | mul l r ihl ihr =>
    simp only [subs, List.forall_mem_cons, List.forall_mem_append] at hf hs ⊢
    exact ⟨rfl, ihl hf.2.1 hs.2.1 he.1, ihr hf.2.2 hs.2.2 he.2.1⟩
  | div l r ihl ihr =>
    simp only [subs, List.forall_mem_cons, List.forall_mem_append] at hf hs ⊢
    exact ⟨rfl, ihl hf.2.1 hs.2.1 he.1, ihr hf.2.2 hs.2.2 he.2.1⟩
  | cmp l r c => exact absurd he (by simp [Fits])
  | shift e k => exact absurd he.2.1 id
  | evalT e k => exact absurd he.2.1 id
  | tsum e a b => exact absurd he.2.1 id
  | allsum e => exact absurd (hf _ (mem_subs_self _)) (by simp [isTimeFixing])
  | scen e o => exact absurd (hs _ (mem_subs_self _)) (by simp [isScen])
  | var => exact hl _ he
  | par => exact hl _ he
  | cvar => exact hl _ he
  | cpar => exact hl _ he
  | pvar => exact hl _ he
  | ppar => exact hl _ he
  | portField => exact hl _ he
  | agg => exact hl _ he

end Verif
