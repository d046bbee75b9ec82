import Verif.Lemmas.CopySubs
import Verif.Spec.Den
import Verif.Spec.Agree

/-! Lemmas on operator expansion. -/

namespace Verif
open Expr

/-! ### Shape of the output -/

/-- nodes of an expanded expression: problem symbols whose indices satisfy `A`, arithmetic, and the untouched nodes if
`oth` -/
def OutP (A : TIdx → SIdx → Prop) (oth : Prop) : Expr → Prop
  | pvar _ _ ti si => A ti si
  | ppar _ _ ti si => A ti si
  | lit _ => True
  | neg _ => True
  | add _ => True
  | mul .. => True
  | div .. => True
  | var _ => oth
  | par _ => oth
  | portField .. => oth
  | .cmp .. => oth
  | agg .. => oth
  | _ => False

theorem headDet_outP (A oth) : HeadDet (OutP A oth) := by
  refine ⟨⟨?_, ?_, ?_, ?_, ?_, ?_, ?_, ?_, ?_, ?_⟩, ?_⟩ <;> intros <;> simp_all [OutP]

def isShiftOp : Expr → Bool
  | shift .. => true
  | tsum .. => true
  | _ => false

/-- closure of an index predicate under the three rewritings -/
def ShiftClosed (A : TIdx → SIdx → Prop) : Prop := ∀ ti si k, A ti si → A (ti.applyShift k) si
def StepClosed (A : TIdx → SIdx → Prop) : Prop :=
  ∀ ti si t b ti', A ti si → ti.applyStep t b = .ok ti' → A ti' si
def ScenClosed (A : TIdx → SIdx → Prop) : Prop := ∀ ti si w, A ti si → A ti (si.applyScenario w)

theorem allSubs_leaf {P : Expr → Prop} {x y : Expr} (h : (Except.ok y : R Expr) = .ok x) (hs : y.subs = [y])
    (hp : P y) : AllSubs P x := by
  intro z hz
  cases h
  rw [hs, List.mem_singleton] at hz
  subst hz; exact hp

/-- restricting hooks: like `copyWith_allSubs` when the input already satisfies an output grammar -/
theorem copyWith_out {h : Hooks} {A B : TIdx → SIdx → Prop} {oth : Prop}
    (hvar : ∀ n, h.var n = .ok (.var n)) (hpar : ∀ n, h.par n = .ok (.par n))
    (hport : ∀ p f, h.portField p f = .ok (.portField p f)) (hagg : h.agg = none)
    (hpv : ∀ c n ti si e, A ti si → h.pvar c n ti si = .ok e → ∃ ti' si', e = .pvar c n ti' si' ∧ B ti' si')
    (hpp : ∀ c n ti si e, A ti si → h.ppar c n ti si = .ok e → ∃ ti' si', e = .ppar c n ti' si' ∧ B ti' si')
    (e : Expr) : AllSubs (OutP A oth) e → ∀ e', copyWith h e = .ok e' → AllSubs (OutP B oth) e' := by
  have sub : ∀ {e x : Expr}, AllSubs (OutP A oth) e → (∀ y ∈ x.subs, y ∈ e.subs) → AllSubs (OutP A oth) x :=
    fun h1 h2 y hy => h1 y (h2 y hy)
  induction e using Expr.ind with
  | lit v =>
    intro hi e' h'
    exact allSubs_leaf h' rfl trivial
  | var n => intro hi e' h'; simp only [copyWith, hvar] at h'; exact allSubs_leaf h' rfl (hi _ (mem_subs_self _))
  | par n => intro hi e' h'; simp only [copyWith, hpar] at h'; exact allSubs_leaf h' rfl (hi _ (mem_subs_self _))
  | portField p f =>
    intro hi e' h'; simp only [copyWith, hport] at h'; exact allSubs_leaf h' rfl (hi _ (mem_subs_self _))
  | cvar c n => intro hi; exact absurd (hi _ (mem_subs_self _)) (by simp [OutP])
  | cpar c n => intro hi; exact absurd (hi _ (mem_subs_self _)) (by simp [OutP])
  | pvar c n ti si =>
    intro hi e' h'
    obtain ⟨ti', si', rfl, hB⟩ := hpv c n ti si e' (hi _ (mem_subs_self _)) h'
    exact allSubs_leaf rfl rfl hB
  | ppar c n ti si =>
    intro hi e' h'
    obtain ⟨ti', si', rfl, hB⟩ := hpp c n ti si e' (hi _ (mem_subs_self _)) h'
    exact allSubs_leaf rfl rfl hB
  | neg e ih =>
    intro hi e' h'
    simp only [copyWith, bind_ok_iff, Except.ok.injEq] at h'
    obtain ⟨a, ha, rfl⟩ := h'
    intro x hx
    rcases List.mem_cons.1 hx with rfl | hx
    · trivial
    · exact ih (sub hi (by simp +contextual [subs])) a ha x hx
  | add es ih =>
    intro hi e' h'
    rw [copyWith_add, bind_ok_iff] at h'
    obtain ⟨es', hes, hf⟩ := h'
    refine allSubs_foldAdd (fun _ => trivial) hf fun o ho => ?_
    obtain ⟨x, hx, hxo⟩ := forall₂_mem_right (appendAll_ok_iff.1 hes) ho
    exact ih x hx (sub hi fun y hy => mem_subs_add.2 (.inr ⟨x, hx, hy⟩)) o hxo
  | mul l r ihl ihr =>
    intro hi e' h'
    simp only [copyWith, bind_ok_iff, Except.ok.injEq] at h'
    obtain ⟨a, ha, b, hb, rfl⟩ := h'
    intro x hx
    simp only [mulOp, subs, List.mem_cons, List.mem_append] at hx
    rcases hx with rfl | hx | hx
    · trivial
    · exact ihl (sub hi (by simp +contextual [subs])) a ha x hx
    · exact ihr (sub hi (by simp +contextual [subs])) b hb x hx
  | div l r ihl ihr =>
    intro hi e' h'
    simp only [copyWith, bind_ok_iff, Except.ok.injEq] at h'
    obtain ⟨a, ha, b, hb, rfl⟩ := h'
    intro x hx
    simp only [divOp, subs, List.mem_cons, List.mem_append] at hx
    rcases hx with rfl | hx | hx
    · trivial
    · exact ihl (sub hi (by simp +contextual [subs])) a ha x hx
    · exact ihr (sub hi (by simp +contextual [subs])) b hb x hx
  | cmp l r c ihl ihr =>
    intro hi e' h'
    simp only [copyWith, bind_ok_iff, Except.ok.injEq] at h'
    obtain ⟨a, ha, b, hb, rfl⟩ := h'
    intro x hx
    simp only [subs, List.mem_cons, List.mem_append] at hx
    rcases hx with rfl | hx | hx
    · have := hi _ (mem_subs_self _); exact this
    · exact ihl (sub hi (by simp +contextual [subs])) a ha x hx
    · exact ihr (sub hi (by simp +contextual [subs])) b hb x hx
  | agg e o ih =>
    intro hi e' h'
    simp only [copyWith, hagg, bind_ok_iff, Except.ok.injEq] at h'
    obtain ⟨a, ha, rfl⟩ := h'
    intro x hx
    rcases List.mem_cons.1 hx with rfl | hx
    · have := hi _ (mem_subs_self _); exact this
    · exact ih (sub hi (by simp +contextual [subs])) a ha x hx
  | _ => intro hi; exact absurd (hi _ (mem_subs_self _)) (by simp [OutP])

theorem applyTimeshift_out {A B : TIdx → SIdx → Prop} {oth : Prop} {e e' : Expr} {k : Int}
    (hAB : ∀ ti si, A ti si → B (ti.applyShift k) si)
    (hi : AllSubs (OutP A oth) e) (h : applyTimeshift e k = .ok e') : AllSubs (OutP B oth) e' := by
  refine copyWith_out (A := A) (h := shiftHooks k) (fun _ => rfl) (fun _ => rfl) (fun _ _ => rfl) rfl ?_ ?_ e hi e' h
  all_goals
    intro c n ti si e hA he
    cases he
    exact ⟨_, _, rfl, hAB _ _ hA⟩

theorem applyTimestep_out {A B : TIdx → SIdx → Prop} {oth : Prop} {e e' : Expr} {k : Int} {b : Bool}
    (hAB : ∀ ti si ti', A ti si → ti.applyStep k b = .ok ti' → B ti' si)
    (hi : AllSubs (OutP A oth) e) (h : applyTimestep e k b = .ok e') : AllSubs (OutP B oth) e' := by
  refine copyWith_out (A := A) (h := stepHooks k b) (fun _ => rfl) (fun _ => rfl) (fun _ _ => rfl) rfl ?_ ?_ e hi e' h
  all_goals
    intro c n ti si e hA he
    simp only [stepHooks, bind_ok_iff, Except.ok.injEq] at he
    obtain ⟨ti', ht, rfl⟩ := he
    exact ⟨_, _, rfl, hAB _ _ _ hA ht⟩

theorem applyScenario_out {A B : TIdx → SIdx → Prop} {oth : Prop} {e e' : Expr} {k : Int}
    (hAB : ∀ ti si, A ti si → B ti (si.applyScenario k))
    (hi : AllSubs (OutP A oth) e) (h : applyScenario e k = .ok e') : AllSubs (OutP B oth) e' := by
  refine copyWith_out (A := A) (h := scenarioHooks k) (fun _ => rfl) (fun _ => rfl) (fun _ _ => rfl) rfl ?_ ?_ e hi e' h
  all_goals
    intro c n ti si e hA he
    cases he
    exact ⟨_, _, rfl, hAB _ _ hA⟩

theorem expand_out {x : ExpandCtx} {A : TIdx → SIdx → Prop} {oth : Prop}
    (h0v : ∀ c n i, x.structs.cvar c n = .ok i → A (timeIndexOf i) (scenIndexOf i))
    (h0p : ∀ c n i, x.structs.cpar c n = .ok i → A (timeIndexOf i) (scenIndexOf i)) (e : Expr) :
    (∀ y ∈ e.subs, isModelLevel y = true → oth) →
    (∀ y ∈ e.subs, isShiftOp y = true → ShiftClosed A) →
    (∀ y ∈ e.subs, y.isTimeFixing = true → StepClosed A) →
    (∀ y ∈ e.subs, y.isScen = true → ScenClosed A) →
    ∀ e', expand x e = .ok e' → AllSubs (OutP A oth) e' := by
  induction e using Expr.ind with
  | lit v => intro _ _ _ _ e' h'; exact allSubs_leaf h' rfl trivial
  | var n => intro ho _ _ _ e' h'; exact allSubs_leaf h' rfl (ho _ (mem_subs_self _) rfl)
  | par n => intro ho _ _ _ e' h'; exact allSubs_leaf h' rfl (ho _ (mem_subs_self _) rfl)
  | portField p f => intro ho _ _ _ e' h'; exact allSubs_leaf h' rfl (ho _ (mem_subs_self _) rfl)
  | cvar c n =>
    intro _ _ _ _ e' h'
    simp only [expand, bind_ok_iff] at h'
    obtain ⟨i, hi, h'⟩ := h'
    exact allSubs_leaf h' rfl (h0v c n i hi)
  | cpar c n =>
    intro _ _ _ _ e' h'
    simp only [expand, bind_ok_iff] at h'
    obtain ⟨i, hi, h'⟩ := h'
    exact allSubs_leaf h' rfl (h0p c n i hi)
  | pvar c n ti si => intro _ _ _ _ e' h'; simp [expand] at h'
  | ppar c n ti si => intro _ _ _ _ e' h'; simp [expand] at h'
  | neg e ih =>
    intro h1 h2 h3 h4 e' h'
    simp only [expand, bind_ok_iff, Except.ok.injEq] at h'
    obtain ⟨a, ha, rfl⟩ := h'
    have hs : ∀ y ∈ e.subs, y ∈ (neg e).subs := by simp +contextual [subs]
    intro z hz
    rcases List.mem_cons.1 hz with rfl | hz
    · trivial
    · exact ih (fun y hy => h1 y (hs y hy)) (fun y hy => h2 y (hs y hy)) (fun y hy => h3 y (hs y hy))
        (fun y hy => h4 y (hs y hy)) a ha z hz
  | add es ih =>
    intro h1 h2 h3 h4 e' h'
    rw [expand_add, bind_ok_iff] at h'
    obtain ⟨es', hes, hf⟩ := h'
    refine allSubs_foldAdd (fun _ => trivial) hf fun o ho => ?_
    obtain ⟨x, hx, hxo⟩ := forall₂_mem_right (appendAll_ok_iff.1 hes) ho
    have hs : ∀ y ∈ x.subs, y ∈ (add es).subs := fun y hy => mem_subs_add.2 (.inr ⟨x, hx, hy⟩)
    exact ih x hx (fun y hy => h1 y (hs y hy)) (fun y hy => h2 y (hs y hy)) (fun y hy => h3 y (hs y hy))
        (fun y hy => h4 y (hs y hy)) o hxo
  | mul l r ihl ihr =>
    intro h1 h2 h3 h4 e' h'
    simp only [expand, bind_ok_iff, Except.ok.injEq] at h'
    obtain ⟨a, ha, b, hb, rfl⟩ := h'
    have hl : ∀ y ∈ l.subs, y ∈ (mul l r).subs := by simp +contextual [subs]
    have hr : ∀ y ∈ r.subs, y ∈ (mul l r).subs := by simp +contextual [subs]
    intro z hz
    simp only [mulOp, subs, List.mem_cons, List.mem_append] at hz
    rcases hz with rfl | hz | hz
    · trivial
    · exact ihl (fun y hy => h1 y (hl y hy)) (fun y hy => h2 y (hl y hy)) (fun y hy => h3 y (hl y hy))
        (fun y hy => h4 y (hl y hy)) a ha z hz
    · exact ihr (fun y hy => h1 y (hr y hy)) (fun y hy => h2 y (hr y hy)) (fun y hy => h3 y (hr y hy))
        (fun y hy => h4 y (hr y hy)) b hb z hz
  | div l r ihl ihr =>
    intro h1 h2 h3 h4 e' h'
    simp only [expand, bind_ok_iff, Except.ok.injEq] at h'
    obtain ⟨a, ha, b, hb, rfl⟩ := h'
    have hl : ∀ y ∈ l.subs, y ∈ (div l r).subs := by simp +contextual [subs]
    have hr : ∀ y ∈ r.subs, y ∈ (div l r).subs := by simp +contextual [subs]
    intro z hz
    simp only [divOp, subs, List.mem_cons, List.mem_append] at hz
    rcases hz with rfl | hz | hz
    · trivial
    · exact ihl (fun y hy => h1 y (hl y hy)) (fun y hy => h2 y (hl y hy)) (fun y hy => h3 y (hl y hy))
        (fun y hy => h4 y (hl y hy)) a ha z hz
    · exact ihr (fun y hy => h1 y (hr y hy)) (fun y hy => h2 y (hr y hy)) (fun y hy => h3 y (hr y hy))
        (fun y hy => h4 y (hr y hy)) b hb z hz
  | cmp l r c ihl ihr =>
    intro h1 h2 h3 h4 e' h'
    simp only [expand, bind_ok_iff, Except.ok.injEq] at h'
    obtain ⟨a, ha, b, hb, rfl⟩ := h'
    have hl : ∀ y ∈ l.subs, y ∈ (Expr.cmp l r c).subs := by simp +contextual [subs]
    have hr : ∀ y ∈ r.subs, y ∈ (Expr.cmp l r c).subs := by simp +contextual [subs]
    intro z hz
    simp only [subs, List.mem_cons, List.mem_append] at hz
    rcases hz with rfl | hz | hz
    · exact h1 _ (mem_subs_self _) rfl
    · exact ihl (fun y hy => h1 y (hl y hy)) (fun y hy => h2 y (hl y hy)) (fun y hy => h3 y (hl y hy))
        (fun y hy => h4 y (hl y hy)) a ha z hz
    · exact ihr (fun y hy => h1 y (hr y hy)) (fun y hy => h2 y (hr y hy)) (fun y hy => h3 y (hr y hy))
        (fun y hy => h4 y (hr y hy)) b hb z hz
  | shift e k ihe _ =>
    intro h1 h2 h3 h4 e' h'
    simp only [expand, bind_ok_iff] at h'
    obtain ⟨n, hn, a, ha, hs⟩ := h'
    have hl : ∀ y ∈ e.subs, y ∈ (shift e k).subs := by simp +contextual [subs]
    refine applyTimeshift_out (A := A) ?_ ?_ hs
    · intro ti si hA; exact h2 _ (mem_subs_self _) rfl ti si n hA
    · exact ihe (fun y hy => h1 y (hl y hy)) (fun y hy => h2 y (hl y hy)) (fun y hy => h3 y (hl y hy))
        (fun y hy => h4 y (hl y hy)) a ha
  | evalT e k ihe _ =>
    intro h1 h2 h3 h4 e' h'
    simp only [expand, bind_ok_iff] at h'
    obtain ⟨n, hn, a, ha, hs⟩ := h'
    have hl : ∀ y ∈ e.subs, y ∈ (evalT e k).subs := by simp +contextual [subs]
    refine applyTimestep_out (A := A) ?_ ?_ hs
    · intro ti si ti' hA ht; exact h3 _ (mem_subs_self _) rfl ti si n _ ti' hA ht
    · exact ihe (fun y hy => h1 y (hl y hy)) (fun y hy => h2 y (hl y hy)) (fun y hy => h3 y (hl y hy))
        (fun y hy => h4 y (hl y hy)) a ha
  | tsum e m n ihe _ _ =>
    intro h1 h2 h3 h4 e' h'
    simp only [expand, bind_ok_iff, Except.ok.injEq] at h'
    obtain ⟨p, hp, q, hq, a, ha, nodes, hnodes, rfl⟩ := h'
    have hl : ∀ y ∈ e.subs, y ∈ (tsum e m n).subs := by simp +contextual [subs]
    refine allSubs_sumExpressions (fun _ => trivial) trivial fun o ho => ?_
    obtain ⟨k, _, hk⟩ := forall₂_mem_right (appendAll_ok_iff.1 hnodes) ho
    refine applyTimeshift_out (A := A) ?_ ?_ hk
    · intro ti si hA; exact h2 _ (mem_subs_self _) rfl ti si k hA
    · exact ihe (fun y hy => h1 y (hl y hy)) (fun y hy => h2 y (hl y hy)) (fun y hy => h3 y (hl y hy))
        (fun y hy => h4 y (hl y hy)) a ha
  | allsum e ihe =>
    intro h1 h2 h3 h4 e' h'
    simp only [expand, bind_ok_iff, Except.ok.injEq] at h'
    obtain ⟨a, ha, nodes, hnodes, rfl⟩ := h'
    have hl : ∀ y ∈ e.subs, y ∈ (allsum e).subs := by simp +contextual [subs]
    refine allSubs_sumExpressions (fun _ => trivial) trivial fun o ho => ?_
    obtain ⟨k, _, hk⟩ := forall₂_mem_right (appendAll_ok_iff.1 hnodes) ho
    refine applyTimestep_out (A := A) ?_ ?_ hk
    · intro ti si ti' hA ht; exact h3 _ (mem_subs_self _) rfl ti si k _ ti' hA ht
    · exact ihe (fun y hy => h1 y (hl y hy)) (fun y hy => h2 y (hl y hy)) (fun y hy => h3 y (hl y hy))
        (fun y hy => h4 y (hl y hy)) a ha
  | scen e o ihe =>
    intro h1 h2 h3 h4 e' h'
    simp only [expand] at h'
    split at h'
    · simp at h'
    simp only [bind_ok_iff, Except.ok.injEq] at h'
    obtain ⟨a, ha, nodes, hnodes, rfl⟩ := h'
    have hl : ∀ y ∈ e.subs, y ∈ (scen e o).subs := by simp +contextual [subs]
    intro z hz
    simp only [divOp, wrapNum, subs, List.mem_cons, List.mem_append] at hz
    rcases hz with rfl | hz | hz
    · trivial
    · revert z
      refine allSubs_sumExpressions (P := OutP A oth) (fun _ => trivial) trivial fun o ho => ?_
      obtain ⟨k, _, hk⟩ := forall₂_mem_right (appendAll_ok_iff.1 hnodes) ho
      refine applyScenario_out (A := A) ?_ ?_ hk
      · intro ti si hA; exact h4 _ (mem_subs_self _) rfl ti si k hA
      · exact ihe (fun y hy => h1 y (hl y hy)) (fun y hy => h2 y (hl y hy)) (fun y hy => h3 y (hl y hy))
          (fun y hy => h4 y (hl y hy)) a ha
    · simp at hz; subst hz; trivial
  | agg e o ih =>
    intro h1 h2 h3 h4 e' h'
    simp only [expand, bind_ok_iff, Except.ok.injEq] at h'
    obtain ⟨a, ha, rfl⟩ := h'
    have hs : ∀ y ∈ e.subs, y ∈ (agg e o).subs := by simp +contextual [subs]
    intro z hz
    rcases List.mem_cons.1 hz with rfl | hz
    · exact h1 _ (mem_subs_self _) rfl
    · exact ih (fun y hy => h1 y (hs y hy)) (fun y hy => h2 y (hs y hy)) (fun y hy => h3 y (hs y hy))
        (fun y hy => h4 y (hs y hy)) a ha z hz

/-! ### Meaning -/

theorem denSum_eq (D : DenCtx) (es : List Expr) (t s : Int) :
    denSum D es t s = (es.map fun e => den D e t s).sum := by
  induction es with
  | nil => simp [denSum]
  | cons e es ih => simp [denSum, ih]

theorem den_add (D : DenCtx) (es : List Expr) (t s : Int) :
    den D (add es) t s = (es.map fun e => den D e t s).sum := by
  rw [den, denSum_eq]

theorem den_operands (D : DenCtx) (e : Expr) (t s : Int) :
    den D e t s = (e.operands.map fun e => den D e t s).sum := by
  cases e
  case add es => rw [den_add]; rfl
  all_goals simp [operands]

theorem den_addOp (D : DenCtx) (a b : Expr) (t s : Int) :
    den D (a.addOp b) t s = den D a t s + den D b t s := by
  rw [den_operands D a, den_operands D b, addOp, den_add]
  simp

theorem den_foldAdd (D : DenCtx) {es : List Expr} {e : Expr} (h : foldAdd addOp es = .ok e) (t s : Int) :
    den D e t s = (es.map fun e => den D e t s).sum := by
  cases es with
  | nil => simp [foldAdd] at h
  | cons o os =>
    simp only [foldAdd, Except.ok.injEq] at h
    subst h
    induction os generalizing o with
    | nil => simp
    | cons a os ih => rw [List.foldl_cons, ih, List.map_cons, List.sum_cons, den_addOp]; simp [add_assoc]

theorem den_sumExpressions (D : DenCtx) (es : List Expr) (t s : Int) :
    den D (sumExpressions es) t s = (es.map fun e => den D e t s).sum := by
  match es with
  | [] => simp only [sumExpressions, List.map_nil, List.sum_nil]; rfl
  | [e] => simp [sumExpressions]
  | a :: b :: os => simp only [sumExpressions]; rw [den_add]

/-- A copy whose leaf hooks move the reading point moves the reading point of the whole expression. -/
theorem copyWith_den {h : Hooks} {A : TIdx → SIdx → Prop} {oth : Prop} (D : DenCtx) (t s t' s' : Int)
    (hvar : ∀ n, h.var n = .ok (.var n)) (hpar : ∀ n, h.par n = .ok (.par n))
    (hport : ∀ p f, h.portField p f = .ok (.portField p f)) (hagg : h.agg = none)
    (hpv : ∀ c n ti si e, A ti si → h.pvar c n ti si = .ok e → den D e t s = den D (.pvar c n ti si) t' s')
    (hpp : ∀ c n ti si e, A ti si → h.ppar c n ti si = .ok e → den D e t s = den D (.ppar c n ti si) t' s')
    (e : Expr) : AllSubs (OutP A oth) e → ∀ e', copyWith h e = .ok e' → den D e' t s = den D e t' s' := by
  have sub : ∀ {e x : Expr}, AllSubs (OutP A oth) e → (∀ y ∈ x.subs, y ∈ e.subs) → AllSubs (OutP A oth) x :=
    fun h1 h2 y hy => h1 y (h2 y hy)
  induction e using Expr.ind with
  | lit v => intro hi e' h'; cases h'; cases v <;> simp [den]
  | var n => intro hi e' h'; simp only [copyWith, hvar] at h'; cases h'; simp [den]
  | par n => intro hi e' h'; simp only [copyWith, hpar] at h'; cases h'; simp [den]
  | portField p f => intro hi e' h'; simp only [copyWith, hport] at h'; cases h'; simp [den]
  | cvar c n => intro hi; exact absurd (hi _ (mem_subs_self _)) (by simp [OutP])
  | cpar c n => intro hi; exact absurd (hi _ (mem_subs_self _)) (by simp [OutP])
  | pvar c n ti si => intro hi e' h'; exact hpv c n ti si e' (hi _ (mem_subs_self _)) h'
  | ppar c n ti si => intro hi e' h'; exact hpp c n ti si e' (hi _ (mem_subs_self _)) h'
  | neg e ih =>
    intro hi e' h'
    simp only [copyWith, bind_ok_iff, Except.ok.injEq] at h'
    obtain ⟨a, ha, rfl⟩ := h'
    simp only [negOp, den, ih (sub hi (by simp +contextual [subs])) a ha]
  | add es ih =>
    intro hi e' h'
    rw [copyWith_add, bind_ok_iff] at h'
    obtain ⟨es', hes, hf⟩ := h'
    rw [den_foldAdd D hf, den_add]
    have h2 := forall₂_and_mem (appendAll_ok_iff.1 hes) (S := fun x y => den D y t s = den D x t' s')
      (fun x hx y hr => ih x hx (sub hi fun y hy => mem_subs_add.2 (.inr ⟨x, hx, hy⟩)) y hr)
    clear hes hf ih hi
    induction h2 with
    | nil => rfl
    | cons h1 _ ih => simp [h1, ih]
  | mul l r ihl ihr =>
    intro hi e' h'
    simp only [copyWith, bind_ok_iff, Except.ok.injEq] at h'
    obtain ⟨a, ha, b, hb, rfl⟩ := h'
    simp only [mulOp, den, ihl (sub hi (by simp +contextual [subs])) a ha,
      ihr (sub hi (by simp +contextual [subs])) b hb]
  | div l r ihl ihr =>
    intro hi e' h'
    simp only [copyWith, bind_ok_iff, Except.ok.injEq] at h'
    obtain ⟨a, ha, b, hb, rfl⟩ := h'
    simp only [divOp, den, ihl (sub hi (by simp +contextual [subs])) a ha,
      ihr (sub hi (by simp +contextual [subs])) b hb]
  | cmp l r c ihl ihr =>
    intro hi e' h'
    simp only [copyWith, bind_ok_iff, Except.ok.injEq] at h'
    obtain ⟨a, ha, b, hb, rfl⟩ := h'
    simp [den]
  | agg e o ih =>
    intro hi e' h'
    simp only [copyWith, hagg, bind_ok_iff, Except.ok.injEq] at h'
    obtain ⟨a, ha, rfl⟩ := h'
    simp [den]
  | _ => intro hi; exact absurd (hi _ (mem_subs_self _)) (by simp [OutP])

/-- no fixed timestep among the indices -/
def NoStep (ti : TIdx) (_ : SIdx) : Prop := ∀ u, ti ≠ .step u
/-- no fixed scenario among the indices -/
def NoOne (_ : TIdx) (si : SIdx) : Prop := ∀ w, si ≠ .one w

theorem applyTimeshift_den {oth : Prop} (D : DenCtx) {e e' : Expr} {k : Int} (t s : Int)
    (hi : AllSubs (OutP NoStep oth) e) (h : applyTimeshift e k = .ok e') :
    den D e' t s = den D e (t + k) s := by
  refine copyWith_den (A := NoStep) (oth := oth) (h := shiftHooks k) D t s (t + k) s (fun _ => rfl) (fun _ => rfl)
    (fun _ _ => rfl) rfl ?_ ?_ e hi e' h
  all_goals
    intro c n ti si e hA he
    cases he
    cases ti with
    | none => rfl
    | shift j => simp only [den, TIdx.applyShift, TIdx.at]; congr 2; ring
    | step u => exact absurd rfl (hA u)

theorem applyTimestep_den {A} {oth : Prop} (D : DenCtx) {e e' : Expr} {k : Int} {b : Bool} (t s : Int)
    (hi : AllSubs (OutP A oth) e) (h : applyTimestep e k b = .ok e') :
    den D e' t s = den D e k s := by
  refine copyWith_den (A := A) (oth := oth) (h := stepHooks k b) D t s k s (fun _ => rfl) (fun _ => rfl)
    (fun _ _ => rfl) rfl ?_ ?_ e hi e' h
  all_goals
    intro c n ti si e hA he
    simp only [stepHooks, bind_ok_iff, Except.ok.injEq] at he
    obtain ⟨ti', ht, rfl⟩ := he
    cases ti with
    | none => cases ht; rfl
    | shift j => cases ht; simp only [den, TIdx.at]; congr 2; ring
    | step u =>
      cases b
      · simp [TIdx.applyStep] at ht
      · simp [TIdx.applyStep] at ht; subst ht; rfl

theorem applyScenario_den {oth : Prop} (D : DenCtx) {e e' : Expr} {k : Int} (t s : Int)
    (hi : AllSubs (OutP NoOne oth) e) (h : applyScenario e k = .ok e') :
    den D e' t s = den D e t k := by
  refine copyWith_den (A := NoOne) (oth := oth) (h := scenarioHooks k) D t s t k (fun _ => rfl) (fun _ => rfl)
    (fun _ _ => rfl) rfl ?_ ?_ e hi e' h
  all_goals
    intro c n ti si e hA he
    cases he
    cases si with
    | none => rfl
    | current => rfl
    | one w => exact absurd rfl (hA w)

theorem sum_range_list (g : Nat → ℚ) (n : Nat) :
    ((List.range n).map g).sum = ∑ i ∈ Finset.range n, g i := by
  induction n with
  | zero => simp
  | succ n ih => rw [List.range_succ, Finset.sum_range_succ, List.map_append, List.sum_append, ih]; simp

theorem sum_pyRange (f : Int → ℚ) (a b : Int) :
    ((pyRange a (b + 1)).map f).sum = ∑ k ∈ Finset.Icc a b, f k := by
  have h : Finset.Icc a b = (Finset.range (b + 1 - a).toNat).image (fun i : Nat => a + (i : Int)) := by
    ext k
    simp only [Finset.mem_Icc, Finset.mem_image, Finset.mem_range]
    constructor
    · intro hk; exact ⟨(k - a).toNat, by omega, by omega⟩
    · rintro ⟨i, hi, rfl⟩; omega
  rw [h, Finset.sum_image (by intro i _ j _ hij; simpa using hij)]
  simp only [pyRange, List.map_map]
  exact sum_range_list _ _

/-! ### The expansion theorem -/

theorem wellNested_sub {e y : Expr} (h : WellNested e) (hs : ∀ z ∈ y.subs, z ∈ e.subs) : WellNested y :=
  ⟨fun x k hx => h.shift x k (hs _ hx), fun x a b hx => h.tsum x a b (hs _ hx), fun x o hx => h.scen x o (hs _ hx)⟩

theorem timeIndexOf_at (i : Idx) (t : Int) : (timeIndexOf i).at t = atT i t := by
  unfold timeIndexOf atT; split <;> simp [TIdx.at]

theorem scenIndexOf_at (i : Idx) (s : Int) : (scenIndexOf i).at s = atS i s := by
  unfold scenIndexOf atS; split <;> simp [SIdx.at]

theorem noStep_init (i : Idx) : NoStep (timeIndexOf i) (scenIndexOf i) := by
  intro u; unfold timeIndexOf; split <;> simp

theorem noOne_init (i : Idx) : NoOne (timeIndexOf i) (scenIndexOf i) := by
  intro u; unfold scenIndexOf; split <;> simp

theorem noStep_shiftClosed : ShiftClosed NoStep := by
  intro ti si k h u
  cases ti with
  | none => simp [TIdx.applyShift]
  | shift j => simp [TIdx.applyShift]
  | step v => exact absurd rfl (h v)

theorem noStep_scenClosed : ScenClosed NoStep := fun _ _ _ h => h
theorem noOne_shiftClosed : ShiftClosed NoOne := fun _ _ _ h => h
theorem noOne_stepClosed : StepClosed NoOne := fun _ _ _ _ _ h _ => h

/-- output of the expansion of an operand without time-fixing operator -/
theorem expand_noStep {x : ExpandCtx} {e e' : Expr} (h : ∀ y ∈ e.subs, y.isTimeFixing = false)
    (he : expand x e = .ok e') : AllSubs (OutP NoStep True) e' :=
  expand_out (fun _ _ i _ => noStep_init i) (fun _ _ i _ => noStep_init i) e (fun _ _ _ => trivial)
    (fun _ _ _ => noStep_shiftClosed) (fun y hy ht => absurd ht (by simp [h y hy]))
    (fun _ _ _ => noStep_scenClosed) e' he

theorem expand_noOne {x : ExpandCtx} {e e' : Expr} (h : ∀ y ∈ e.subs, y.isScen = false)
    (he : expand x e = .ok e') : AllSubs (OutP NoOne True) e' :=
  expand_out (fun _ _ i _ => noOne_init i) (fun _ _ i _ => noOne_init i) e (fun _ _ _ => trivial)
    (fun _ _ _ => noOne_shiftClosed) (fun _ _ _ => noOne_stepClosed)
    (fun y hy ht => absurd ht (by simp [h y hy])) e' he

theorem expand_any {x : ExpandCtx} {e e' : Expr} (he : expand x e = .ok e') :
    AllSubs (OutP (fun _ _ => True) True) e' :=
  expand_out (fun _ _ _ _ => trivial) (fun _ _ _ _ => trivial) e (fun _ _ _ => trivial)
    (fun _ _ _ _ _ _ _ => trivial) (fun _ _ _ _ _ _ _ _ _ _ => trivial) (fun _ _ _ _ _ _ _ => trivial) e' he

theorem sum_map_forall₂ {α β} {f : α → ℚ} {g : β → ℚ} {xs : List α} {ys : List β}
    (h : List.Forall₂ (fun x y => g y = f x) xs ys) : (ys.map g).sum = (xs.map f).sum := by
  induction h with
  | nil => rfl
  | cons h1 _ ih => simp [h1, ih]

theorem den_expand {x : ExpandCtx} {D : DenCtx} (hA : Agrees x D) (e : Expr) :
    WellNested e → ∀ e', expand x e = .ok e' → ∀ t s, den D e' t s = den D e t s := by
  induction e using Expr.ind with
  | lit v => intro _ e' h' t s; cases h'; rfl
  | var n => intro _ e' h' t s; cases h'; rfl
  | par n => intro _ e' h' t s; cases h'; rfl
  | portField p f => intro _ e' h' t s; cases h'; rfl
  | cvar c n =>
    intro _ e' h' t s
    simp only [expand, bind_ok_iff, Except.ok.injEq] at h'
    obtain ⟨i, hi, rfl⟩ := h'
    simp only [den, hA.vidx c n i hi, timeIndexOf_at, scenIndexOf_at]
  | cpar c n =>
    intro _ e' h' t s
    simp only [expand, bind_ok_iff, Except.ok.injEq] at h'
    obtain ⟨i, hi, rfl⟩ := h'
    simp only [den, hA.pidx c n i hi, timeIndexOf_at, scenIndexOf_at]
  | pvar c n ti si => intro _ e' h'; simp [expand] at h'
  | ppar c n ti si => intro _ e' h'; simp [expand] at h'
  | neg e ih =>
    intro hw e' h' t s
    simp only [expand, bind_ok_iff, Except.ok.injEq] at h'
    obtain ⟨a, ha, rfl⟩ := h'
    simp only [negOp, den, ih (wellNested_sub hw (by simp +contextual [subs])) a ha]
  | add es ih =>
    intro hw e' h' t s
    rw [expand_add, bind_ok_iff] at h'
    obtain ⟨es', hes, hf⟩ := h'
    rw [den_foldAdd D hf, den_add]
    exact sum_map_forall₂ (forall₂_and_mem (appendAll_ok_iff.1 hes)
      (fun x hx y hr => ih x hx (wellNested_sub hw fun y hy => mem_subs_add.2 (.inr ⟨x, hx, hy⟩)) y hr t s))
  | mul l r ihl ihr =>
    intro hw e' h' t s
    simp only [expand, bind_ok_iff, Except.ok.injEq] at h'
    obtain ⟨a, ha, b, hb, rfl⟩ := h'
    simp only [mulOp, den, ihl (wellNested_sub hw (by simp +contextual [subs])) a ha,
      ihr (wellNested_sub hw (by simp +contextual [subs])) b hb]
  | div l r ihl ihr =>
    intro hw e' h' t s
    simp only [expand, bind_ok_iff, Except.ok.injEq] at h'
    obtain ⟨a, ha, b, hb, rfl⟩ := h'
    simp only [divOp, den, ihl (wellNested_sub hw (by simp +contextual [subs])) a ha,
      ihr (wellNested_sub hw (by simp +contextual [subs])) b hb]
  | cmp l r c ihl ihr =>
    intro hw e' h' t s
    simp only [expand, bind_ok_iff, Except.ok.injEq] at h'
    obtain ⟨a, ha, b, hb, rfl⟩ := h'
    simp [den]
  | shift e k ihe _ =>
    intro hw e' h' t s
    simp only [expand, bind_ok_iff] at h'
    obtain ⟨n, hn, a, ha, hs⟩ := h'
    have h1 := expand_noStep (hw.shift e k (mem_subs_self _)) ha
    rw [applyTimeshift_den D t s h1 hs, ihe (wellNested_sub hw (by simp +contextual [subs])) a ha, den,
      hA.amt k n hn]
  | evalT e k ihe _ =>
    intro hw e' h' t s
    simp only [expand, bind_ok_iff] at h'
    obtain ⟨n, hn, a, ha, hs⟩ := h'
    rw [applyTimestep_den D t s (expand_any ha) hs, ihe (wellNested_sub hw (by simp +contextual [subs])) a ha, den,
      hA.amt k n hn]
  | tsum e m n ihe _ _ =>
    intro hw e' h' t s
    simp only [expand, bind_ok_iff, Except.ok.injEq] at h'
    obtain ⟨p, hp, q, hq, a, ha, nodes, hnodes, rfl⟩ := h'
    have h1 := expand_noStep (hw.tsum e m n (mem_subs_self _)) ha
    have hwe : WellNested e := wellNested_sub hw (by simp +contextual [subs])
    rw [den_sumExpressions, den, hA.amt m p hp, hA.amt n q hq, ← sum_pyRange]
    refine sum_map_forall₂ (forall₂_and_mem (appendAll_ok_iff.1 hnodes) fun k _ y hy => ?_)
    rw [applyTimeshift_den D t s h1 hy, ihe hwe a ha]
  | allsum e ihe =>
    intro hw e' h' t s
    simp only [expand, bind_ok_iff, Except.ok.injEq] at h'
    obtain ⟨a, ha, nodes, hnodes, rfl⟩ := h'
    have hwe : WellNested e := wellNested_sub hw (by simp +contextual [subs])
    rw [den_sumExpressions, den, hA.T, ← sum_range_list]
    have : (pyRange 0 x.timesteps) = (List.range x.timesteps).map (fun i : Nat => (i : Int)) := by
      simp [pyRange]
    rw [this] at hnodes
    rw [appendAll_map] at hnodes
    refine sum_map_forall₂ (forall₂_and_mem (appendAll_ok_iff.1 hnodes) fun k _ y hy => ?_)
    rw [applyTimestep_den D t s (expand_any ha) hy, ihe hwe a ha]
  | scen e o ihe =>
    intro hw e' h' t s
    simp only [expand] at h'
    split at h'
    · simp at h'
    simp only [bind_ok_iff, Except.ok.injEq] at h'
    obtain ⟨a, ha, nodes, hnodes, rfl⟩ := h'
    have hwe : WellNested e := wellNested_sub hw (by simp +contextual [subs])
    have h1 := expand_noOne (hw.scen e o (mem_subs_self _)) ha
    rw [divOp, wrapNum, den, den_sumExpressions, den, den, hA.S, ← sum_range_list]
    have : (pyRange 0 x.scenarios) = (List.range x.scenarios).map (fun i : Nat => (i : Int)) := by
      simp [pyRange]
    rw [this] at hnodes
    rw [appendAll_map] at hnodes
    rw [sum_map_forall₂ (f := fun w : Nat => den D e t w) (forall₂_and_mem (appendAll_ok_iff.1 hnodes) fun k _ y hy => ?_)]
    rw [applyScenario_den D t s h1 hy, ihe hwe a ha]
  | agg e o ih =>
    intro hw e' h' t s
    simp only [expand, bind_ok_iff, Except.ok.injEq] at h'
    obtain ⟨a, ha, rfl⟩ := h'
    simp [den]

end Verif
