import Verif.Model.LinHeap
import Verif.Props.LinearExpressions

/-!
# C14: operators on linear expressions and their operands

Objects and dictionaries are those of `Model/LinHeap.lean`; `h.val r` is the linear expression held by object `r`.
-/

namespace Verif.Props
open Verif LinExpr

/-- every object refers to an existing dictionary that no other object refers to -/
structure Separated (h : LHeap) : Prop where
  wf : ∀ r, r < h.nobj → (h.obj r).1 < h.ndict
  sep : ∀ r r', r < h.nobj → r' < h.nobj → (h.obj r).1 = (h.obj r').1 → r = r'

/-- The only operation whose safety depends on the values: a product whose left operand is constant and not within
`1e-16` of 0 (Python then works on the right operand itself). -/
def LOp.Safe (h : LHeap) : LOp → Prop
  | .mul a _ => (∃ k, dropSmall ((h.val a).coef k) ≠ 0) ∨ (h.val a).constant.Small
  | .imul a _ => (h.val a).terms ≠ [] ∨ (h.val a).constant.Small
  | _ => True

/-- what a safe operation does: old objects other than its target keep their value, separation is kept -/
structure Frame (h h' : LHeap) (tgt : Option Nat) : Prop where
  sep : Separated h'
  le : h.nobj ≤ h'.nobj
  val : ∀ r, r < h.nobj → some r ≠ tgt → h'.val r = h.val r

theorem alloc_frame {h : LHeap} (hs : Separated h) (e : LinExpr) :
    Frame h (h.alloc e).1 none ∧ (h.alloc e).2 = h.nobj ∧ (h.alloc e).1.val h.nobj = e ∧
      (h.alloc e).1.nobj = h.nobj + 1 := by
  refine ⟨⟨⟨?_, ?_⟩, Nat.le_succ _, ?_⟩, rfl, ?_, rfl⟩
  · intro r hr
    simp only [LHeap.alloc] at hr ⊢
    by_cases h1 : r = h.nobj
    · subst h1; simp
    · rw [Function.update_of_ne h1]
      have := hs.wf r (by omega)
      omega
  · intro r r' hr hr' he
    simp only [LHeap.alloc] at hr hr' he
    by_cases h1 : r = h.nobj <;> by_cases h2 : r' = h.nobj
    · rw [h1, h2]
    · subst h1
      rw [Function.update_self, Function.update_of_ne h2] at he
      have := hs.wf r' (by omega)
      omega
    · subst h2
      rw [Function.update_self, Function.update_of_ne h1] at he
      have := hs.wf r (by omega)
      omega
    · rw [Function.update_of_ne h1, Function.update_of_ne h2] at he
      exact hs.sep r r' (by omega) (by omega) he
  · intro r hr _
    have h1 : r ≠ h.nobj := by omega
    have h2 : (h.obj r).1 ≠ h.ndict := by have := hs.wf r hr; omega
    simp only [LHeap.alloc, LHeap.val, Function.update_of_ne h1, Function.update_of_ne h2]
  · simp [LHeap.alloc, LHeap.val]

theorem assign_frame {h : LHeap} (hs : Separated h) {a : Nat} (ha : a < h.nobj) (e : LinExpr) :
    Frame h (h.assign a e) (some a) ∧ (h.assign a e).val a = e ∧ (h.assign a e).nobj = h.nobj := by
  refine ⟨⟨⟨?_, ?_⟩, le_refl _, ?_⟩, ?_, rfl⟩
  · intro r hr
    simp only [LHeap.assign] at hr ⊢
    by_cases h1 : r = a
    · subst h1; simp
    · rw [Function.update_of_ne h1]
      have := hs.wf r hr
      omega
  · intro r r' hr hr' he
    simp only [LHeap.assign] at hr hr' he
    by_cases h1 : r = a <;> by_cases h2 : r' = a
    · rw [h1, h2]
    · subst h1
      rw [Function.update_self, Function.update_of_ne h2] at he
      have := hs.wf r' (by omega)
      omega
    · subst h2
      rw [Function.update_self, Function.update_of_ne h1] at he
      have := hs.wf r (by omega)
      omega
    · rw [Function.update_of_ne h1, Function.update_of_ne h2] at he
      exact hs.sep r r' (by omega) (by omega) he
  · intro r hr hne
    have h1 : r ≠ a := by rintro rfl; exact hne rfl
    have h2 : (h.obj r).1 ≠ h.ndict := by have := hs.wf r hr; omega
    simp only [LHeap.assign, LHeap.val, Function.update_of_ne h1, Function.update_of_ne h2]
  · simp [LHeap.assign, LHeap.val]

theorem mutate_frame {h : LHeap} (hs : Separated h) {a : Nat} (ha : a < h.nobj) (e : LinExpr) :
    Frame h (h.mutate a e) (some a) ∧ (h.mutate a e).val a = e ∧ (h.mutate a e).nobj = h.nobj := by
  have hfst : ∀ r, ((h.mutate a e).obj r).1 = (h.obj r).1 := by
    intro r
    simp only [LHeap.mutate]
    by_cases h1 : r = a
    · subst h1; simp
    · rw [Function.update_of_ne h1]
  refine ⟨⟨⟨?_, ?_⟩, le_refl _, ?_⟩, ?_, rfl⟩
  · intro r hr
    rw [hfst]; exact hs.wf r hr
  · intro r r' hr hr' he
    rw [hfst, hfst] at he
    exact hs.sep r r' hr hr' he
  · intro r hr hne
    have h1 : r ≠ a := by rintro rfl; exact hne rfl
    have h2 : (h.obj r).1 ≠ (h.obj a).1 := fun he => h1 (hs.sep r a hr ha he)
    simp only [LHeap.mutate, LHeap.val, Function.update_of_ne h1, Function.update_of_ne h2]
  · simp [LHeap.mutate, LHeap.val]

theorem copyExpr_self (h : LHeap) (a : Nat) : h.copyExpr a a = h := by
  unfold LHeap.copyExpr; rw [Function.update_eq_self]

/-- old objects are untouched by in-place operations on an object created afterwards -/
theorem Frame.trans_new {h h1 h2 : LHeap} {r : Nat} (f1 : Frame h h1 none) (f2 : Frame h1 h2 (some r))
    (hr : h.nobj ≤ r) : Frame h h2 none :=
  ⟨f2.sep, f1.le.trans f2.le, fun x hx _ => by
    rw [f2.val x (lt_of_lt_of_le hx f1.le) (by intro he; cases he; omega), f1.val x hx (by simp)]⟩

theorem Frame.trans_new' {h h1 h2 : LHeap} (f1 : Frame h h1 none) (f2 : Frame h1 h2 none) : Frame h h2 none :=
  ⟨f2.sep, f1.le.trans f2.le, fun x hx _ => by
    rw [f2.val x (lt_of_lt_of_le hx f1.le) (by simp), f1.val x hx (by simp)]⟩

theorem Frame.weaken {h h' : LHeap} (f : Frame h h' none) (t : Option Nat) : Frame h h' t :=
  ⟨f.sep, f.le, fun x hx _ => f.val x hx (by simp)⟩

theorem imul_frame {h : LHeap} (hs : Separated h) {a b : Nat} (ha : a < h.nobj)
    (hsafe : (h.val a).terms ≠ [] ∨ (h.val a).constant.Small) {h' : LHeap} {r : Nat}
    (hr : h.imul a b = .ok (h', r)) : Frame h h' (some a) ∧ (h.val a).imul (h.val b) = .ok (h'.val r) := by
  unfold LHeap.imul at hr
  split at hr
  · cases hr
  · next hne =>
    simp only at hr
    have hne' : (!(h.val a).terms.isEmpty && !(h.val b).terms.isEmpty) = false := by simpa using hne
    unfold LinExpr.imul
    rw [if_neg (by simpa using hne)]
    by_cases he : (h.val a).terms.isEmpty
    · have hsm : (h.val a).constant.Small := hsafe.resolve_left (by simpa using he)
      simp only [he, Bool.not_true, Bool.false_eq_true, if_false] at hr ⊢
      rw [if_pos ((isZero_iff _).2 hsm)] at hr ⊢
      cases hr
      obtain ⟨f1, f2, f3, _⟩ := alloc_frame hs LinExpr.empty
      exact ⟨f1.weaken _, (congrArg Except.ok f3).symm⟩
    · simp only [he, Bool.not_false, if_true] at hr ⊢
      split at hr
      · next hz =>
        cases hr
        obtain ⟨f1, f2, f3, _⟩ := alloc_frame hs LinExpr.empty
        rw [if_pos hz]
        exact ⟨f1.weaken _, (congrArg Except.ok f3).symm⟩
      · next hz =>
        rw [if_neg hz]
        split at hr
        · next ho =>
          rw [if_pos ho]
          rw [copyExpr_self] at hr
          cases hr
          exact ⟨⟨hs, le_refl _, fun _ _ _ => rfl⟩, rfl⟩
        · next ho =>
          rw [if_neg ho]
          rw [copyExpr_self] at hr
          cases hr
          obtain ⟨f1, f2, _⟩ := mutate_frame hs ha
            ⟨LinExpr.mapCoef (· * (h.val b).constant) (h.val a).terms, (h.val a).constant * (h.val b).constant⟩
          exact ⟨f1, by rw [f2]⟩

theorem itruediv_frame {h : LHeap} (hs : Separated h) {a b : Nat} (ha : a < h.nobj) {h' : LHeap} {r : Nat}
    (hr : h.itruediv a b = .ok (h', r)) : Frame h h' (some a) ∧ (h.val a).itruediv (h.val b) = .ok (h'.val r) := by
  unfold LHeap.itruediv at hr
  unfold LinExpr.itruediv
  split at hr
  · cases hr
  · next h1 =>
    rw [if_neg h1]
    split at hr
    · cases hr
    · next h2 =>
      rw [if_neg h2]
      split at hr
      · next h3 => cases hr; rw [if_pos h3]; exact ⟨⟨hs, le_refl _, fun _ _ _ => rfl⟩, rfl⟩
      · next h3 =>
        rw [if_neg h3]
        cases hr
        obtain ⟨f1, f2, _⟩ := mutate_frame hs ha
          ⟨LinExpr.mapCoef (LinExpr.numDiv · (h.val b).constant) (h.val a).terms,
            LinExpr.numDiv (h.val a).constant (h.val b).constant⟩
        exact ⟨f1, by rw [f2]⟩

/-- the first two lines of every binary operator: a fresh copy of the left operand -/
theorem copy_frame {h : LHeap} (hs : Separated h) {a : Nat} (ha : a < h.nobj) :
    let h1 := ((h.alloc LinExpr.empty).1.iadd h.nobj a)
    Frame h h1 none ∧ h1.val h.nobj = LinExpr.empty.iadd (h.val a) ∧ h1.nobj = h.nobj + 1 := by
  obtain ⟨f1, _, f3, f4⟩ := alloc_frame hs LinExpr.empty
  obtain ⟨g1, g2, g3⟩ := assign_frame (a := h.nobj) f1.sep (by rw [f4]; omega)
    (((h.alloc LinExpr.empty).1.val h.nobj).iadd ((h.alloc LinExpr.empty).1.val a))
  refine ⟨f1.trans_new g1 (le_refl _), ?_, by rw [← f4]; exact g3⟩
  refine g2.trans ?_
  rw [f3, f1.val a ha (by simp)]

/-- value computed by an operation, according to the value-level operators of C13 -/
def LOp.expected (h : LHeap) : LOp → R LinExpr
  | .new ts c => .ok (LinExpr.ofList ts c)
  | .add a b => .ok ((h.val a).add (h.val b))
  | .sub a b => .ok ((h.val a).sub (h.val b))
  | .neg a => .ok (h.val a).neg
  | .mul a b => (h.val a).mul (h.val b)
  | .truediv a b => (h.val a).truediv (h.val b)
  | .iadd a b => .ok ((h.val a).iadd (h.val b))
  | .isub a b => .ok ((h.val a).isub (h.val b))
  | .imul a b => (h.val a).imul (h.val b)
  | .itruediv a b => (h.val a).itruediv (h.val b)

/-- one safe step -/
theorem step_frame {h : LHeap} (hs : Separated h)
    (hc : ∀ r, r < h.nobj → (h.val r).Canonical) (op : LOp) (hrefs : ∀ r ∈ op.refs, r < h.nobj)
    (hsafe : LOp.Safe h op) {h' : LHeap} {r : Nat} (hr : op.run h = .ok (h', r)) :
    Frame h h' op.target ∧ LOp.expected h op = .ok (h'.val r) := by
  have bin : ∀ {a b : Nat}, a < h.nobj → b < h.nobj →
      let h1 := ((h.alloc LinExpr.empty).1.iadd h.nobj a)
      h1.val b = h.val b := by
    intro a b ha hb
    exact (copy_frame hs ha).1.val b hb (by simp)
  cases op with
  | new ts c =>
    cases hr
    obtain ⟨f1, f2, f3, _⟩ := alloc_frame hs (LinExpr.ofList ts c)
    exact ⟨f1, (congrArg Except.ok f3).symm⟩
  | iadd a b =>
    obtain ⟨f1, f2, _⟩ := assign_frame hs (hrefs a (by simp [LOp.refs])) ((h.val a).iadd (h.val b))
    simp only [LOp.run, Except.ok.injEq, Prod.mk.injEq] at hr
    obtain ⟨rfl, rfl⟩ := hr
    exact ⟨f1, by rw [LHeap.iadd, f2]; rfl⟩
  | isub a b =>
    obtain ⟨f1, f2, _⟩ := assign_frame hs (hrefs a (by simp [LOp.refs])) ((h.val a).isub (h.val b))
    simp only [LOp.run, Except.ok.injEq, Prod.mk.injEq] at hr
    obtain ⟨rfl, rfl⟩ := hr
    exact ⟨f1, by rw [LHeap.isub, f2]; rfl⟩
  | imul a b => exact imul_frame hs (hrefs a (by simp [LOp.refs])) hsafe hr
  | itruediv a b => exact itruediv_frame hs (hrefs a (by simp [LOp.refs])) hr
  | add a b =>
    have ha := hrefs a (by simp [LOp.refs])
    have hb := hrefs b (by simp [LOp.refs])
    cases hr
    obtain ⟨f1, f2, f3⟩ := copy_frame hs ha
    obtain ⟨g1, g2, _⟩ := assign_frame (a := h.nobj) f1.sep (by rw [f3]; omega)
      ((((h.alloc LinExpr.empty).1.iadd h.nobj a).val h.nobj).iadd (((h.alloc LinExpr.empty).1.iadd h.nobj a).val b))
    refine ⟨f1.trans_new g1 (le_refl _), ?_⟩
    refine Eq.trans ?_ (congrArg Except.ok g2).symm
    rw [f2, bin ha hb]; rfl
  | sub a b =>
    have ha := hrefs a (by simp [LOp.refs])
    have hb := hrefs b (by simp [LOp.refs])
    cases hr
    obtain ⟨f1, f2, f3⟩ := copy_frame hs ha
    obtain ⟨g1, g2, _⟩ := assign_frame (a := h.nobj) f1.sep (by rw [f3]; omega)
      ((((h.alloc LinExpr.empty).1.iadd h.nobj a).val h.nobj).isub (((h.alloc LinExpr.empty).1.iadd h.nobj a).val b))
    refine ⟨f1.trans_new g1 (le_refl _), ?_⟩
    refine Eq.trans ?_ (congrArg Except.ok g2).symm
    rw [f2, bin ha hb]; rfl
  | neg a =>
    have ha := hrefs a (by simp [LOp.refs])
    cases hr
    obtain ⟨f1, _, f3, f4⟩ := alloc_frame hs LinExpr.empty
    obtain ⟨g1, g2, _⟩ := assign_frame (a := h.nobj) f1.sep (by rw [f4]; omega)
      (((h.alloc LinExpr.empty).1.val h.nobj).isub ((h.alloc LinExpr.empty).1.val a))
    refine ⟨f1.trans_new g1 (le_refl _), ?_⟩
    refine Eq.trans ?_ (congrArg Except.ok g2).symm
    rw [f3, f1.val a ha (by simp)]; rfl
  | mul a b =>
    have ha := hrefs a (by simp [LOp.refs])
    have hb := hrefs b (by simp [LOp.refs])
    obtain ⟨f1, f2, f3⟩ := copy_frame hs ha
    have hca := hc a ha
    have hs' : (((h.alloc LinExpr.empty).1.iadd h.nobj a).val h.nobj).terms ≠ [] ∨
        (((h.alloc LinExpr.empty).1.iadd h.nobj a).val h.nobj).constant.Small := by
      rw [f2]
      rcases hsafe with ⟨k, hk⟩ | hsm
      · exact .inl fun he => hk ((copy_nil_iff hca).1 he k)
      · right; rw [(copy_spec hca).2.2.2]; exact hsm
    obtain ⟨g1, g2⟩ := imul_frame (a := h.nobj) f1.sep (by rw [f3]; omega) hs' hr
    refine ⟨f1.trans_new g1 (le_refl _), ?_⟩
    rw [← g2, f2, bin ha hb]; rfl
  | truediv a b =>
    have ha := hrefs a (by simp [LOp.refs])
    have hb := hrefs b (by simp [LOp.refs])
    obtain ⟨f1, f2, f3⟩ := copy_frame hs ha
    obtain ⟨g1, g2⟩ := itruediv_frame (a := h.nobj) f1.sep (by rw [f3]; omega) hr
    refine ⟨f1.trans_new g1 (le_refl _), ?_⟩
    rw [← g2, f2, bin ha hb]; rfl

/-- Run a sequence of operations.  Each operation must refer to existing objects and be safe; `Runs h ops h'` says that
all of them succeed. -/
inductive Runs : LHeap → List LOp → LHeap → Prop
  | nil (h) : Runs h [] h
  | cons {h h1 h2 : LHeap} {op : LOp} {ops : List LOp} {r : Nat} : (∀ r ∈ op.refs, r < h.nobj) → LOp.Safe h op →
      op.run h = .ok (h1, r) → Runs h1 ops h2 → Runs h (op :: ops) h2

/-- invariant of reachable heaps -/
structure HeapInv (h : LHeap) : Prop where
  sep : Separated h
  canon : ∀ r, r < h.nobj → (h.val r).Canonical

theorem inv_of_frame {h h' : LHeap} (hi : HeapInv h) {tgt : Option Nat} (f : Frame h h' tgt)
    (hn : ∀ r, r < h'.nobj → h.nobj ≤ r ∨ some r = tgt → (h'.val r).Canonical) : HeapInv h' := by
  refine ⟨f.sep, fun r hr => ?_⟩
  by_cases h1 : r < h.nobj
  · by_cases h2 : some r = tgt
    · exact hn r hr (.inr h2)
    · rw [f.val r h1 h2]; exact hi.canon r h1
  · exact hn r hr (.inl (not_lt.1 h1))

theorem inv_alloc {h : LHeap} (hi : HeapInv h) {e : LinExpr} (he : e.Canonical) : HeapInv (h.alloc e).1 := by
  obtain ⟨f1, _, f3, f4⟩ := alloc_frame hi.sep e
  refine inv_of_frame hi f1 fun r hr h1 => ?_
  rcases h1 with h1 | h1
  · have : r = h.nobj := by omega
    subst this; rw [f3]; exact he
  · cases h1

theorem inv_assign {h : LHeap} (hi : HeapInv h) {a : Nat} (ha : a < h.nobj) {e : LinExpr} (he : e.Canonical) :
    HeapInv (h.assign a e) := by
  obtain ⟨f1, f2, f3⟩ := assign_frame hi.sep ha e
  refine inv_of_frame hi f1 fun r hr h1 => ?_
  rcases h1 with h1 | h1
  · omega
  · cases h1; rw [f2]; exact he

theorem inv_imul {h : LHeap} (hi : HeapInv h) {a b : Nat} (ha : a < h.nobj) (hb : b < h.nobj)
    (hsafe : (h.val a).terms ≠ [] ∨ (h.val a).constant.Small) {h' : LHeap} {r : Nat}
    (hr : h.imul a b = .ok (h', r)) : HeapInv h' := by
  obtain ⟨f, hv⟩ := imul_frame hi.sep ha hsafe hr
  have hcan : (h'.val r).Canonical := imul_canonical (hi.canon a ha) (hi.canon b hb) hv
  have cases' : (r = a ∧ h'.nobj = h.nobj) ∨ h' = (h.alloc LinExpr.empty).1 := by
    unfold LHeap.imul at hr
    dsimp only at hr
    split_ifs at hr <;>
      first
      | (simp only [Except.ok.injEq, Prod.mk.injEq] at hr
         obtain ⟨rfl, rfl⟩ := hr
         exact .inl ⟨rfl, rfl⟩)
      | exact .inr (congrArg Prod.fst (Except.ok.inj hr)).symm
  rcases cases' with ⟨rfl, hn⟩ | rfl
  · refine inv_of_frame hi f fun x hx h1 => ?_
    rcases h1 with h1 | h1
    · omega
    · cases h1; exact hcan
  · exact inv_alloc hi canonical_empty

theorem inv_itruediv {h : LHeap} (hi : HeapInv h) {a b : Nat} (ha : a < h.nobj) {h' : LHeap} {r : Nat}
    (hr : h.itruediv a b = .ok (h', r)) : HeapInv h' := by
  obtain ⟨f, hv⟩ := itruediv_frame hi.sep ha hr
  have hcan : (h'.val r).Canonical := itruediv_canonical (hi.canon a ha) hv
  have cases' : r = a ∧ h'.nobj = h.nobj := by
    unfold LHeap.itruediv at hr
    split at hr
    · cases hr
    · split at hr
      · cases hr
      · split at hr
        · simp only [Except.ok.injEq, Prod.mk.injEq] at hr
          obtain ⟨rfl, rfl⟩ := hr
          exact ⟨rfl, rfl⟩
        · simp only [Except.ok.injEq, Prod.mk.injEq] at hr
          obtain ⟨rfl, rfl⟩ := hr
          exact ⟨rfl, rfl⟩
  obtain ⟨rfl, hn⟩ := cases'
  refine inv_of_frame hi f fun x hx h1 => ?_
  rcases h1 with h1 | h1
  · omega
  · cases h1; exact hcan

/-- a safe operation keeps the invariant -/
theorem step_inv {h : LHeap} (hi : HeapInv h) (op : LOp) (hrefs : ∀ r ∈ op.refs, r < h.nobj)
    (hsafe : LOp.Safe h op) {h' : LHeap} {r : Nat} (hr : op.run h = .ok (h', r)) : HeapInv h' := by
  have copy : ∀ {a : Nat}, a < h.nobj → HeapInv ((h.alloc LinExpr.empty).1.iadd h.nobj a) := by
    intro a ha
    have h1 := inv_alloc hi canonical_empty
    exact inv_assign h1 (a := h.nobj) (Nat.lt_succ_self _)
      (iadd_spec (h1.canon _ (Nat.lt_succ_self _)) (h1.canon a (Nat.lt_succ_of_lt ha))).1
  cases op with
  | new ts c => cases hr; exact inv_alloc hi (ofList_spec ts c).1
  | iadd a b =>
    have ha := hrefs a (by simp [LOp.refs])
    have hb := hrefs b (by simp [LOp.refs])
    simp only [LOp.run, Except.ok.injEq, Prod.mk.injEq] at hr
    obtain ⟨rfl, rfl⟩ := hr
    exact inv_assign hi ha (iadd_spec (hi.canon _ ha) (hi.canon _ hb)).1
  | isub a b =>
    have ha := hrefs a (by simp [LOp.refs])
    have hb := hrefs b (by simp [LOp.refs])
    simp only [LOp.run, Except.ok.injEq, Prod.mk.injEq] at hr
    obtain ⟨rfl, rfl⟩ := hr
    exact inv_assign hi ha (isub_spec (hi.canon _ ha) (hi.canon _ hb)).1
  | imul a b => exact inv_imul hi (hrefs a (by simp [LOp.refs])) (hrefs b (by simp [LOp.refs])) hsafe hr
  | itruediv a b => exact inv_itruediv hi (hrefs a (by simp [LOp.refs])) hr
  | add a b =>
    have ha := hrefs a (by simp [LOp.refs])
    have hb := hrefs b (by simp [LOp.refs])
    cases hr
    have h1 := copy ha
    exact inv_assign h1 (a := h.nobj) (Nat.lt_succ_self _)
      (iadd_spec (h1.canon _ (Nat.lt_succ_self _)) (h1.canon b (Nat.lt_succ_of_lt hb))).1
  | sub a b =>
    have ha := hrefs a (by simp [LOp.refs])
    have hb := hrefs b (by simp [LOp.refs])
    cases hr
    have h1 := copy ha
    exact inv_assign h1 (a := h.nobj) (Nat.lt_succ_self _)
      (isub_spec (h1.canon _ (Nat.lt_succ_self _)) (h1.canon b (Nat.lt_succ_of_lt hb))).1
  | neg a =>
    have ha := hrefs a (by simp [LOp.refs])
    cases hr
    have h1 := inv_alloc hi canonical_empty
    exact inv_assign h1 (a := h.nobj) (Nat.lt_succ_self _)
      (isub_spec (h1.canon _ (Nat.lt_succ_self _)) (h1.canon a (Nat.lt_succ_of_lt ha))).1
  | mul a b =>
    have ha := hrefs a (by simp [LOp.refs])
    have hb := hrefs b (by simp [LOp.refs])
    have hca := hi.canon a ha
    refine inv_imul (copy ha) (a := h.nobj) (b := b) (Nat.lt_succ_self _) (Nat.lt_succ_of_lt hb) ?_ hr
    rw [(copy_frame hi.sep ha).2.1]
    rcases hsafe with ⟨k, hk⟩ | hsm
    · exact .inl fun he => hk ((copy_nil_iff hca).1 he k)
    · right; rw [(copy_spec hca).2.2.2]; exact hsm
  | truediv a b =>
    have ha := hrefs a (by simp [LOp.refs])
    exact inv_itruediv (copy ha) (a := h.nobj) (Nat.lt_succ_self _) hr

theorem heapInv_init : HeapInv LHeap.init :=
  ⟨⟨fun r hr => (by cases hr), fun r r' hr => (by cases hr)⟩, fun r hr => (by cases hr)⟩

/-- the invariant holds in every heap reached from the empty one by safe operations -/
theorem heapInv_runs {h h' : LHeap} {ops : List LOp} (hr : Runs h ops h') (hi : HeapInv h) : HeapInv h' := by
  induction hr with
  | nil => exact hi
  | cons h1 h2 h3 _ ih => exact ih (step_inv hi _ h1 h2 h3)

/-- **C14 (partial)**, one operation: in any heap reached by safe operations, a safe operation returns an object with
the value given by C13 and leaves every object unchanged, except the one an in-place operator updates; in particular
`a + b`, `a - b`, `a / b` and `-a` leave `a` and `b` unchanged.  Partial: products with a constant left operand are
excluded by `LOp.Safe` (unless the constant is null); `c14_mul_changes_right_operand` and `c14_mul_shares_right_operand`
show that these do alter the right operand. -/
theorem c14_operation_partial (ops : List LOp) (h : LHeap) (hh : Runs LHeap.init ops h) (op : LOp)
    (hrefs : ∀ r ∈ op.refs, r < h.nobj) (hsafe : LOp.Safe h op) (h' : LHeap) (res : Nat)
    (hr : op.run h = .ok (h', res)) :
    LOp.expected h op = .ok (h'.val res) ∧ ∀ r, r < h.nobj → some r ≠ op.target → h'.val r = h.val r := by
  have hi := heapInv_runs hh heapInv_init
  obtain ⟨f, hv⟩ := step_frame hi.sep hi.canon op hrefs hsafe hr
  exact ⟨hv, f.val⟩

/-- **C14 (partial)**, later updates: whatever safe operations follow, including in-place updates of the results of
earlier operations, an object that is never itself the target of an in-place operator keeps its value. -/
theorem c14_later_updates_partial (ops ops' : List LOp) (h h' : LHeap) (hh : Runs LHeap.init ops h)
    (hr : Runs h ops' h') (r : Nat) (hlt : r < h.nobj) (hne : ∀ op ∈ ops', op.target ≠ some r) :
    h'.val r = h.val r := by
  have hi := heapInv_runs hh heapInv_init
  clear hh
  induction hr with
  | nil => rfl
  | cons h1 h2 h3 _ ih =>
    rename_i op _ _ _
    obtain ⟨f, _⟩ := step_frame hi.sep hi.canon _ h1 h2 h3
    rw [ih (lt_of_lt_of_le hlt f.le) (fun o ho => hne o (by simp [ho])) (step_inv hi _ h1 h2 h3)]
    exact f.val r hlt fun he => hne op (by simp) he.symm

theorem ok_of_toOption {α β : Type} {x : R α} {f : α → β} {v : β} (h : x.toOption.map f = some v) :
    ∃ a, x = .ok a ∧ f a = v := by
  cases x with
  | error => cases h
  | ok a => exact ⟨a, rfl, Option.some.inj h⟩

/-- two objects: a constant `a` and `b = 3 x + 1` -/
def heapAB (a : Num) : LHeap :=
  ((LHeap.init.alloc (LinExpr.ofList [] a)).1.alloc (LinExpr.ofList [⟨.fin 3, keyX⟩] 1)).1

/-- **C14** is violated by products: with `a = 2`, computing `a * b` doubles `b` itself. -/
theorem c14_mul_changes_right_operand :
    ∃ h' r, (LOp.mul 0 1).run (heapAB (.fin 2)) = .ok (h', r) ∧
      (heapAB (.fin 2)).val 1 = ⟨[(keyX, ⟨.fin 3, keyX⟩)], .fin 1⟩ ∧
      h'.val 1 = ⟨[(keyX, ⟨.fin 6, keyX⟩)], .fin 2⟩ :=
  have e := ok_of_toOption (x := (LOp.mul 0 1).run (heapAB (.fin 2))) (f := fun p => p.1.val 1)
    (v := ⟨[(keyX, ⟨.fin 6, keyX⟩)], .fin 2⟩) (by decide +kernel)
  let ⟨(h', r), h1, h2⟩ := e
  ⟨h', r, h1, by decide +kernel, h2⟩

/-- **C14** is violated by products: with `a = 1`, the result of `a * b` shares its terms with `b`, so that a later
`result /= 2` alters `b` (its coefficient, not its constant). -/
theorem c14_mul_shares_right_operand :
    ∃ h1 res h2 h3 two r3, (LOp.mul 0 1).run (heapAB (.fin 1)) = .ok (h1, res) ∧
      (LOp.new [] (.fin 2)).run h1 = .ok (h2, two) ∧ (LOp.itruediv res two).run h2 = .ok (h3, r3) ∧
      h1.val 1 = ⟨[(keyX, ⟨.fin 3, keyX⟩)], .fin 1⟩ ∧
      h3.val 1 = ⟨[(keyX, ⟨.fin (3 / 2), keyX⟩)], .fin 1⟩ := by
  obtain ⟨⟨h3, r3⟩, hb, hv⟩ := ok_of_toOption
    (x := (LOp.mul 0 1).run (heapAB (.fin 1)) >>= fun p =>
      (LOp.new [] (.fin 2)).run p.1 >>= fun q => (LOp.itruediv p.2 q.2).run q.1)
    (f := fun p => p.1.val 1) (v := ⟨[(keyX, ⟨.fin (3 / 2), keyX⟩)], .fin 1⟩) (by decide +kernel)
  obtain ⟨⟨h1, res⟩, e1, v1⟩ := ok_of_toOption (x := (LOp.mul 0 1).run (heapAB (.fin 1)))
    (f := fun p => p.1.val 1) (v := ⟨[(keyX, ⟨.fin 3, keyX⟩)], .fin 1⟩) (by decide +kernel)
  simp only [bind_ok_iff] at hb
  obtain ⟨p, hp, ⟨h2, two⟩, hq, hr⟩ := hb
  rw [e1] at hp
  cases hp
  exact ⟨h1, res, h2, h3, two, r3, e1, hq, hr, v1, hv⟩

/-- safe histories exist: build `3 x + 1` and `2`, and multiply them in this order -/
example : ∃ h, Runs LHeap.init [.new [⟨.fin 3, keyX⟩] 1, .new [] (.fin 2), .mul 0 1] h ∧
    h.val 0 = ⟨[(keyX, ⟨.fin 3, keyX⟩)], .fin 1⟩ := by
  obtain ⟨⟨h3, r3⟩, hb, hv⟩ := ok_of_toOption
    (x := (LOp.mul 0 1).run (((LHeap.init.alloc (ofList [⟨.fin 3, keyX⟩] 1)).1.alloc (ofList [] (.fin 2))).1))
    (f := fun p => p.1.val 0) (v := ⟨[(keyX, ⟨.fin 3, keyX⟩)], .fin 1⟩) (by decide +kernel)
  exact ⟨h3, .cons (by simp [LOp.refs]) trivial rfl (.cons (by simp [LOp.refs]) trivial rfl
    (.cons (by simp [LOp.refs, LHeap.alloc, LHeap.init]) (.inl ⟨keyX, by decide +kernel⟩) hb (.nil _))), hv⟩

end Verif.Props
