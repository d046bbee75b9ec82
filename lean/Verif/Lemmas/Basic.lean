import Verif.Model.Linearize
import Mathlib.Data.List.Forall2

/-! Helper lemmas: loops that may raise, and the list versions of the visitors. -/

namespace Verif

theorem bind_ok_iff {α β} {m : R α} {f : α → R β} {b : β} :
    (m >>= f) = .ok b ↔ ∃ a, m = .ok a ∧ f a = .ok b := by
  cases m <;> simp [bind, Except.bind]

@[simp] theorem ok_bind {α β} (a : α) (f : α → R β) : ((.ok a : R α) >>= f) = f a := rfl
@[simp] theorem error_bind {α β} (e : Err) (f : α → R β) : ((.error e : R α) >>= f) = .error e := rfl

theorem bind_assoc' {α β γ} (m : R α) (f : α → R β) (g : β → R γ) :
    ((m >>= f) >>= g) = (m >>= fun a => f a >>= g) := by
  cases m <;> rfl

@[simp] theorem appendAll_nil {α β} (f : α → R β) : appendAll f [] = .ok [] := rfl
@[simp] theorem appendAll_cons {α β} (f : α → R β) (x : α) (xs : List α) :
    appendAll f (x :: xs) = (do let y ← f x; let ys ← appendAll f xs; .ok (y :: ys)) := rfl

theorem appendAll_ok_iff {α β} {f : α → R β} {xs : List α} {ys : List β} :
    appendAll f xs = .ok ys ↔ List.Forall₂ (fun x y => f x = .ok y) xs ys := by
  induction xs generalizing ys with
  | nil => simp only [appendAll_nil, Except.ok.injEq, List.forall₂_nil_left_iff]; exact eq_comm
  | cons x xs ih =>
    simp only [appendAll_cons, bind_ok_iff, Except.ok.injEq]
    constructor
    · rintro ⟨y, hy, ys', hys, rfl⟩
      exact .cons hy (ih.1 hys)
    · intro h
      cases h with
      | cons h1 h2 => exact ⟨_, h1, _, ih.2 h2, rfl⟩

theorem appendAll_append {α β} (f : α → R β) (xs ys : List α) :
    appendAll f (xs ++ ys) =
      (do let a ← appendAll f xs; let b ← appendAll f ys; .ok (a ++ b)) := by
  induction xs with
  | nil => simp; cases appendAll f ys <;> rfl
  | cons x xs ih =>
    simp only [List.cons_append, appendAll_cons, ih, bind_assoc', ok_bind]

theorem appendAll_congr {α β} {f g : α → R β} {xs : List α} (h : ∀ x ∈ xs, f x = g x) :
    appendAll f xs = appendAll g xs := by
  induction xs with
  | nil => rfl
  | cons x xs ih =>
    simp only [appendAll_cons, h x (by simp), ih (fun y hy => h y (by simp [hy]))]

theorem appendAll_map {α β γ} (f : β → R γ) (g : α → β) (xs : List α) :
    appendAll f (xs.map g) = appendAll (fun x => f (g x)) xs := by
  induction xs with
  | nil => rfl
  | cons x xs ih => simp only [List.map_cons, appendAll_cons, ih]

theorem appendAll_length {α β} {f : α → R β} {xs : List α} {ys : List β}
    (h : appendAll f xs = .ok ys) : ys.length = xs.length :=
  (appendAll_ok_iff.1 h).length_eq.symm

theorem appendAll_pure {α β} (f : α → β) (xs : List α) :
    appendAll (fun x => .ok (f x)) xs = .ok (xs.map f) := by
  induction xs with
  | nil => rfl
  | cons x xs ih => simp [ih]

theorem evaluateList_eq (p : ValueProvider) (es : List Expr) :
    evaluateList p es = appendAll (evaluate p) es := by
  induction es with
  | nil => rfl
  | cons e es ih => simp only [evaluateList, ih, appendAll_cons]

theorem computeDegreeList_eq (es : List Expr) :
    computeDegreeList es = appendAll computeDegree es := by
  induction es with
  | nil => rfl
  | cons e es ih => simp only [computeDegreeList, ih, appendAll_cons]

theorem copyWithList_eq (h : Hooks) (es : List Expr) :
    copyWithList h es = appendAll (copyWith h) es := by
  induction es with
  | nil => rfl
  | cons e es ih => simp only [copyWithList, ih, appendAll_cons]

theorem expandList_eq (x : ExpandCtx) (es : List Expr) :
    expandList x es = appendAll (expand x) es := by
  induction es with
  | nil => rfl
  | cons e es ih => simp only [expandList, ih, appendAll_cons]

theorem linDataList_eq (x : LinCtx) (es : List Expr) :
    linDataList x es = appendAll (linData x) es := by
  induction es with
  | nil => rfl
  | cons e es ih => simp only [linDataList, ih, appendAll_cons]

theorem evaluate_add (p : ValueProvider) (es : List Expr) :
    evaluate p (.add es) = (do let vs ← appendAll (evaluate p) es; foldAdd (· + ·) vs) := by
  simp only [evaluate, evaluateList_eq]

theorem computeDegree_add (es : List Expr) :
    computeDegree (.add es) = (do let ds ← appendAll computeDegree es; pyMax ds) := by
  simp only [computeDegree, computeDegreeList_eq]

theorem copyWith_add (h : Hooks) (es : List Expr) :
    copyWith h (.add es) = (do let es' ← appendAll (copyWith h) es; foldAdd Expr.addOp es') := by
  simp only [copyWith, copyWithList_eq]

theorem expand_add (x : ExpandCtx) (es : List Expr) :
    expand x (.add es) = (do let es' ← appendAll (expand x) es; foldAdd Expr.addOp es') := by
  simp only [expand, expandList_eq]

theorem linData_add (x : LinCtx) (es : List Expr) :
    linData x (.add es) = (do
      let ds ← appendAll (linData x) es
      .ok ⟨(ds.map LinData.terms).flatten, ds.foldl (fun c d => c + d.constant) 0⟩) := by
  simp only [linData, linDataList_eq]

/-- A left fold of `+` in a commutative monoid is the sum of the list. -/
theorem foldl_add_eq {M : Type} [AddCommMonoid M] (x : M) (xs : List M) :
    xs.foldl (· + ·) x = x + xs.sum := by
  induction xs generalizing x with
  | nil => simp
  | cons y ys ih => simp [ih, add_assoc]

@[simp] theorem operands_add (es : List Expr) : (Expr.add es).operands = es := rfl

/-- Flattened operands of a left fold of `addOp`. -/
theorem operands_foldl_addOp (o : Expr) (os : List Expr) :
    (os.foldl Expr.addOp o).operands = o.operands ++ (os.map Expr.operands).flatten := by
  induction os generalizing o with
  | nil => simp
  | cons a os ih =>
    rw [List.foldl_cons, ih]
    simp [Expr.addOp, operands_add]

end Verif
