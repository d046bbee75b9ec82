import Verif.Lemmas.Basic

/-! Helper lemmas on evaluation of sums and on copying. -/

namespace Verif

theorem foldAdd_sum {M : Type} [AddCommMonoid M] (vs : List M) (h : vs ≠ []) :
    foldAdd (· + ·) vs = .ok vs.sum := by
  cases vs with
  | nil => exact absurd rfl h
  | cons v vs => simp [foldAdd, foldl_add_eq]

theorem operands_ne_nil {e : Expr} (h : e ≠ .add []) : e.operands ≠ [] := by
  cases e <;> simp_all [Expr.operands]

/-- evaluating an expression is summing its flattened operands -/
theorem evaluate_operands (p : ValueProvider) {e : Expr} (h : e ≠ .add []) :
    evaluate p e = (do let vs ← appendAll (evaluate p) e.operands; .ok vs.sum) := by
  cases e
  case add es =>
    rw [evaluate_add, operands_add]
    cases hvs : appendAll (evaluate p) es with
    | error e => rfl
    | ok vs =>
      rw [ok_bind, ok_bind]
      apply foldAdd_sum
      rintro rfl
      have := appendAll_length hvs
      apply h
      simp at this
      simp [List.length_eq_zero_iff.1 this.symm]
  all_goals
    simp only [Expr.operands, appendAll_cons, appendAll_nil, bind_assoc', ok_bind]
    simp only [List.sum_cons, List.sum_nil, add_zero]
    generalize evaluate p _ = m
    cases m <;> rfl

theorem addOp_ne_nil {a b : Expr} (ha : a ≠ .add []) : a.addOp b ≠ .add [] := by
  intro h
  have := operands_ne_nil ha
  simp [Expr.addOp] at h
  exact this h.1

theorem evaluate_addOp (p : ValueProvider) {a b : Expr} (ha : a ≠ .add []) (hb : b ≠ .add []) :
    evaluate p (a.addOp b) = (do let x ← evaluate p a; let y ← evaluate p b; .ok (x + y)) := by
  rw [evaluate_operands p (addOp_ne_nil ha), evaluate_operands p ha, evaluate_operands p hb]
  simp only [Expr.addOp, operands_add, appendAll_append, bind_assoc', ok_bind, List.sum_append]

theorem appendAll_eval_neg (p : ValueProvider) (es : List Expr) :
    appendAll (evaluate p) (es.map Expr.negOp) =
      (do let vs ← appendAll (evaluate p) es; .ok (vs.map (fun v => -v))) := by
  induction es with
  | nil => rfl
  | cons e es ih =>
    simp only [List.map_cons, appendAll_cons, ih, bind_assoc', ok_bind, Expr.negOp, evaluate]

theorem sum_map_neg (vs : List Num) : (vs.map (fun v => -v)).sum = -vs.sum := by
  induction vs with
  | nil => rfl
  | cons v vs ih => simp only [List.map_cons, List.sum_cons, ih, Num.neg_add']

theorem evaluate_subOp (p : ValueProvider) {a b : Expr} (ha : a ≠ .add []) (hb : b ≠ .add []) :
    evaluate p (a.subOp b) = (do let x ← evaluate p a; let y ← evaluate p b; .ok (x - y)) := by
  have h : a.subOp b ≠ .add [] := by
    intro h
    have := operands_ne_nil ha
    simp [Expr.subOp] at h
    exact this h.1
  rw [evaluate_operands p h, evaluate_operands p ha, evaluate_operands p hb]
  simp only [Expr.subOp, operands_add, appendAll_append, appendAll_eval_neg, bind_assoc', ok_bind,
    List.sum_append, sum_map_neg, Num.sub_eq]

/-- Evaluation of a left fold of `+` on expressions, given non-empty operands. -/
theorem evaluate_foldl_addOp (p : ValueProvider) (o : Expr) (os : List Expr) (ho : o ≠ .add [])
    (hos : ∀ e ∈ os, e ≠ .add []) :
    evaluate p (os.foldl Expr.addOp o) =
      (do let x ← evaluate p o; let ys ← appendAll (evaluate p) os; .ok (x + ys.sum)) := by
  induction os generalizing o with
  | nil => simp; cases evaluate p o <;> rfl
  | cons a os ih =>
    rw [List.foldl_cons, ih _ (addOp_ne_nil ho) (fun e he => hos e (by simp [he])),
      evaluate_addOp p ho (hos a (by simp))]
    simp only [appendAll_cons, bind_assoc', ok_bind, List.sum_cons, add_assoc]

theorem evaluate_foldAdd (p : ValueProvider) {es : List Expr} {e : Expr}
    (h : foldAdd Expr.addOp es = .ok e) (hes : ∀ e ∈ es, e ≠ .add []) :
    evaluate p e = evaluate p (.add es) := by
  cases es with
  | nil => simp [foldAdd] at h
  | cons o os =>
    simp only [foldAdd, Except.ok.injEq] at h
    subst h
    rw [evaluate_foldl_addOp p o os (hes o (by simp)) (fun e he => hes e (by simp [he])), evaluate_add]
    simp only [appendAll_cons, bind_assoc', ok_bind, foldAdd, foldl_add_eq]

theorem foldAdd_ne_nil {es : List Expr} {e : Expr}
    (h : foldAdd Expr.addOp es = .ok e) (hes : ∀ e ∈ es, e ≠ .add []) : e ≠ .add [] := by
  cases es with
  | nil => simp [foldAdd] at h
  | cons o os =>
    simp only [foldAdd, Except.ok.injEq] at h
    subst h
    have ho := hes o (by simp)
    clear hes
    induction os generalizing o with
    | nil => exact ho
    | cons a os ih => exact ih _ (addOp_ne_nil ho)

/-- `foldAdd` fails only on the empty list. -/
theorem foldAdd_ok {α} {plus : α → α → α} {es : List α} (h : es ≠ []) :
    ∃ e, foldAdd plus es = .ok e := by
  cases es with
  | nil => exact absurd rfl h
  | cons o os => exact ⟨_, rfl⟩

theorem forall₂_mem_right {α β} {R : α → β → Prop} {xs : List α} {ys : List β}
    (h : List.Forall₂ R xs ys) {y : β} (hy : y ∈ ys) : ∃ x ∈ xs, R x y := by
  induction h with
  | nil => simp at hy
  | cons h1 _ ih =>
    rcases List.mem_cons.1 hy with rfl | hy
    · exact ⟨_, by simp, h1⟩
    · obtain ⟨x, hx, hr⟩ := ih hy
      exact ⟨x, by simp [hx], hr⟩

theorem forall₂_mem_left {α β} {R : α → β → Prop} {xs : List α} {ys : List β}
    (h : List.Forall₂ R xs ys) {x : α} (hx : x ∈ xs) : ∃ y ∈ ys, R x y := by
  induction h with
  | nil => simp at hx
  | cons h1 _ ih =>
    rcases List.mem_cons.1 hx with rfl | hx
    · exact ⟨_, by simp, h1⟩
    · obtain ⟨y, hy, hr⟩ := ih hx
      exact ⟨y, by simp [hy], hr⟩

/-- If two evaluations agree pointwise along a loop then so do the loops. -/
theorem appendAll_eq_of_forall₂ {α β γ} {f : α → R γ} {g : β → R γ} {xs : List α} {ys : List β}
    (h : List.Forall₂ (fun x y => g y = f x) xs ys) : appendAll g ys = appendAll f xs := by
  induction h with
  | nil => rfl
  | cons h1 _ ih => simp only [appendAll_cons, h1, ih]

theorem forall₂_and_mem {α β} {R S : α → β → Prop} {xs : List α} {ys : List β}
    (h : List.Forall₂ R xs ys) (himp : ∀ x ∈ xs, ∀ y, R x y → S x y) : List.Forall₂ S xs ys := by
  induction h with
  | nil => exact .nil
  | cons h1 _ ih =>
    exact .cons (himp _ (by simp) _ h1) (ih fun x hx y hr => himp x (by simp [hx]) y hr)

end Verif
