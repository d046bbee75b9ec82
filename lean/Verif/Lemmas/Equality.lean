import Verif.Lemmas.Basic
import Verif.Spec.Expr
import Mathlib.Tactic.Tauto

/-! Lemmas on the equality visitor. -/

namespace Verif
open Expr

theorem Num.eqb_iff (a b : Num) : a.eqb b = true ↔ a = b ∧ a ≠ .nan := by
  cases a <;> cases b <;> simp [Num.eqb]

theorem isclose_zero_iff (a b : Num) : isclose 0 0 a b = true ↔ a = b ∧ a ≠ .nan := by
  unfold isclose
  by_cases h : a.eqb b
  · simp only [h, if_true, true_iff]; exact (Num.eqb_iff a b).1 h
  · have h' : ¬ (a = b ∧ a ≠ .nan) := fun hc => h ((Num.eqb_iff a b).2 hc)
    simp only [h, if_false, h', iff_false]
    cases a <;> cases b <;> simp_all [sub_eq_zero]

theorem isclose_symm (at_ rt : ℚ) (a b : Num) : isclose at_ rt a b = isclose at_ rt b a := by
  unfold isclose
  have : a.eqb b = b.eqb a := by
    rw [Bool.eq_iff_iff, Num.eqb_iff, Num.eqb_iff]
    constructor <;> (rintro ⟨rfl, h⟩; exact ⟨rfl, h⟩)
  rw [this]
  cases a <;> cases b <;> simp only []
  rename_i x y
  rw [abs_sub_comm x y]
  congr 2
  rw [Bool.or_comm]

theorem isclose_mono {a1 r1 a2 r2 : ℚ} (ha : a1 ≤ a2) (hr : r1 ≤ r2) (a b : Num)
    (h : isclose a1 r1 a b = true) : isclose a2 r2 a b = true := by
  unfold isclose at *
  by_cases he : a.eqb b
  · simp [he]
  · simp only [he] at h ⊢
    cases a <;> cases b <;> simp_all
    rename_i x y
    rcases h with (h | h) | h
    · left; left; exact h.trans (mul_le_mul_of_nonneg_right hr (abs_nonneg _))
    · left; right; exact h.trans (mul_le_mul_of_nonneg_right hr (abs_nonneg _))
    · right; linarith

theorem isclose_refl (at_ rt : ℚ) {a : Num} (h : a ≠ .nan) : isclose at_ rt a a = true := by
  unfold isclose
  rw [if_pos ((Num.eqb_iff a a).2 ⟨rfl, h⟩)]

theorem exprEqZip_symm (at_ rt : ℚ) (as bs : List Expr)
    (ih : ∀ a ∈ as, ∀ b, exprEq at_ rt a b = exprEq at_ rt b a) :
    exprEqZip at_ rt as bs = exprEqZip at_ rt bs as := by
  induction as generalizing bs with
  | nil => cases bs <;> simp [exprEqZip]
  | cons a as ih2 =>
    cases bs with
    | nil => simp [exprEqZip]
    | cons b bs =>
      simp only [exprEqZip]
      rw [ih a (by simp), ih2 bs fun x hx => ih x (by simp [hx])]

theorem exprEq_symm (at_ rt : ℚ) (a : Expr) : ∀ b, exprEq at_ rt a b = exprEq at_ rt b a := by
  induction a using Expr.ind with
  | add es ih =>
    intro b
    cases b <;> simp only [exprEq]
    rw [exprEqZip_symm at_ rt _ _ ih, Bool.beq_comm]
  | lit v => intro b; cases b <;> simp only [exprEq]; exact isclose_symm ..
  | _ =>
    intro b
    cases b <;> simp_all only [exprEq, eq_comm, Bool.beq_comm]

theorem exprEqZip_refl (at_ rt : ℚ) (as : List Expr) (ih : ∀ a ∈ as, exprEq at_ rt a a = true) :
    exprEqZip at_ rt as as = true := by
  induction as with
  | nil => simp [exprEqZip]
  | cons a as ih2 =>
    simp only [exprEqZip, ih a (by simp), ih2 fun x hx => ih x (by simp [hx]), Bool.and_self]

theorem exprEq_refl (at_ rt : ℚ) (a : Expr) : NoNaN a → exprEq at_ rt a a = true := by
  have leaf : ∀ {e x : Expr}, NoNaN e → (∀ y ∈ x.subs, y ∈ e.subs) → NoNaN x :=
    fun h hs v hv => h v (hs _ hv)
  induction a using Expr.ind with
  | add es ih =>
    intro h
    simp only [exprEq, beq_self_eq_true, Bool.true_and]
    refine exprEqZip_refl at_ rt _ fun a ha => ih a ha (leaf h fun y hy => mem_subs_add.2 (.inr ⟨a, ha, hy⟩))
  | lit v => intro h; exact isclose_refl _ _ (h v (by simp [subs]))
  | neg e ih => intro h; exact ih (leaf h (by simp +contextual [subs]))
  | mul l r ihl ihr =>
    intro h
    simp only [exprEq, ihl (leaf h (by simp +contextual [subs])), ihr (leaf h (by simp +contextual [subs])), Bool.and_self]
  | div l r ihl ihr =>
    intro h
    simp only [exprEq, ihl (leaf h (by simp +contextual [subs])), ihr (leaf h (by simp +contextual [subs])), Bool.and_self]
  | cmp l r c ihl ihr =>
    intro h
    simp only [exprEq, ihl (leaf h (by simp +contextual [subs])), ihr (leaf h (by simp +contextual [subs])), Bool.and_self, decide_true]
  | shift l r ihl ihr =>
    intro h
    simp only [exprEq, ihl (leaf h (by simp +contextual [subs])), ihr (leaf h (by simp +contextual [subs])), Bool.and_self]
  | evalT l r ihl ihr =>
    intro h
    simp only [exprEq, ihl (leaf h (by simp +contextual [subs])), ihr (leaf h (by simp +contextual [subs])), Bool.and_self]
  | tsum e a b ihe iha ihb =>
    intro h
    simp only [exprEq, ihe (leaf h (by simp +contextual [subs])), iha (leaf h (by simp +contextual [subs])),
      ihb (leaf h (by simp +contextual [subs])), Bool.and_self]
  | allsum e ih => intro h; exact ih (leaf h (by simp +contextual [subs]))
  | scen e o ih => intro h; simp [exprEq, ih (leaf h (by simp +contextual [subs]))]
  | agg e o ih => intro h; simp [exprEq, ih (leaf h (by simp +contextual [subs]))]
  | _ => intro h; simp [exprEq]

theorem exprEqZip_eq (as bs : List Expr) (hl : as.length = bs.length)
    (ih : ∀ a ∈ as, ∀ b, exprEq 0 0 a b = true → a = b) :
    exprEqZip 0 0 as bs = true → as = bs := by
  induction as generalizing bs with
  | nil => cases bs <;> simp_all
  | cons a as ih2 =>
    cases bs with
    | nil => simp at hl
    | cons b bs =>
      intro h
      simp only [exprEqZip, Bool.and_eq_true] at h
      rw [ih a (by simp) b h.1, ih2 bs (by simpa using hl) (fun x hx => ih x (by simp [hx])) h.2]

theorem exprEq_zero_eq (a : Expr) : ∀ b, exprEq 0 0 a b = true → a = b := by
  induction a using Expr.ind with
  | add es ih =>
    intro b h
    cases b <;> simp only [exprEq, Bool.and_eq_true, beq_iff_eq, Bool.false_eq_true] at h
    rw [exprEqZip_eq _ _ h.1 ih h.2]
  | lit v =>
    intro b h
    cases b <;> simp only [exprEq, Bool.false_eq_true] at h
    rw [((isclose_zero_iff _ _).1 h).1]
  | neg e ih => intro b h; cases b <;> simp only [exprEq, Bool.false_eq_true] at h; rw [ih _ h]
  | allsum e ih => intro b h; cases b <;> simp only [exprEq, Bool.false_eq_true] at h; rw [ih _ h]
  | mul l r ihl ihr =>
    intro b h
    cases b <;> simp only [exprEq, Bool.false_eq_true, Bool.and_eq_true] at h
    rw [ihl _ h.1, ihr _ h.2]
  | div l r ihl ihr =>
    intro b h
    cases b <;> simp only [exprEq, Bool.false_eq_true, Bool.and_eq_true] at h
    rw [ihl _ h.1, ihr _ h.2]
  | cmp l r c ihl ihr =>
    intro b h
    cases b <;> simp only [exprEq, Bool.false_eq_true, Bool.and_eq_true, decide_eq_true_eq] at h
    rw [ihl _ h.2.1, ihr _ h.2.2, h.1]
  | shift l r ihl ihr =>
    intro b h
    cases b <;> simp only [exprEq, Bool.false_eq_true, Bool.and_eq_true] at h
    rw [ihr _ h.1, ihl _ h.2]
  | evalT l r ihl ihr =>
    intro b h
    cases b <;> simp only [exprEq, Bool.false_eq_true, Bool.and_eq_true] at h
    rw [ihr _ h.1, ihl _ h.2]
  | tsum e x y ihe ihx ihy =>
    intro b h
    cases b <;> simp only [exprEq, Bool.false_eq_true, Bool.and_eq_true] at h
    rw [ihx _ h.1.1, ihy _ h.1.2, ihe _ h.2]
  | scen e o ih =>
    intro b h
    cases b <;> simp only [exprEq, Bool.false_eq_true, Bool.and_eq_true, decide_eq_true_eq] at h
    rw [h.1, ih _ h.2]
  | agg e o ih =>
    intro b h
    cases b <;> simp only [exprEq, Bool.false_eq_true, Bool.and_eq_true, decide_eq_true_eq] at h
    rw [h.1, ih _ h.2]
  | _ =>
    intro b h
    cases b <;> simp only [exprEq, Bool.false_eq_true, Bool.and_eq_true, decide_eq_true_eq, beq_iff_eq] at h
    try simp [h]

theorem exprEqZip_mono {a1 r1 a2 r2 : ℚ} (as bs : List Expr)
    (ih : ∀ a ∈ as, ∀ b, exprEq a1 r1 a b = true → exprEq a2 r2 a b = true) :
    exprEqZip a1 r1 as bs = true → exprEqZip a2 r2 as bs = true := by
  induction as generalizing bs with
  | nil => cases bs <;> simp [exprEqZip]
  | cons a as ih2 =>
    cases bs with
    | nil => simp [exprEqZip]
    | cons b bs =>
      simp only [exprEqZip, Bool.and_eq_true]
      exact fun h => ⟨ih a (by simp) b h.1, ih2 bs (fun x hx => ih x (by simp [hx])) h.2⟩

theorem exprEq_mono {a1 r1 a2 r2 : ℚ} (ha : a1 ≤ a2) (hr : r1 ≤ r2) (a : Expr) :
    ∀ b, exprEq a1 r1 a b = true → exprEq a2 r2 a b = true := by
  induction a using Expr.ind with
  | add es ih =>
    intro b h
    cases b <;> simp only [exprEq, Bool.and_eq_true, Bool.false_eq_true] at h ⊢
    exact ⟨h.1, exprEqZip_mono _ _ ih h.2⟩
  | lit v =>
    intro b h
    cases b <;> simp only [exprEq, Bool.false_eq_true] at h ⊢
    exact isclose_mono ha hr _ _ h
  | _ =>
    intro b h
    cases b <;> simp only [exprEq, Bool.false_eq_true, Bool.and_eq_true, decide_eq_true_eq, beq_iff_eq] at h ⊢
    try simp_all

end Verif
