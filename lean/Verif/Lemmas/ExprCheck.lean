import Verif.Spec.Problem
import Mathlib.Tactic.Linarith
import Mathlib.Tactic.Ring
import Mathlib.Tactic.SplitIfs
import Mathlib.Tactic.NormNum

/-! # Checking the hypotheses on expressions by computation -/

namespace Verif
open Verif.Expr Verif.OptCtx

/-- a check of `ExprOk`, node by node -/
def nodeOk : Expr → Bool
  | .lit v => v.isFin
  | .cmp .. => false
  | .agg (.portField ..) _ => true
  | .agg .. => false
  | .shift x _ => x.subs.all fun y => !y.isTimeFixing
  | .tsum x _ _ => x.subs.all fun y => !y.isTimeFixing
  | .scen x _ => x.subs.all fun y => !y.isScen
  | _ => true

theorem exprOk_of {e : Expr} (h : e.subs.all nodeOk = true) : ExprOk e := by
  rw [List.all_eq_true] at h
  refine ⟨?_, ?_, ?_, ⟨?_, ?_, ?_⟩⟩
  · intro y a hy
    have := h _ hy
    cases y with
    | portField p f => exact ⟨p, f, rfl⟩
    | _ => simp [nodeOk] at this
  · intro y hy
    have := h _ hy
    cases y with
    | cmp => simp [nodeOk] at this
    | _ => rfl
  · intro v hv
    have := h _ hv
    cases v with
    | fin q => exact ⟨q, rfl⟩
    | _ => simp [nodeOk, Num.isFin] at this
  · intro y k hy z hz
    have := h _ hy
    simp only [nodeOk, List.all_eq_true] at this
    simpa using this z hz
  · intro y a b hy z hz
    have := h _ hy
    simp only [nodeOk, List.all_eq_true] at this
    simpa using this z hz
  · intro y a hy z hz
    have := h _ hy
    simp only [nodeOk, List.all_eq_true] at this
    simpa using this z hz

/-- integer coefficients are not tiny -/
theorem noTiny_of_int {x : OptCtx} {c : Component} {e : Expr} {t s : Int} (c0 : ℚ) (L : List (TermKey × ℤ))
    (h : ∀ var, mden (x.readAs (x.unwrapped var) c) e t s =
      c0 + (L.map fun kq => (kq.2 : ℚ) * var kq.1.component kq.1.var kq.1.time kq.1.scenario).sum) : x.NoTiny c e t s := by
  intro var k
  simp only [h]
  have key : ∀ L : List (TermKey × ℤ), ∃ n : ℤ,
      (L.map fun kq => (kq.2 : ℚ) * (if k = ⟨kq.1.component, kq.1.var, kq.1.time, kq.1.scenario⟩ then
        var kq.1.component kq.1.var kq.1.time kq.1.scenario + 1 else var kq.1.component kq.1.var kq.1.time kq.1.scenario)).sum -
      (L.map fun kq => (kq.2 : ℚ) * var kq.1.component kq.1.var kq.1.time kq.1.scenario).sum = n := by
    intro L
    induction L with
    | nil => exact ⟨0, by simp⟩
    | cons a L ih =>
      obtain ⟨n, hn⟩ := ih
      refine ⟨n + (if k = ⟨a.1.component, a.1.var, a.1.time, a.1.scenario⟩ then a.2 else 0), ?_⟩
      simp only [List.map_cons, List.sum_cons]
      push_cast
      rw [← hn]
      split_ifs <;> push_cast <;> ring
  obtain ⟨n, hn⟩ := key L
  have e1 : ∀ a b c : ℚ, c + a - (c + b) = a - b := fun a b c => by ring
  rw [e1, hn]
  by_cases h0 : n = 0
  · left; simp [h0]
  · right
    have : (1 : ℤ) ≤ |n| := Int.one_le_abs h0
    have : (1 : ℚ) ≤ |(n : ℚ)| := by exact_mod_cast this
    exact le_trans (by norm_num) this

end Verif
