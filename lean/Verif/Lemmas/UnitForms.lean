import Mathlib.Algebra.BigOperators.Field
import Verif.Lemmas.PypsaKeptLines

/-! # Expressions whose coefficients are whole numbers -/

namespace Verif
open Verif.Expr Verif.OptCtx Verif.PNetwork

/-- an expression without variables -/
inductive Expr.Steady : Expr → Prop
  | lit (v : Num) : Steady (.lit v)
  | par (n : String) : Steady (.par n)
  | neg {e : Expr} : Steady e → Steady (.neg e)
  | add {es : List Expr} : (∀ e ∈ es, Steady e) → Steady (.add es)
  | mul {l r : Expr} : Steady l → Steady r → Steady (.mul l r)
  | shift {e k : Expr} : Steady e → Steady k → Steady (.shift e k)
  | tsum {e a b : Expr} : Steady e → Steady a → Steady b → Steady (.tsum e a b)

/-- an expression where variables are added, subtracted, shifted and summed only -/
inductive Expr.Unitary : Expr → Prop
  | steady {e : Expr} : Steady e → Unitary e
  | var (n : String) : Unitary (.var n)
  | neg {e : Expr} : Unitary e → Unitary (.neg e)
  | add {es : List Expr} : (∀ e ∈ es, Unitary e) → Unitary (.add es)
  | shift {e k : Expr} : Unitary e → Steady k → Unitary (.shift e k)
  | evalT {e k : Expr} : Unitary e → Steady k → Unitary (.evalT e k)
  | tsum {e a b : Expr} : Unitary e → Steady a → Steady b → Unitary (.tsum e a b)

theorem kept_int (n : Int) : Kept (n : ℚ) := by
  by_cases h : n = 0
  · left; rw [h]; rfl
  · right
    have h1 : (1 : Int) ≤ |n| := Int.one_le_abs h
    have h2 : (1 : ℚ) ≤ |(n : ℚ)| := by exact_mod_cast h1
    refine le_trans ?_ h2
    norm_num

section
variable {x : OptCtx} {c : Component}

theorem Expr.Steady.eq {e : Expr} (h : e.Steady) (var var' : String → String → Option Int → Option Int → ℚ) : ∀ t s : Int,
    mden (x.readAs (x.unwrapped var) c) e t s = mden (x.readAs (x.unwrapped var') c) e t s := by
  induction h with
  | lit v => intro t s; cases v <;> simp [mden]
  | par n => intro t s; rfl
  | neg _ ih => intro t s; simp only [mden, ih]
  | add _ ih => intro t s; rw [mden_add, mden_add]; congr 1; exact List.map_congr_left fun e he => ih e he t s
  | mul _ _ ih ih' => intro t s; simp only [mden, ih, ih']
  | shift _ _ ih ih' => intro t s; simp only [mden, ih, ih']
  | tsum _ _ _ ih iha ihb => intro t s; simp only [mden, ih, iha, ihb]

theorem Expr.Unitary.change {e : Expr} (h : e.Unitary) (var : String → String → Option Int → Option Int → ℚ) (k : TermKey) : ∀ t s : Int,
    ∃ n : Int, mden (x.readAs (x.unwrapped fun c v t s => if k = ⟨c, v, t, s⟩ then var c v t s + 1 else var c v t s) c) e t s -
      mden (x.readAs (x.unwrapped var) c) e t s = n := by
  induction h with
  | steady h => intro t s; exact ⟨0, by rw [h.eq _ var, sub_self]; rfl⟩
  | var n =>
    intro t s
    show ∃ m : Int, (if k = ⟨c.id, n, atT (x.varIdx c.id n) t, atS (x.varIdx c.id n) s⟩ then
      var c.id n (atT (x.varIdx c.id n) t) (atS (x.varIdx c.id n) s) + 1 else var c.id n (atT (x.varIdx c.id n) t) (atS (x.varIdx c.id n) s)) -
      var c.id n (atT (x.varIdx c.id n) t) (atS (x.varIdx c.id n) s) = m
    split_ifs
    · exact ⟨1, by push_cast; ring⟩
    · exact ⟨0, by push_cast; ring⟩
  | neg _ ih =>
    intro t s
    obtain ⟨n, hn⟩ := ih t s
    exact ⟨-n, by simp only [mden]; push_cast; rw [← hn]; ring⟩
  | @add es _ ih =>
    intro t s
    rw [mden_add, mden_add]
    induction es with
    | nil => exact ⟨0, by simp⟩
    | cons a es ih' =>
      obtain ⟨n, hn⟩ := ih a List.mem_cons_self t s
      obtain ⟨m, hm⟩ := ih' (fun e he => by rename_i h; exact h e (List.mem_cons_of_mem _ he)) fun e he => ih e (List.mem_cons_of_mem _ he)
      refine ⟨n + m, ?_⟩
      simp only [List.map_cons, List.sum_cons]
      push_cast
      rw [← hn, ← hm]
      ring
  | shift _ hk ih =>
    intro t s
    simp only [mden]
    rw [hk.eq _ var]
    exact ih _ s
  | evalT _ hk ih =>
    intro t s
    simp only [mden]
    rw [hk.eq _ var]
    exact ih _ s
  | tsum _ ha hb ih =>
    intro t s
    simp only [mden]
    rw [ha.eq _ var, hb.eq _ var, ← Finset.sum_sub_distrib]
    choose f hf using fun u => ih u s
    generalize Finset.Icc (_ : Int) _ = I
    refine ⟨∑ u ∈ I, f (t + u), ?_⟩
    push_cast
    exact Finset.sum_congr rfl fun u _ => hf _

theorem Expr.Unitary.noTiny {e : Expr} (h : e.Unitary) (t s : Int) : x.NoTiny c e t s := by
  intro var k
  obtain ⟨n, hn⟩ := h.change (x := x) (c := c) var k t s
  simp only [hn]
  exact kept_int n

end

/-- a form whose coefficients are whole numbers -/
def IntForm (F : (TermKey → ℚ) → ℚ) : Prop := ∀ σ k, ∃ n : Int, F (raised σ k) - F σ = n

namespace IntForm

theorem const (c : ℚ) : IntForm fun _ => c := fun _ _ => ⟨0, by simp⟩

theorem single (key : TermKey) : IntForm fun σ => σ key := by
  intro σ k
  show ∃ n : Int, (if k = key then σ key + 1 else σ key) - σ key = n
  split_ifs
  · exact ⟨1, by push_cast; ring⟩
  · exact ⟨0, by push_cast; ring⟩

theorem add {F G : (TermKey → ℚ) → ℚ} (hF : IntForm F) (hG : IntForm G) : IntForm fun σ => F σ + G σ := by
  intro σ k
  obtain ⟨n, hn⟩ := hF σ k
  obtain ⟨m, hm⟩ := hG σ k
  refine ⟨n + m, ?_⟩
  push_cast
  rw [← hn, ← hm]
  ring

theorem sub {F G : (TermKey → ℚ) → ℚ} (hF : IntForm F) (hG : IntForm G) : IntForm fun σ => F σ - G σ := by
  intro σ k
  obtain ⟨n, hn⟩ := hF σ k
  obtain ⟨m, hm⟩ := hG σ k
  refine ⟨n - m, ?_⟩
  push_cast
  rw [← hn, ← hm]
  ring

theorem ite {p : Prop} [Decidable p] {F G : (TermKey → ℚ) → ℚ} (hF : IntForm F) (hG : IntForm G) : IntForm fun σ => if p then F σ else G σ := by
  by_cases h : p
  · simp only [if_pos h]; exact hF
  · simp only [if_neg h]; exact hG

theorem sumList {α} {F : α → (TermKey → ℚ) → ℚ} (l : List α) (hF : ∀ a ∈ l, IntForm (F a)) : IntForm fun σ => (l.map fun a => F a σ).sum := by
  induction l with
  | nil => exact const 0
  | cons a l ih => exact (hF a List.mem_cons_self).add (ih fun b hb => hF b (List.mem_cons_of_mem _ hb))

theorem congr {F G : (TermKey → ℚ) → ℚ} (h : IntForm F) (he : ∀ σ, G σ = F σ) : IntForm G := by
  have : G = F := funext he
  rw [this]
  exact h

theorem kept {F : (TermKey → ℚ) → ℚ} (h : IntForm F) : KeptForm F fun _ => True := by
  intro σ k
  obtain ⟨n, hn⟩ := h σ k
  refine ⟨?_, fun hn => absurd trivial hn⟩
  rw [hn]
  exact kept_int n

end IntForm

/-- the instance of a variable at a timestep in a scenario -/
abbrev cell (id v : String) (t s : Int) : TermKey := ⟨id, v, some t, some s⟩

/-- the average over scenarios of the sum over timesteps of a quantity, with a coefficient -/
theorem KeptForm.average {q : Nat → ℚ} (T S : Nat) (hq : ∀ t < T, Kept (q t / S)) (id v : String) :
    KeptForm (fun σ => (∑ s ∈ Finset.range S, ∑ t ∈ Finset.range T, q t * σ (cell id v t s)) / S)
      fun x => ∃ t s : Nat, x = cell id v t s := by
  have := KeptForm.sumRange (F := fun s σ => ∑ t ∈ Finset.range T, (q t / S) * σ (cell id v t s))
    (K := fun s x => ∃ t < T, x = cell id v (t : Nat) (s : Nat)) S (fun s _ =>
      KeptForm.sumRange T (F := fun t σ => (q t / S) * σ (cell id v t s)) (fun t ht => KeptForm.single (hq t ht) _) fun a b k ha hb => by
        rw [ha] at hb
        simp only [cell, TermKey.mk.injEq, Option.some.injEq, true_and, and_true] at hb
        exact_mod_cast hb) (by
    rintro a b k ⟨t, -, rfl⟩ ⟨t', -, hb⟩
    simp only [cell, TermKey.mk.injEq, Option.some.injEq, true_and] at hb
    exact_mod_cast hb.2)
  refine (this.mono ?_).congr fun σ => ?_
  · rintro k ⟨s, -, t, -, rfl⟩
    exact ⟨t, s, rfl⟩
  · rw [Finset.sum_div]
    refine Finset.sum_congr rfl fun s _ => ?_
    rw [Finset.sum_div]
    exact Finset.sum_congr rfl fun t _ => by ring

end Verif
