import Verif.Lemmas.Block
import Verif.Lemmas.PypsaPlans

/-! # The coefficients of the problem of a converted network -/

namespace Verif
open Verif.Props Verif.PNetwork Verif.Expr Verif.OptCtx Verif.Shipped

/-- one unit more of one instance -/
def raised (σ : TermKey → ℚ) (k : TermKey) : TermKey → ℚ := fun k' => if k = k' then σ k' + 1 else σ k'

/-- the form depends on the instances in `K` only, and one unit more of one of them gives a change that is not dropped -/
def KeptForm (F : (TermKey → ℚ) → ℚ) (K : TermKey → Prop) : Prop :=
  ∀ σ k, Kept (F (raised σ k) - F σ) ∧ (¬ K k → F (raised σ k) = F σ)

theorem kept_neg {q : ℚ} (h : Kept q) : Kept (-q) := by
  rcases h with h | h
  · left; rw [h, neg_zero]
  · right; rwa [abs_neg]

theorem kept_zero : Kept 0 := .inl rfl
theorem kept_one : Kept 1 := .inr (by norm_num)

namespace KeptForm

theorem const (c : ℚ) : KeptForm (fun _ => c) fun _ => False := fun σ k => ⟨.inl (sub_self c), fun _ => rfl⟩

theorem single {q : ℚ} (hq : Kept q) (key : TermKey) : KeptForm (fun σ => q * σ key) fun k => k = key := by
  intro σ k
  by_cases h : k = key
  · refine ⟨?_, fun hn => absurd h hn⟩
    simp only [raised, if_pos h]
    rw [show q * (σ key + 1) - q * σ key = q by ring]
    exact hq
  · have : (raised σ k) key = σ key := if_neg h
    simp only [this]
    exact ⟨.inl (sub_self _), fun _ => trivial⟩

theorem mono {F : (TermKey → ℚ) → ℚ} {K K' : TermKey → Prop} (h : KeptForm F K) (hK : ∀ k, K k → K' k) : KeptForm F K' :=
  fun σ k => ⟨(h σ k).1, fun hn => (h σ k).2 fun hk => hn (hK k hk)⟩

theorem congr {F G : (TermKey → ℚ) → ℚ} {K : TermKey → Prop} (h : KeptForm F K) (he : ∀ σ, G σ = F σ) : KeptForm G K := by
  have : G = F := funext he
  rw [this]
  exact h

theorem add {F G : (TermKey → ℚ) → ℚ} {K K' : TermKey → Prop} (hF : KeptForm F K) (hG : KeptForm G K') (hd : ∀ k, K k → ¬ K' k) :
    KeptForm (fun σ => F σ + G σ) fun k => K k ∨ K' k := by
  intro σ k
  show Kept (F (raised σ k) + G (raised σ k) - (F σ + G σ)) ∧ (¬ (K k ∨ K' k) → F (raised σ k) + G (raised σ k) = F σ + G σ)
  refine ⟨?_, fun hn => ?_⟩
  · by_cases hk : K k
    · have := (hG σ k).2 (hd k hk)
      rw [this, show F (raised σ k) + G σ - (F σ + G σ) = F (raised σ k) - F σ by ring]
      exact (hF σ k).1
    · have := (hF σ k).2 hk
      rw [this, show F σ + G (raised σ k) - (F σ + G σ) = G (raised σ k) - G σ by ring]
      exact (hG σ k).1
  · rw [(hF σ k).2 fun h => hn (.inl h), (hG σ k).2 fun h => hn (.inr h)]

theorem sumList {α} {F : α → (TermKey → ℚ) → ℚ} {K : α → TermKey → Prop} (l : List α) (hF : ∀ a ∈ l, KeptForm (F a) (K a))
    (hd : l.Pairwise fun a b => ∀ k, K a k → ¬ K b k) : KeptForm (fun σ => (l.map fun a => F a σ).sum) fun k => ∃ a ∈ l, K a k := by
  induction l with
  | nil => exact (const 0).mono fun k h => h.elim
  | cons a l ih =>
    rw [List.pairwise_cons] at hd
    refine ((hF a List.mem_cons_self).add (ih (fun b hb => hF b (List.mem_cons_of_mem _ hb)) hd.2) ?_).mono ?_
    · rintro k hk ⟨b, hb, hkb⟩
      exact hd.1 b hb k hk hkb
    · rintro k (hk | ⟨b, hb, hk⟩)
      · exact ⟨a, List.mem_cons_self, hk⟩
      · exact ⟨b, List.mem_cons_of_mem _ hb, hk⟩

theorem sumRange {F : Nat → (TermKey → ℚ) → ℚ} {K : Nat → TermKey → Prop} (T : Nat) (hF : ∀ t < T, KeptForm (F t) (K t))
    (hd : ∀ a b k, K a k → K b k → a = b) : KeptForm (fun σ => ∑ t ∈ Finset.range T, F t σ) fun k => ∃ t < T, K t k := by
  induction T with
  | zero => exact ((const 0).mono fun k h => h.elim).congr fun σ => Finset.sum_range_zero _
  | succ T ih =>
    refine (((ih fun t ht => hF t (by omega)).add (hF T (by omega)) ?_).mono ?_).congr fun σ => Finset.sum_range_succ _ _
    · rintro k ⟨t, ht, hk⟩ hkT
      exact absurd (hd _ _ k hk hkT) (by omega)
    · rintro k (⟨t, ht, hk⟩ | hk)
      · exact ⟨t, by omega, hk⟩
      · exact ⟨T, by omega, hk⟩

theorem noTiny {F : (TermKey → ℚ) → ℚ} {K : TermKey → Prop} (hF : KeptForm F K) {x : OptCtx} {c : Component} {e : Expr} {t s : Int}
    (h : ∀ var, mden (x.readAs (x.unwrapped var) c) e t s = F (StudyInput.Linked.wrapped var)) : x.NoTiny c e t s := by
  intro var k
  simp only [h]
  have : StudyInput.Linked.wrapped (fun c v t s => if k = ⟨c, v, t, s⟩ then var c v t s + 1 else var c v t s) =
      raised (StudyInput.Linked.wrapped var) k := by
    funext k'
    rfl
  rw [this]
  exact (hF _ k).1

end KeptForm
end Verif
