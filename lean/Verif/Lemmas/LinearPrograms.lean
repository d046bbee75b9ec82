import Mathlib.LinearAlgebra.FiniteDimensional.Lemmas
import Mathlib.LinearAlgebra.Span.Basic
import Mathlib.Algebra.Order.Field.Rat
import Mathlib.Tactic.Linarith
import Mathlib.Tactic.FieldSimp
import Mathlib.Tactic.Ring
import Mathlib.Data.Int.LeastGreatest
import Mathlib.Algebra.Order.Archimedean.Basic
import Mathlib.Data.Rat.Floor
import Mathlib.LinearAlgebra.Pi
import Verif.Spec.CliOutput

/-!
# Linear programs over the rationals

Elimination of the unknowns of finitely many linear inequalities (Fourier and Motzkin), for any number of unknowns and for all right-hand sides at once;
and what follows from it: a linear cost that has a lower bound has a least value.
-/

namespace Verif.Programs

/-- a number between the numbers of two finite lists -/
theorem between_lists : ∀ (as bs : List ℚ), (∀ a ∈ as, ∀ b ∈ bs, a ≤ b) → ∃ m, (∀ a ∈ as, a ≤ m) ∧ ∀ b ∈ bs, m ≤ b
  | [], [], _ => ⟨0, by simp, by simp⟩
  | [], b :: bs, _ => by
    obtain ⟨m, -, h⟩ := between_lists [] bs (by simp)
    refine ⟨min b m, by simp, fun c hc => ?_⟩
    rcases List.mem_cons.1 hc with rfl | hc
    · exact min_le_left _ _
    · exact (min_le_right _ _).trans (h c hc)
  | a :: as, bs, h => by
    obtain ⟨m, h1, h2⟩ := between_lists as bs fun a ha => h a (List.mem_cons_of_mem _ ha)
    refine ⟨max a m, fun c hc => ?_, fun b hb => max_le (h a (List.mem_cons_self ..) b hb) (h2 b hb)⟩
    rcases List.mem_cons.1 hc with rfl | hc
    · exact le_max_left _ _
    · exact (h1 c hc).trans (le_max_right _ _)

section
variable {V R : Type*} [AddCommGroup V] [Module ℚ V] [AddCommGroup R] [Module ℚ R]

/-- the left-hand sides of inequalities -/
def left (L : List ((V →ₗ[ℚ] ℚ) × R)) : Submodule ℚ (V →ₗ[ℚ] ℚ) := Submodule.span ℚ {φ | ∃ r, (φ, r) ∈ L}

/-- the inequalities without the direction `e` -/
noncomputable def eliminate (e : V) (L : List ((V →ₗ[ℚ] ℚ) × R)) : List ((V →ₗ[ℚ] ℚ) × R) :=
  open Classical in
  (L.filter fun p => p.1 e = 0) ++ (L.filter fun p => 0 < p.1 e).flatMap fun p => (L.filter fun n => n.1 e < 0).map fun n =>
    ((p.1 e)⁻¹ • p.1 - (n.1 e)⁻¹ • n.1, (p.1 e)⁻¹ • p.2 - (n.1 e)⁻¹ • n.2)

theorem mem_eliminate {e : V} {L : List ((V →ₗ[ℚ] ℚ) × R)} {q : (V →ₗ[ℚ] ℚ) × R} :
    q ∈ eliminate e L ↔ (q ∈ L ∧ q.1 e = 0) ∨ ∃ p ∈ L, ∃ n ∈ L, 0 < p.1 e ∧ n.1 e < 0 ∧
      q = ((p.1 e)⁻¹ • p.1 - (n.1 e)⁻¹ • n.1, (p.1 e)⁻¹ • p.2 - (n.1 e)⁻¹ • n.2) := by
  unfold eliminate
  simp only [List.mem_append, List.mem_filter, List.mem_flatMap, List.mem_map, decide_eq_true_eq]
  constructor
  · rintro (h | ⟨p, ⟨hp, h1⟩, n, ⟨hn, h2⟩, rfl⟩)
    · exact .inl h
    · exact .inr ⟨p, hp, n, hn, h1, h2, rfl⟩
  · rintro (h | ⟨p, hp, n, hn, h1, h2, rfl⟩)
    · exact .inl h
    · exact .inr ⟨p, ⟨hp, h1⟩, n, ⟨hn, h2⟩, rfl⟩

theorem eliminate_zero {e : V} {L : List ((V →ₗ[ℚ] ℚ) × R)} {q : (V →ₗ[ℚ] ℚ) × R} (h : q ∈ eliminate e L) : q.1 e = 0 := by
  rcases mem_eliminate.1 h with h | ⟨p, -, n, -, h1, h2, rfl⟩
  · exact h.2
  · simp only [LinearMap.sub_apply, LinearMap.smul_apply, smul_eq_mul]
    rw [inv_mul_cancel₀ h1.ne', inv_mul_cancel₀ h2.ne, sub_self]

/-- solutions with and without the direction `e` -/
theorem eliminate_iff (e : V) (L : List ((V →ₗ[ℚ] ℚ) × R)) (ev : R →ₗ[ℚ] ℚ) :
    (∃ v, ∀ q ∈ L, q.1 v ≤ ev q.2) ↔ ∃ v, ∀ q ∈ eliminate e L, q.1 v ≤ ev q.2 := by
  classical
  constructor
  · rintro ⟨v, h⟩
    refine ⟨v, fun q hq => ?_⟩
    rcases mem_eliminate.1 hq with hq | ⟨p, hp, n, hn, h1, h2, rfl⟩
    · exact h q hq.1
    · have a := mul_le_mul_of_nonneg_left (h p hp) (inv_nonneg.2 h1.le)
      have b := mul_le_mul_of_nonpos_left (h n hn) (inv_nonpos.2 h2.le)
      simp only [LinearMap.sub_apply, LinearMap.smul_apply, smul_eq_mul, map_sub, map_smul]
      linarith
  · rintro ⟨v, h⟩
    obtain ⟨m, h1, h2⟩ := between_lists
      ((L.filter fun n => n.1 e < 0).map fun n => (n.1 e)⁻¹ * (ev n.2 - n.1 v))
      ((L.filter fun p => 0 < p.1 e).map fun p => (p.1 e)⁻¹ * (ev p.2 - p.1 v)) (by
        intro a ha b hb
        obtain ⟨n, hn, rfl⟩ := List.mem_map.1 ha
        obtain ⟨p, hp, rfl⟩ := List.mem_map.1 hb
        simp only [List.mem_filter, decide_eq_true_eq] at hn hp
        have := h _ (mem_eliminate.2 (.inr ⟨p, hp.1, n, hn.1, hp.2, hn.2, rfl⟩))
        simp only [LinearMap.sub_apply, LinearMap.smul_apply, smul_eq_mul, map_sub, map_smul] at this
        linarith)
    refine ⟨v + m • e, fun q hq => ?_⟩
    simp only [map_add, map_smul, smul_eq_mul]
    rcases lt_trichotomy (q.1 e) 0 with hq0 | hq0 | hq0
    · have := h1 _ (List.mem_map.2 ⟨q, by simp [hq, hq0], rfl⟩)
      have := mul_le_mul_of_nonpos_right this hq0.le
      rw [mul_comm ((q.1 e)⁻¹), mul_assoc, inv_mul_cancel₀ hq0.ne, mul_one] at this
      linarith
    · have := h q (mem_eliminate.2 (.inl ⟨hq, hq0⟩))
      rw [hq0]
      linarith
    · have := h2 _ (List.mem_map.2 ⟨q, by simp [hq, hq0], rfl⟩)
      have := mul_le_mul_of_nonneg_right this hq0.le
      rw [mul_comm ((q.1 e)⁻¹), mul_assoc, inv_mul_cancel₀ hq0.ne', mul_one] at this
      linarith

instance (L : List ((V →ₗ[ℚ] ℚ) × R)) : FiniteDimensional ℚ (left L) :=
  FiniteDimensional.span_of_finite ℚ ((List.finite_toSet (L.map Prod.fst)).subset (by rintro φ ⟨r, h⟩; exact List.mem_map.2 ⟨_, h, rfl⟩))

theorem eliminate_left {e : V} {L : List ((V →ₗ[ℚ] ℚ) × R)} {q : (V →ₗ[ℚ] ℚ) × R} (hq : q ∈ L) (he : q.1 e ≠ 0) :
    left (eliminate e L) < left L := by
  refine lt_of_le_of_ne (Submodule.span_le.2 ?_) fun h => he ?_
  · rintro φ ⟨r, h⟩
    have mem : ∀ q ∈ L, q.1 ∈ left L := fun q hq => Submodule.subset_span ⟨q.2, hq⟩
    rcases mem_eliminate.1 h with h | ⟨p, hp, n, hn, -, -, h⟩
    · exact mem _ h.1
    · obtain ⟨rfl, -⟩ := Prod.ext_iff.1 h
      exact Submodule.sub_mem _ (Submodule.smul_mem _ _ (mem p hp)) (Submodule.smul_mem _ _ (mem n hn))
  · have : q.1 ∈ left (eliminate e L) := h ▸ Submodule.subset_span ⟨q.2, hq⟩
    refine Submodule.span_induction (p := fun φ _ => φ e = 0) ?_ (by simp) (fun a b _ _ h1 h2 => by simp [h1, h2]) (fun k a _ h => by simp [h]) this
    rintro φ ⟨r, h⟩
    exact eliminate_zero h

/-- **Elimination.** Whether inequalities with given left-hand sides have a solution depends on finitely many linear conditions on the right-hand sides. -/
theorem solvable_iff (L : List ((V →ₗ[ℚ] ℚ) × R)) : ∃ U : List R, ∀ ev : R →ₗ[ℚ] ℚ, (∃ v, ∀ q ∈ L, q.1 v ≤ ev q.2) ↔ ∀ u ∈ U, 0 ≤ ev u := by
  generalize hn : Module.finrank ℚ (left L) = n
  induction n using Nat.strong_induction_on generalizing L with
  | _ n ih =>
    by_cases h : ∃ q ∈ L, q.1 ≠ 0
    · obtain ⟨q, hq, h⟩ := h
      obtain ⟨e, he⟩ : ∃ e, q.1 e ≠ 0 := by
        by_contra h'
        push Not at h'
        exact h (LinearMap.ext h')
      obtain ⟨U, hU⟩ := ih _ (hn ▸ Submodule.finrank_lt_finrank_of_lt (eliminate_left hq he)) (eliminate e L) rfl
      exact ⟨U, fun ev => (eliminate_iff e L ev).trans (hU ev)⟩
    · push Not at h
      refine ⟨L.map Prod.snd, fun ev => ⟨?_, fun h' => ⟨0, fun q hq => ?_⟩⟩⟩
      · rintro ⟨v, hv⟩ u hu
        obtain ⟨q, hq, rfl⟩ := List.mem_map.1 hu
        have := hv q hq
        rwa [h q hq, LinearMap.zero_apply] at this
      · rw [h q hq]
        exact h' _ (List.mem_map.2 ⟨q, hq, rfl⟩)

end

section
variable {V ι : Type*} [AddCommGroup V] [Module ℚ V]

/-- The quantities `f i` are linear in the unknowns, with the same coefficients for all `i`. -/
def Affine (f : ι → V → ℚ) : Prop := ∃ (φ : V →ₗ[ℚ] ℚ) (b : ι → ℚ), ∀ i v, f i v = φ v + b i

/-- The conditions `P i` are finitely many linear inequalities, with the same coefficients for all `i`. -/
def Linear (P : ι → V → Prop) : Prop := ∃ L : List ((V →ₗ[ℚ] ℚ) × (ι → ℚ)), ∀ i v, P i v ↔ ∀ q ∈ L, q.1 v ≤ q.2 i

theorem Affine.add {f g : ι → V → ℚ} (hf : Affine f) (hg : Affine g) : Affine fun i v => f i v + g i v := by
  obtain ⟨φ, b, h⟩ := hf
  obtain ⟨ψ, d, k⟩ := hg
  exact ⟨φ + ψ, fun i => b i + d i, fun i v => by simp only [h, k, LinearMap.add_apply]; ring⟩

theorem Affine.zero : Affine fun (_ : ι) (_ : V) => (0 : ℚ) := ⟨0, fun _ => 0, fun i v => by simp⟩

theorem Affine.sum {α : Type*} (l : List α) {f : α → ι → V → ℚ} (h : ∀ a ∈ l, Affine (f a)) : Affine fun i v => (l.map fun a => f a i v).sum := by
  induction l with
  | nil => exact Affine.zero
  | cons a l ih => exact (h a (List.mem_cons_self ..)).add (ih fun a ha => h a (List.mem_cons_of_mem _ ha))

theorem Affine.le {f g : ι → V → ℚ} (hf : Affine f) (hg : Affine g) : Linear fun i v => f i v ≤ g i v := by
  obtain ⟨φ, b, h⟩ := hf
  obtain ⟨ψ, d, k⟩ := hg
  refine ⟨[(φ - ψ, fun i => d i - b i)], fun i v => ?_⟩
  simp only [List.mem_singleton, forall_eq, h, k, LinearMap.sub_apply]
  constructor <;> intro h <;> linarith

theorem Linear.true : Linear fun (_ : ι) (_ : V) => True := ⟨[], by simp⟩

theorem Linear.false : Linear fun (_ : ι) (_ : V) => False := ⟨[(0, fun _ => -1)], by simp⟩

theorem Linear.and {P Q : ι → V → Prop} (hP : Linear P) (hQ : Linear Q) : Linear fun i v => P i v ∧ Q i v := by
  obtain ⟨L, h⟩ := hP
  obtain ⟨K, k⟩ := hQ
  refine ⟨L ++ K, fun i v => ?_⟩
  simp only [h, k, List.mem_append]
  exact ⟨fun a q hq => hq.elim (a.1 q) (a.2 q), fun a => ⟨fun q hq => a q (.inl hq), fun q hq => a q (.inr hq)⟩⟩

theorem Linear.congr {P Q : ι → V → Prop} (h : ∀ i v, Q i v ↔ P i v) (hP : Linear P) : Linear Q := by
  obtain ⟨L, hL⟩ := hP
  exact ⟨L, fun i v => (h i v).trans (hL i v)⟩

theorem Linear.imp {p : Prop} {P : ι → V → Prop} (h : p → Linear P) : Linear fun i v => p → P i v := by
  by_cases hp : p
  · exact (h hp).congr fun i v => by simp [hp]
  · exact Linear.true.congr fun i v => by simp [hp]

theorem Linear.forall_mem {α : Type*} (l : List α) {P : α → ι → V → Prop} (h : ∀ a ∈ l, Linear (P a)) : Linear fun i v => ∀ a ∈ l, P a i v := by
  induction l with
  | nil => exact Linear.true.congr fun i v => by simp
  | cons a l ih =>
    exact ((h a (List.mem_cons_self ..)).and (ih fun a ha => h a (List.mem_cons_of_mem _ ha))).congr fun i v => by simp

theorem Linear.forall_lt (n : Nat) {P : Nat → ι → V → Prop} (h : ∀ k < n, Linear (P k)) : Linear fun i v => ∀ k < n, P k i v :=
  (Linear.forall_mem (List.range n) fun k hk => h k (List.mem_range.1 hk)).congr fun i v => by simp

end

/-- the least of the numbers that satisfy finitely many inequalities, one of which is a lower bound -/
theorem least_number (U : List (ℚ × ℚ)) (hpos : ∃ u ∈ U, 0 < u.2) {c0 : ℚ} (h0 : ∀ u ∈ U, 0 ≤ u.1 + c0 * u.2) :
    ∃ u ∈ U, 0 < u.2 ∧ (∀ w ∈ U, 0 ≤ w.1 + (- u.1 / u.2) * w.2) ∧ ∀ c, (∀ w ∈ U, 0 ≤ w.1 + c * w.2) → - u.1 / u.2 ≤ c := by
  classical
  obtain ⟨u0, hu0, pos⟩ := hpos
  have hne : (U.filter fun u => 0 < u.2).toFinset.Nonempty := ⟨u0, by simp [hu0, pos]⟩
  obtain ⟨u, hu, hmax⟩ := Finset.exists_max_image _ (fun w : ℚ × ℚ => - w.1 / w.2) hne
  simp only [List.mem_toFinset, List.mem_filter, decide_eq_true_eq] at hu hmax
  have low : ∀ c, (∀ w ∈ U, 0 ≤ w.1 + c * w.2) → - u.1 / u.2 ≤ c := fun c hc => by
    rw [div_le_iff₀ hu.2]
    linarith [hc u hu.1]
  refine ⟨u, hu.1, hu.2, fun w hw => ?_, low⟩
  by_cases hw0 : 0 < w.2
  · have := hmax w ⟨hw, hw0⟩
    rw [div_le_iff₀ hw0] at this
    linarith
  · have := mul_le_mul_of_nonpos_right (low c0 h0) (not_lt.1 hw0)
    linarith [h0 w hw]

/-- a common denominator -/
theorem common_denominator : ∀ l : List ℚ, ∃ D : ℕ, 0 < D ∧ ∀ q ∈ l, ∃ n : ℤ, D * q = n
  | [] => ⟨1, one_pos, by simp⟩
  | q :: l => by
    obtain ⟨D, hD, h⟩ := common_denominator l
    refine ⟨D * q.den, Nat.mul_pos hD q.pos, fun p hp => ?_⟩
    rcases List.mem_cons.1 hp with rfl | hp
    · refine ⟨D * p.num, ?_⟩
      push_cast
      rw [mul_assoc, Rat.den_mul_eq_num]
    · obtain ⟨n, hn⟩ := h p hp
      refine ⟨n * q.den, ?_⟩
      push_cast
      rw [← hn]
      ring

section
variable {V ι : Type} [AddCommGroup V] [Module ℚ V]

/-- values that satisfy `P`, some quantities of which are whole -/
def Whole (Θ : List (V →ₗ[ℚ] ℚ)) (P : V → Prop) (v : V) : Prop := P v ∧ ∀ θ ∈ Θ, ∃ n : ℤ, θ v = n

/-- A lower bound for one `i` is one for all, when only right-hand sides depend on `i`. -/
theorem bounded_all {P : ι → V → Prop} {f : ι → V → ℚ} (Θ : List (V →ₗ[ℚ] ℚ)) (hP : Linear P) (hf : Affine f) {i : ι} (h1 : ∃ v, Whole Θ (P i) v)
    (h2 : ∃ m, ∀ v, Whole Θ (P i) v → m ≤ f i v) (j : ι) : ∃ m, ∀ v, P j v → m ≤ f j v := by
  obtain ⟨L, hL⟩ := hP
  obtain ⟨ψ, d, hψ⟩ := hf
  -- costs that can be reached, for all right-hand sides at once
  obtain ⟨U, hU⟩ := solvable_iff (R := (ι → ℚ) × ℚ) ((L.map fun q => (q.1, (q.2, 0))) ++ [(ψ, (0, 1)), (-ψ, (0, -1))])
  let ev : ι → ℚ → ((ι → ℚ) × ℚ) →ₗ[ℚ] ℚ := fun i c => (LinearMap.proj i).comp (LinearMap.fst ℚ (ι → ℚ) ℚ) + c • LinearMap.snd ℚ (ι → ℚ) ℚ
  have hev : ∀ i c r, ev i c r = r.1 i + c * r.2 := fun i c r => by simp [ev]
  by_cases pos : ∃ u ∈ U, 0 < u.2
  · obtain ⟨u, hu, pos⟩ := pos
    refine ⟨- u.1 j / u.2 + d j, fun v hv => ?_⟩
    have := (hU (ev j (ψ v))).1 ⟨v, fun q hq => ?_⟩ u hu
    · rw [hev] at this
      rw [hψ, ← le_sub_iff_add_le, add_sub_cancel_right, div_le_iff₀ pos]
      linarith
    · simp only [List.mem_append, List.mem_map, List.mem_cons, List.not_mem_nil, or_false] at hq
      rcases hq with ⟨p, hp, rfl⟩ | rfl | rfl
      · rw [hev]
        simpa using (hL j v).1 hv p hp
      · simp [hev]
      · simp [hev]
  · -- a direction along which costs decrease without end
    exfalso
    push Not at pos
    obtain ⟨e, he⟩ := (hU (- LinearMap.snd ℚ (ι → ℚ) ℚ)).2 fun u hu => by
      simpa using pos u hu
    have a : ∀ q ∈ L, q.1 e ≤ 0 := fun q hq => by
      have := he (q.1, (q.2, 0)) (by simp only [List.mem_append, List.mem_map]; exact .inl ⟨q, hq, rfl⟩)
      simpa using this
    have b : ψ e ≤ -1 := by simpa using he (ψ, (0, 1)) (by simp)
    obtain ⟨D, hD, hΘ⟩ := common_denominator (Θ.map fun θ => θ e)
    obtain ⟨v, hv, hw⟩ := h1
    obtain ⟨m, hm⟩ := h2
    obtain ⟨N, hN⟩ := exists_nat_gt (f i v - m)
    have hD1 : (1 : ℚ) ≤ D := by exact_mod_cast hD
    have := hm (v + ((N : ℚ) * D) • e) ⟨(hL i _).2 fun q hq => ?_, fun θ hθ => ?_⟩
    · rw [hψ, map_add, map_smul, smul_eq_mul] at this
      rw [hψ] at hN
      have h3 : (N : ℚ) ≤ N * D := le_mul_of_one_le_right (Nat.cast_nonneg N) hD1
      have h4 := mul_le_mul_of_nonneg_left b (mul_nonneg (Nat.cast_nonneg (α := ℚ) N) (Nat.cast_nonneg D))
      linarith
    · rw [map_add, map_smul, smul_eq_mul]
      have := mul_nonpos_of_nonneg_of_nonpos (mul_nonneg (Nat.cast_nonneg (α := ℚ) N) (Nat.cast_nonneg D)) (a q hq)
      linarith [(hL i v).1 hv q hq]
    · obtain ⟨n, hn⟩ := hw θ hθ
      obtain ⟨k, hk⟩ := hΘ (θ e) (List.mem_map.2 ⟨θ, hθ, rfl⟩)
      refine ⟨n + N * k, ?_⟩
      rw [map_add, map_smul, smul_eq_mul, hn, mul_assoc, hk]
      push_cast
      ring

/-- Costs with a lower bound have a least value, also when some quantities must be whole. -/
theorem least_whole {P : V → Prop} {f : V → ℚ} (Θ : List (V →ₗ[ℚ] ℚ)) (hP : Linear fun (_ : Unit) => P) (hf : Affine fun (_ : Unit) => f)
    (h1 : ∃ v, Whole Θ P v) (h2 : ∃ m, ∀ v, Whole Θ P v → m ≤ f v) : ∃ c, LeastCost (Whole Θ P) f c := by
  classical
  obtain ⟨L, hL⟩ := hP
  obtain ⟨ψ, d, hψ⟩ := hf
  replace hL : ∀ v, P v ↔ _ := hL ()
  replace hψ : ∀ v, f v = _ := hψ ()
  let K := Θ.length
  -- costs that can be reached, for all values of the whole quantities at once
  obtain ⟨U, hU⟩ := solvable_iff (R := ℚ × (Fin K → ℚ) × ℚ) ((L.map fun q => (q.1, (q.2 (), (0 : Fin K → ℚ), (0 : ℚ)))) ++
    ((List.finRange K).map fun k => (Θ[k], ((0 : ℚ), Pi.single k (1 : ℚ), (0 : ℚ)))) ++
    ((List.finRange K).map fun k => (-Θ[k], ((0 : ℚ), Pi.single k (-1 : ℚ), (0 : ℚ)))) ++ [(ψ, (- d (), 0, 1)), (-ψ, (d (), 0, -1))])
  let ev : (Fin K → ℚ) → ℚ → (ℚ × (Fin K → ℚ) × ℚ) →ₗ[ℚ] ℚ := fun n c => LinearMap.fst ℚ ℚ ((Fin K → ℚ) × ℚ) +
    (∑ k, n k • (LinearMap.proj k)).comp ((LinearMap.fst ℚ (Fin K → ℚ) ℚ).comp (LinearMap.snd ℚ ℚ ((Fin K → ℚ) × ℚ))) +
    c • (LinearMap.snd ℚ (Fin K → ℚ) ℚ).comp (LinearMap.snd ℚ ℚ ((Fin K → ℚ) × ℚ))
  have hev : ∀ n c r, ev n c r = (r.1 + ∑ k, n k * r.2.1 k) + c * r.2.2 := fun n c r => by simp [ev]
  have reach : ∀ (n : Fin K → ℚ) c, (∃ v, P v ∧ (∀ k : Fin K, Θ[k] v = n k) ∧ f v = c) ↔ ∀ u ∈ U, 0 ≤ (u.1 + ∑ k, n k * u.2.1 k) + c * u.2.2 := by
    intro n c
    have := hU (ev n c)
    simp only [hev] at this
    rw [← this]
    refine exists_congr fun v => ?_
    simp only [List.mem_append, List.mem_map, List.mem_cons, List.not_mem_nil, or_false, List.mem_finRange, true_and]
    rw [hL, hψ]
    constructor
    · rintro ⟨a, b, e⟩ q (((⟨p, hp, rfl⟩ | ⟨k, rfl⟩) | ⟨k, rfl⟩) | rfl | rfl)
      · simpa using a p hp
      · simpa [Pi.single_apply] using (b k).le
      · simpa [Pi.single_apply] using (b k).ge
      · simp; linarith
      · simp; linarith
    · intro a
      refine ⟨fun q hq => by simpa using a _ (.inl (.inl (.inl ⟨q, hq, rfl⟩))), fun k => le_antisymm ?_ ?_, ?_⟩
      · simpa [Pi.single_apply] using a _ (.inl (.inl (.inr ⟨k, rfl⟩)))
      · simpa [Pi.single_apply] using a _ (.inl (.inr ⟨k, rfl⟩))
      · have a1 := a _ (.inr (.inl rfl))
        have a2 := a _ (.inr (.inr rfl))
        simp at a1 a2
        linarith
  have whole : ∀ v, Whole Θ P v ↔ P v ∧ ∃ n : Fin K → ℤ, ∀ k : Fin K, Θ[k] v = n k := by
    intro v
    refine and_congr_right fun _ => ⟨fun h => ?_, fun ⟨n, h⟩ θ hθ => ?_⟩
    · choose n hn using fun k : Fin K => h Θ[k] (List.getElem_mem _)
      exact ⟨n, hn⟩
    · obtain ⟨k, hk, rfl⟩ := List.getElem_of_mem hθ
      exact ⟨n ⟨k, hk⟩, h ⟨k, hk⟩⟩
  obtain ⟨m, hm⟩ := h2
  obtain ⟨v0, hv0⟩ := h1
  -- one of the conditions is a lower bound
  have pos : ∃ u ∈ U, 0 < u.2.2 := by
    by_contra hno
    push Not at hno
    obtain ⟨p, n, hn⟩ := (whole v0).1 hv0
    have a := (reach (fun k => n k) (f v0)).1 ⟨v0, p, hn, rfl⟩
    obtain ⟨v', p', hn', e⟩ := (reach (fun k => n k) (min (f v0) (m - 1))).2 fun u hu => by
      have := mul_le_mul_of_nonpos_right (min_le_left (f v0) (m - 1)) (hno u hu)
      linarith [a u hu]
    have := hm v' ((whole v').2 ⟨p', n, hn'⟩)
    rw [e] at this
    linarith [min_le_right (f v0) (m - 1)]
  -- the least costs for given values of the whole quantities have a common denominator
  obtain ⟨D, hD, den⟩ := common_denominator ((U.map fun u => u.1 / u.2.2) ++ U.flatMap fun u => (List.finRange K).map fun k => u.2.1 k / u.2.2)
  have hD0 : (0 : ℚ) < D := by exact_mod_cast hD
  have each : ∀ v, Whole Θ P v → ∃ (z : ℤ), (z : ℚ) / D ≤ f v ∧ ∃ w, Whole Θ P w ∧ f w = (z : ℚ) / D := by
    intro v hv
    obtain ⟨p, n, hn⟩ := (whole v).1 hv
    have a := (reach (fun k => n k) (f v)).1 ⟨v, p, hn, rfl⟩
    obtain ⟨q, hq, q0, hreach, hleast⟩ := least_number (U.map fun u => (u.1 + ∑ k, (n k : ℚ) * u.2.1 k, u.2.2))
      (by obtain ⟨u, hu, h⟩ := pos; exact ⟨_, List.mem_map.2 ⟨u, hu, rfl⟩, h⟩) (c0 := f v)
      (by intro w hw; obtain ⟨u, hu, rfl⟩ := List.mem_map.1 hw; exact a u hu)
    obtain ⟨u, hu, rfl⟩ := List.mem_map.1 hq
    simp only at hreach hleast q0
    obtain ⟨z1, hz1⟩ := den (u.1 / u.2.2) (by simp only [List.mem_append, List.mem_map]; exact .inl ⟨u, hu, rfl⟩)
    have hk : ∀ k : Fin K, ∃ z : ℤ, D * (u.2.1 k / u.2.2) = z := fun k => den _ (by
      simp only [List.mem_append, List.mem_flatMap, List.mem_map]
      exact .inr ⟨u, hu, k, List.mem_finRange k, rfl⟩)
    choose z2 hz2 using hk
    have hz : - (u.1 + ∑ k, (n k : ℚ) * u.2.1 k) / u.2.2 = ((- (z1 + ∑ k, n k * z2 k) : ℤ) : ℚ) / D := by
      rw [eq_div_iff hD0.ne']
      push_cast
      rw [← hz1]
      simp only [← hz2]
      rw [neg_div, add_div, div_eq_mul_inv (∑ k, _), Finset.sum_mul, neg_mul, add_mul, Finset.sum_mul]
      congr 2
      · ring
      · exact Finset.sum_congr rfl fun k _ => by ring
    refine ⟨- (z1 + ∑ k, n k * z2 k), ?_, ?_⟩
    · rw [← hz]
      refine hleast _ fun w hw => ?_
      obtain ⟨u', hu', rfl⟩ := List.mem_map.1 hw
      exact a u' hu'
    · obtain ⟨w, p', hn', e⟩ := (reach (fun k => n k) (- (u.1 + ∑ k, (n k : ℚ) * u.2.1 k) / u.2.2)).2 fun u' hu' =>
        hreach _ (List.mem_map.2 ⟨u', hu', rfl⟩)
      exact ⟨w, (whole w).2 ⟨p', n, hn'⟩, e.trans hz⟩
  -- the least of them
  obtain ⟨z, ⟨w, hw, e⟩, least⟩ := Int.exists_least_of_bdd (P := fun z : ℤ => ∃ w, Whole Θ P w ∧ f w = (z : ℚ) / D)
    ⟨⌊m * D⌋, fun z ⟨w, hw, e⟩ => by
      have := hm w hw
      rw [e, le_div_iff₀ hD0] at this
      exact_mod_cast (Int.floor_le (m * D)).trans this⟩
    (by obtain ⟨z, -, h⟩ := each v0 hv0; exact ⟨z, h⟩)
  refine ⟨(z : ℚ) / D, ⟨w, hw, e⟩, fun v hv => ?_⟩
  obtain ⟨z', h1, h2⟩ := each v hv
  refine le_trans ?_ h1
  have : (z : ℚ) ≤ z' := by exact_mod_cast least z' h2
  gcongr

/-- **Least costs exist.** Take conditions that are finitely many linear inequalities and costs that are linear, both with the same coefficients for all
`i`, and quantities that must be whole.  If for one `i` the conditions can be met and the costs have a lower bound, then for all `i` for which the
conditions can be met there is a least cost. -/
theorem leastCost_exists {P : ι → V → Prop} {f : ι → V → ℚ} (Θ : List (V →ₗ[ℚ] ℚ)) (hP : Linear P) (hf : Affine f) {i : ι} (h1 : ∃ v, Whole Θ (P i) v)
    (h2 : ∃ m, ∀ v, Whole Θ (P i) v → m ≤ f i v) {j : ι} (h3 : ∃ v, Whole Θ (P j) v) : ∃ c, LeastCost (Whole Θ (P j)) (f j) c := by
  obtain ⟨m, hm⟩ := bounded_all Θ hP hf h1 h2 j
  obtain ⟨L, hL⟩ := hP
  obtain ⟨ψ, d, hψ⟩ := hf
  exact least_whole Θ ⟨L.map fun q => (q.1, fun _ => q.2 j), fun _ v => by simp only [hL, List.forall_mem_map]⟩ ⟨ψ, fun _ => d j, fun _ v => hψ j v⟩ h3 ⟨m, fun v hv => hm v hv.1⟩

/-- The conditions `Q i` are finitely many linear inequalities, with the same coefficients for all `i`, and finitely many quantities that are whole. -/
def MixedLinear (Q : ι → V → Prop) : Prop := ∃ (Θ : List (V →ₗ[ℚ] ℚ)) (P : ι → V → Prop), Linear P ∧ ∀ i v, Q i v ↔ Whole Θ (P i) v

theorem Linear.mixed {P : ι → V → Prop} (h : Linear P) : MixedLinear P := ⟨[], P, h, fun i v => by simp [Whole]⟩

theorem MixedLinear.whole (θ : V →ₗ[ℚ] ℚ) : MixedLinear fun (_ : ι) v => ∃ n : ℤ, θ v = n :=
  ⟨[θ], fun _ _ => True, Linear.true, fun i v => by simp [Whole]⟩

theorem MixedLinear.congr {P Q : ι → V → Prop} (h : ∀ i v, Q i v ↔ P i v) (hP : MixedLinear P) : MixedLinear Q := by
  obtain ⟨Θ, R, hR, k⟩ := hP
  exact ⟨Θ, R, hR, fun i v => (h i v).trans (k i v)⟩

theorem MixedLinear.and {P Q : ι → V → Prop} (hP : MixedLinear P) (hQ : MixedLinear Q) : MixedLinear fun i v => P i v ∧ Q i v := by
  obtain ⟨Θ, R, hR, h⟩ := hP
  obtain ⟨Ξ, S, hS, k⟩ := hQ
  refine ⟨Θ ++ Ξ, _, hR.and hS, fun i v => ?_⟩
  simp only [h, k, Whole, List.mem_append]
  exact ⟨fun a => ⟨⟨a.1.1, a.2.1⟩, fun θ hθ => hθ.elim (a.1.2 θ) (a.2.2 θ)⟩,
    fun a => ⟨⟨a.1.1, fun θ hθ => a.2 θ (.inl hθ)⟩, a.1.2, fun θ hθ => a.2 θ (.inr hθ)⟩⟩

theorem MixedLinear.imp {p : Prop} {P : ι → V → Prop} (h : p → MixedLinear P) : MixedLinear fun i v => p → P i v := by
  by_cases hp : p
  · exact (h hp).congr fun i v => by simp [hp]
  · exact Linear.true.mixed.congr fun i v => by simp [hp]

theorem MixedLinear.forall_mem {α : Type*} (l : List α) {P : α → ι → V → Prop} (h : ∀ a ∈ l, MixedLinear (P a)) :
    MixedLinear fun i v => ∀ a ∈ l, P a i v := by
  induction l with
  | nil => exact Linear.true.mixed.congr fun i v => by simp
  | cons a l ih =>
    exact ((h a (List.mem_cons_self ..)).and (ih fun a ha => h a (List.mem_cons_of_mem _ ha))).congr fun i v => by simp

theorem MixedLinear.forall_lt (n : Nat) {P : Nat → ι → V → Prop} (h : ∀ k < n, MixedLinear (P k)) : MixedLinear fun i v => ∀ k < n, P k i v :=
  (MixedLinear.forall_mem (List.range n) fun k hk => h k (List.mem_range.1 hk)).congr fun i v => by simp

/-- If for one `i` there is a least cost, there is one for all `i` for which the conditions can be met. -/
theorem MixedLinear.least {Q : ι → V → Prop} {f : ι → V → ℚ} (hQ : MixedLinear Q) (hf : Affine f) {i j : ι} (h1 : ∃ v, Q i v)
    (h2 : ∃ m, ∀ v, Q i v → m ≤ f i v) (h3 : ∃ v, Q j v) : ∃ c, LeastCost (Q j) (f j) c := by
  obtain ⟨Θ, P, hP, h⟩ := hQ
  have e : ∀ i, Q i = Whole Θ (P i) := fun i => funext fun v => propext (h i v)
  rw [e] at h1 h2 h3 ⊢
  exact leastCost_exists Θ hP hf h1 h2 h3

end
end Verif.Programs
