import Verif.Spec.Served
import Verif.Lemmas.ShippedBuild
import Mathlib.Tactic.Linarith
import Mathlib.Algebra.Order.BigOperators.Group.Finset

/-!
# Costs of the shipped models have lower bounds
-/

namespace Verif
open Verif.Shipped

/-! ## Values with a lower bound, and bounded values -/

/-- `f` has a lower bound on `G` -/
def LowOn (G : Readings → Prop) (f : Readings → ℚ) : Prop := ∃ m, ∀ R, G R → m ≤ f R

/-- `f` is bounded on `G` -/
def BdOn (G : Readings → Prop) (f : Readings → ℚ) : Prop := ∃ m, ∀ R, G R → |f R| ≤ m

section
variable {G : Readings → Prop} {f g l u : Readings → ℚ}

theorem LowOn.add (hf : LowOn G f) (hg : LowOn G g) : LowOn G fun R => f R + g R := by
  obtain ⟨a, ha⟩ := hf
  obtain ⟨b, hb⟩ := hg
  exact ⟨a + b, fun R h => add_le_add (ha R h) (hb R h)⟩

theorem LowOn.zero : LowOn G fun _ => 0 := ⟨0, fun _ _ => le_rfl⟩

theorem LowOn.nonneg (h : ∀ R, G R → 0 ≤ f R) : LowOn G f := ⟨0, h⟩

theorem BdOn.low (h : BdOn G f) : LowOn G f := by
  obtain ⟨m, hm⟩ := h
  exact ⟨-m, fun R hR => (abs_le.1 (hm R hR)).1⟩

theorem BdOn.mul (hf : BdOn G f) (hg : BdOn G g) : BdOn G fun R => f R * g R := by
  obtain ⟨a, ha⟩ := hf
  obtain ⟨b, hb⟩ := hg
  exact ⟨a * b, fun R h => by
    rw [abs_mul]
    exact mul_le_mul (ha R h) (hb R h) (abs_nonneg _) ((abs_nonneg _).trans (ha R h))⟩

theorem BdOn.sub (hf : BdOn G f) (hg : BdOn G g) : BdOn G fun R => f R - g R := by
  obtain ⟨a, ha⟩ := hf
  obtain ⟨b, hb⟩ := hg
  exact ⟨a + b, fun R h => (abs_sub _ _).trans (add_le_add (ha R h) (hb R h))⟩

theorem BdOn.between (hl : BdOn G l) (hu : BdOn G u) (h : ∀ R, G R → l R ≤ f R ∧ f R ≤ u R) : BdOn G f := by
  obtain ⟨a, ha⟩ := hl
  obtain ⟨b, hb⟩ := hu
  refine ⟨a + b, fun R hR => abs_le.2 ?_⟩
  obtain ⟨h1, h2⟩ := h R hR
  have ka := (abs_nonneg _).trans (ha R hR)
  have kb := (abs_nonneg _).trans (hb R hR)
  have h3 := (abs_le.1 (ha R hR)).1
  have h4 := (abs_le.1 (hb R hR)).2
  exact ⟨by linarith, by linarith⟩

theorem BdOn.const (a : ℚ) : BdOn G fun _ => a := ⟨|a|, fun _ _ => le_rfl⟩

theorem BdOn.congr (hf : BdOn G f) (h : ∀ R, G R → g R = f R) : BdOn G g := by
  obtain ⟨a, ha⟩ := hf
  exact ⟨a, fun R hR => by rw [h R hR]; exact ha R hR⟩

theorem LowOn.sum {ι : Type} (z : Finset ι) {f : ι → Readings → ℚ} (h : ∀ i ∈ z, LowOn G (f i)) : LowOn G fun R => ∑ i ∈ z, f i R := by
  choose! m hm using h
  exact ⟨∑ i ∈ z, m i, fun R hR => Finset.sum_le_sum fun i hi => hm i hi R hR⟩

end

/-- Readings with the given parameters, in which the component satisfies its rules; the block is cyclic. -/
structure Rules.Working (r : Rules) (T S : Nat) (p : String → Int → Int → ℚ) (R : Readings) : Prop where
  steps : R.T = T
  scenarios : R.S = S
  parameters : R.p = p
  cyclic : ∀ n t s, R.v n t s = R.v n (t % T) s
  accepts : ∀ t s : Nat, t < T → s < S → r.accepts R t s

section
variable {r : Rules} {T S : Nat} {p : String → Int → Int → ℚ}

theorem LowOn.expected {f : Readings → Int → Int → ℚ} (h : ∀ t s : Nat, t < T → s < S → LowOn (r.Working T S p) fun R => f R t s) :
    LowOn (r.Working T S p) fun R => R.expectedTotal (f R) := by
  have := LowOn.sum (G := r.Working T S p) (Finset.range S) (f := fun s R => ∑ t ∈ Finset.range T, f R (t : Nat) (s : Nat)) fun s hs =>
    LowOn.sum (Finset.range T) fun t ht => h t s (Finset.mem_range.1 ht) (Finset.mem_range.1 hs)
  obtain ⟨m, hm⟩ := this
  refine ⟨m / S, fun R hR => ?_⟩
  show m / S ≤ (∑ s ∈ Finset.range R.S, ∑ t ∈ Finset.range R.T, f R t s) / R.S
  rw [hR.steps, hR.scenarios]
  exact div_le_div_of_nonneg_right (hm R hR) (Nat.cast_nonneg S)

theorem BdOn.par (n : String) (t s : Int) : BdOn (r.Working T S p) fun R => R.p n t s :=
  (BdOn.const (p n t s)).congr fun R hR => by rw [hR.parameters]

/-- a factor of a price and of an amount that are not negative -/
theorem LowOn.paid {f : Readings → ℚ} (n : String) (t s : Nat) (hp : 0 ≤ p n t s) (h : ∀ R, r.Working T S p R → 0 ≤ f R) :
    LowOn (r.Working T S p) fun R => R.p n t s * f R :=
  LowOn.nonneg fun R hR => mul_nonneg (by rw [hR.parameters]; exact hp) (h R hR)

end

section
variable {T S : Nat} {p : String → Int → Int → ℚ}

/-- the prices of energy that is spilled or not supplied are not negative -/
def Paid (T S : Nat) (p : String → Int → Int → ℚ) : Prop :=
  ∀ n ∈ ["spillage_cost", "ens_cost", "spill_cost"], ∀ t s : Nat, t < T → s < S → 0 ≤ p n t s

theorem low_area (hp : Paid T S p) : LowOn (Rules.area.Working T S p) Rules.area.cost := by
  have acc : ∀ {t s : Nat}, t < T → s < S → ∀ R, Rules.area.Working T S p R → 0 ≤ R.v "spillage" t s ∧ 0 ≤ R.v "unsupplied_energy" t s :=
    fun ht hs R hR => ⟨(hR.accepts _ _ ht hs).1, (hR.accepts _ _ ht hs).2.1⟩
  exact LowOn.expected fun t s ht hs =>
    (LowOn.paid _ _ _ (hp "spillage_cost" (by simp) t s ht hs) fun R hR => (acc ht hs R hR).1).add
      (LowOn.paid _ _ _ (hp "ens_cost" (by simp) t s ht hs) fun R hR => (acc ht hs R hR).2)

theorem low_thermal : LowOn (Rules.thermal.Working T S p) Rules.thermal.cost := by
  have acc : ∀ {t s : Nat}, t < T → s < S → ∀ R, Rules.thermal.Working T S p R →
      (R.p "p_min_cluster" t s ≤ R.v "generation" t s ∧ R.v "generation" t s ≤ R.p "p_max_cluster" t s) ∧
      (R.p "nb_units_min" t s ≤ R.v "nb_units_on" t s ∧ R.v "nb_units_on" t s ≤ R.p "nb_units_max" t s) ∧
      0 ≤ R.v "nb_starting" t s ∧ R.v "nb_starting" t s ≤ R.p "nb_units_max" t s := fun ht hs R hR => by
    obtain ⟨a, ⟨b, c, -⟩, ⟨d, e, -⟩, -⟩ := hR.accepts _ _ ht hs
    exact ⟨a, ⟨b, c⟩, d, e⟩
  refine LowOn.expected fun t s ht hs => LowOn.add (LowOn.add (BdOn.low ?_) (BdOn.low ?_)) (BdOn.low ?_)
  · exact (BdOn.par _ _ _).mul (BdOn.between (BdOn.par "p_min_cluster" t s) (BdOn.par "p_max_cluster" t s) fun R hR => (acc ht hs R hR).1)
  · exact (BdOn.par _ _ _).mul (BdOn.between (BdOn.const 0) (BdOn.par "nb_units_max" t s) fun R hR => (acc ht hs R hR).2.2)
  · exact (BdOn.par _ _ _).mul (BdOn.between (BdOn.par "nb_units_min" t s) (BdOn.par "nb_units_max" t s) fun R hR => (acc ht hs R hR).2.1)

theorem low_dsr : LowOn (Rules.dsr.Working T S p) Rules.dsr.cost := by
  have acc : ∀ {t s : Nat}, t < T → s < S → ∀ R, Rules.dsr.Working T S p R → 0 ≤ R.v "curtailment" t s ∧ R.v "curtailment" t s ≤ R.p "max_load" t s :=
    fun ht hs R hR => hR.accepts _ _ ht hs
  exact LowOn.expected fun t s ht hs => BdOn.low ((BdOn.par _ _ _).mul (BdOn.between (BdOn.const 0) (BdOn.par "max_load" t s) (acc ht hs)))

theorem low_battery : LowOn (Rules.battery.Working T S p) Rules.battery.cost := by
  have acc : ∀ {t s : Nat}, t < T → s < S → ∀ R, Rules.battery.Working T S p R → 0 ≤ R.v "p_injection" t s ∧
      R.v "p_injection" t s ≤ R.p "p_max_injection_modulation" t s * R.p "injection_nominal_capacity" t s := fun ht hs R hR => (hR.accepts _ _ ht hs).1
  exact LowOn.expected fun t s ht hs => BdOn.low ((BdOn.par _ _ _).mul (BdOn.between (BdOn.const 0)
    ((BdOn.par "p_max_injection_modulation" t s).mul (BdOn.par "injection_nominal_capacity" t s)) (acc ht hs)))

theorem low_generator (hT : 0 < T) (hS : 0 < S) : LowOn (Rules.generator.Working T S p) Rules.generator.cost := by
  have acc : ∀ {t s : Nat}, t < T → s < S → ∀ R, Rules.generator.Working T S p R →
      (R.p "p_nom_min" t s ≤ R.v "p_nom" t s ∧ R.v "p_nom" t s ≤ R.p "p_nom_max" t s) ∧
      R.p "p_min_pu" t s * R.v "p_nom" t s ≤ R.v "p" t s ∧ R.v "p" t s ≤ R.p "p_max_pu" t s * R.v "p_nom" t s := fun ht hs R hR => by
    obtain ⟨a, b, c, -⟩ := hR.accepts _ _ ht hs
    exact ⟨a, b, c⟩
  have nom : ∀ t s : Nat, t < T → s < S → BdOn (Rules.generator.Working T S p) fun R => R.v "p_nom" t s := fun t s ht hs =>
    BdOn.between (BdOn.par "p_nom_min" t s) (BdOn.par "p_nom_max" t s) fun R hR => (acc ht hs R hR).1
  refine LowOn.add (LowOn.expected fun t s ht hs => BdOn.low ((BdOn.par _ _ _).mul ?_)) (BdOn.low ((BdOn.par _ _ _).mul (nom 0 0 hT hS)))
  exact BdOn.between ((BdOn.par "p_min_pu" t s).mul (nom t s ht hs)) ((BdOn.par "p_max_pu" t s).mul (nom t s ht hs)) fun R hR => (acc ht hs R hR).2

theorem low_link (hT : 0 < T) (hS : 0 < S) : LowOn (Rules.pypsaLink.Working T S p) Rules.pypsaLink.cost := by
  have acc : ∀ {t s : Nat}, t < T → s < S → ∀ R, Rules.pypsaLink.Working T S p R →
      (R.p "p_nom_min" t s ≤ R.v "p_nom" t s ∧ R.v "p_nom" t s ≤ R.p "p_nom_max" t s) ∧
      R.p "p_min_pu" t s * R.v "p_nom" t s ≤ R.v "p0" t s ∧ R.v "p0" t s ≤ R.p "p_max_pu" t s * R.v "p_nom" t s := fun ht hs R hR =>
    hR.accepts _ _ ht hs
  have nom : ∀ t s : Nat, t < T → s < S → BdOn (Rules.pypsaLink.Working T S p) fun R => R.v "p_nom" t s := fun t s ht hs =>
    BdOn.between (BdOn.par "p_nom_min" t s) (BdOn.par "p_nom_max" t s) fun R hR => (acc ht hs R hR).1
  refine LowOn.add (LowOn.expected fun t s ht hs => BdOn.low ((BdOn.par _ _ _).mul ?_)) (BdOn.low ((BdOn.par _ _ _).mul (nom 0 0 hT hS)))
  exact BdOn.between ((BdOn.par "p_min_pu" t s).mul (nom t s ht hs)) ((BdOn.par "p_max_pu" t s).mul (nom t s ht hs)) fun R hR => (acc ht hs R hR).2

theorem low_storageUnit (hT : 0 < T) (hS : 0 < S) (hp : Paid T S p) : LowOn (Rules.storageUnit.Working T S p) Rules.storageUnit.cost := by
  have acc : ∀ {t s : Nat}, t < T → s < S → ∀ R, Rules.storageUnit.Working T S p R →
      (R.p "p_nom_min" t s ≤ R.v "p_nom" t s ∧ R.v "p_nom" t s ≤ R.p "p_nom_max" t s) ∧
      (0 ≤ R.v "p_dispatch" t s ∧ R.v "p_dispatch" t s ≤ R.p "p_max_pu" t s * R.p "p_nom_max" t s) ∧
      (0 ≤ R.v "state_of_charge" t s ∧ R.v "state_of_charge" t s ≤ R.p "max_hours" t s * R.p "p_nom_max" t s) ∧
      0 ≤ R.v "spill" t s := fun ht hs R hR => by
    obtain ⟨a, -, b, c, d, -⟩ := hR.accepts _ _ ht hs
    exact ⟨a, b, c, d⟩
  have nom : ∀ t s : Nat, t < T → s < S → BdOn (Rules.storageUnit.Working T S p) fun R => R.v "p_nom" t s := fun t s ht hs =>
    BdOn.between (BdOn.par "p_nom_min" t s) (BdOn.par "p_nom_max" t s) fun R hR => (acc ht hs R hR).1
  refine LowOn.add (LowOn.expected fun t s ht hs => LowOn.add (LowOn.add (BdOn.low ((BdOn.par _ _ _).mul ?_)) ?_) (BdOn.low ((BdOn.par _ _ _).mul ?_)))
    (BdOn.low ((BdOn.par _ _ _).mul (nom 0 0 hT hS)))
  · exact BdOn.between (BdOn.const 0) ((BdOn.par "p_max_pu" t s).mul (BdOn.par "p_nom_max" t s)) fun R hR => (acc ht hs R hR).2.1
  · exact LowOn.paid _ _ _ (hp "spill_cost" (by simp) t s ht hs) fun R hR => (acc ht hs R hR).2.2.2
  · exact BdOn.between (BdOn.const 0) ((BdOn.par "max_hours" t s).mul (BdOn.par "p_nom_max" t s)) fun R hR => (acc ht hs R hR).2.2.1

theorem low_store (hT : 0 < T) (hS : 0 < S) : LowOn (Rules.store.Working T S p) Rules.store.cost := by
  have acc : ∀ {t s : Nat}, t < T → s < S → ∀ R, Rules.store.Working T S p R →
      (R.p "e_nom_min" t s ≤ R.v "e_nom" t s ∧ R.v "e_nom" t s ≤ R.p "e_nom_max" t s) ∧
      (R.p "e_min_pu" t s * R.v "e_nom" t s ≤ R.v "e" t s ∧ R.v "e" t s ≤ R.p "e_max_pu" t s * R.v "e_nom" t s) ∧
      R.v "e" t s = (1 - R.p "standing_loss" t s) * R.v "e" (t - 1) s - R.v "p" t s := fun ht hs R hR => by
    obtain ⟨a, b, c, d⟩ := hR.accepts _ _ ht hs
    exact ⟨a, ⟨b, c⟩, d⟩
  have nom : ∀ t s : Nat, t < T → s < S → BdOn (Rules.store.Working T S p) fun R => R.v "e_nom" t s := fun t s ht hs =>
    BdOn.between (BdOn.par "e_nom_min" t s) (BdOn.par "e_nom_max" t s) fun R hR => (acc ht hs R hR).1
  have en : ∀ t s : Nat, t < T → s < S → BdOn (Rules.store.Working T S p) fun R => R.v "e" t s := fun t s ht hs =>
    BdOn.between ((BdOn.par "e_min_pu" t s).mul (nom t s ht hs)) ((BdOn.par "e_max_pu" t s).mul (nom t s ht hs)) fun R hR => (acc ht hs R hR).2.1
  have before : ∀ t s : Nat, t < T → s < S → BdOn (Rules.store.Working T S p) fun R => R.v "e" (t - 1) s := fun t s ht hs => by
    have p0 := Int.emod_nonneg ((t : Int) - 1) (b := T) (by omega)
    have p1 := Int.emod_lt_of_pos ((t : Int) - 1) (b := T) (by omega)
    refine (en (((t : Int) - 1) % T).toNat s (by omega) hs).congr fun R hR => ?_
    rw [hR.cyclic, Int.toNat_of_nonneg p0]
  refine LowOn.add (LowOn.expected fun t s ht hs => LowOn.add (BdOn.low ((BdOn.par _ _ _).mul ?_)) (BdOn.low ((BdOn.par _ _ _).mul (en t s ht hs))))
    (BdOn.low ((BdOn.par _ _ _).mul (nom 0 0 hT hS)))
  exact ((((BdOn.const 1).sub (BdOn.par "standing_loss" t s)).mul (before t s ht hs)).sub (en t s ht hs)).congr fun R hR => by
    have := (acc ht hs R hR).2.2
    linarith

end

/-- the costs of a component of a shipped model have a lower bound -/
theorem Rules.named_low {ref : String} {r : Rules} (h : Rules.named ref = some r) (T S : Nat) (hT : 0 < T) (hS : 0 < S) (p : String → Int → Int → ℚ)
    (hp : Paid T S p) : LowOn (r.Working T S p) r.cost := by
  obtain ⟨m, hm⟩ := shipped_named h
  simp only [shippedModels, List.mem_cons, List.not_mem_nil, or_false, Prod.mk.injEq] at hm
  rcases hm with ⟨-, -, rfl⟩ | ⟨-, -, rfl⟩ | ⟨-, -, rfl⟩ | ⟨-, -, rfl⟩ | ⟨-, -, rfl⟩ | ⟨-, -, rfl⟩ | ⟨-, -, rfl⟩ | ⟨-, -, rfl⟩ | ⟨-, -, rfl⟩ | ⟨-, -, rfl⟩ |
    ⟨-, -, rfl⟩ | ⟨-, -, rfl⟩ | ⟨-, -, rfl⟩ | ⟨-, -, rfl⟩ | ⟨-, -, rfl⟩ | ⟨-, -, rfl⟩ | ⟨-, -, rfl⟩
  · exact low_area hp
  · exact LowOn.zero
  · exact LowOn.zero
  · exact LowOn.zero
  · exact low_thermal
  · exact LowOn.zero
  · exact low_dsr
  · exact LowOn.zero
  · exact low_battery
  · exact LowOn.zero
  · exact LowOn.zero
  · exact low_generator hT hS
  · exact low_link hT hS
  · exact low_storageUnit hT hS hp
  · exact low_store hT hS
  · exact LowOn.zero
  · exact LowOn.zero

end Verif
