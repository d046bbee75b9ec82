import Verif.Lemmas.PypsaMeaning

/-!
# The meaning of the study that a PyPSA network is converted to: rules and costs
-/

namespace Verif
open Verif.Props
namespace PConverted
variable {pf : String → Option Num} {n : PNetwork} {T : Nat} {s : PStudy}

theorem instance_line (h : PConverted pf n T s) (ty : PType) {r : PLine} (hr : r ∈ (n.table ty).rows) (v : String) (t : Int) :
    (s.input T).instance_ (r.1 ++ ty.suffix) v t 0 =
      (let dep := ((ty.rules.variables_.find? fun x => x.1 = v).map (·.2)).getD (false, false)
       ⟨r.1 ++ ty.suffix, v, if dep.1 then some (t % T) else none, if dep.2 then some 0 else none⟩) := by
  unfold StudyInput.instance_
  rw [h.rulesOf_line ty hr, length_steps]
  rfl

/-- the operational quantities -/
theorem var_at (h : PConverted pf n T s) (σ : TermKey → ℚ) {ty : PType} {r : PLine} (hr : r ∈ (n.table ty).rows) {v : String}
    (hv : (v, true, true) ∈ ty.rules.variables_) {t : Nat} (ht : t < T) :
    σ ((s.input T).instance_ (r.1 ++ ty.suffix) v t 0) = (planOf σ).value ty r.1 v t := by
  have key : ∀ ty : PType, ∀ x ∈ ty.rules.variables_, ty.rules.variables_.find? (fun y => y.1 = x.1) = some x := by
    intro ty; cases ty <;> decide
  rw [h.instance_line ty hr, key ty _ hv]
  show σ ⟨_, _, some ((t : Int) % T), some 0⟩ = σ ⟨_, _, some (t : Int), some 0⟩
  rw [Int.emod_eq_of_lt (Int.natCast_nonneg t) (by exact_mod_cast ht)]

/-- and those of the snapshot before -/
theorem var_before (h : PConverted pf n T s) (σ : TermKey → ℚ) {ty : PType} {r : PLine} (hr : r ∈ (n.table ty).rows) {v : String}
    (hv : (v, true, true) ∈ ty.rules.variables_) {t : Nat} (ht : t < T) :
    σ ((s.input T).instance_ (r.1 ++ ty.suffix) v (t - 1) 0) = (planOf σ).value ty r.1 v ((t + T - 1) % T) := by
  have key : ∀ ty : PType, ∀ x ∈ ty.rules.variables_, ty.rules.variables_.find? (fun y => y.1 = x.1) = some x := by
    intro ty; cases ty <;> decide
  rw [h.instance_line ty hr, key ty _ hv]
  show σ ⟨_, _, some (((t : Int) - 1) % T), some 0⟩ = σ ⟨_, _, some (((t + T - 1) % T : Nat) : Int), some 0⟩
  have : (((t + T - 1) % T : Nat) : Int) = ((t : Int) - 1) % T := by
    rw [Int.natCast_mod, Nat.cast_sub (by omega)]
    push_cast
    rw [show (t : Int) + T - 1 = (t - 1) + T by ring, Int.add_emod_right]
  rw [this]

/-- the capacities -/
theorem var_nominal (h : PConverted pf n T s) (σ : TermKey → ℚ) {ty : PType} {r : PLine} (hr : r ∈ (n.table ty).rows)
    (hc : (ty.capacity, false, false) ∈ ty.rules.variables_) (t : Int) :
    σ ((s.input T).instance_ (r.1 ++ ty.suffix) ty.capacity t 0) = (planOf σ).nominal ty r.1 := by
  have key : ∀ ty : PType, ∀ x ∈ ty.rules.variables_, ty.rules.variables_.find? (fun y => y.1 = x.1) = some x := by
    intro ty; cases ty <;> decide
  rw [h.instance_line ty hr, key ty _ hc]
  rfl

theorem injection_eq (h : PConverted pf n T s) (σ : TermKey → ℚ) {r' : PLine} (hr' : r' ∈ (n.table .buses).rows) {t : Nat} (ht : t < T) :
    ((s.input T).readings σ r'.1).received "p_balance_port" "flow" t 0 = n.injection pf (planOf σ) r'.1 t := by
  rw [h.received_bus σ hr']
  have hm : ∀ {ty : PType} {side : String} {r : PLine}, r ∈ n.attached ty side r'.1 → r ∈ (n.table ty).rows := fun h => (List.mem_filter.1 h).1
  have hg : ((n.attached .generators "bus" r'.1).map fun r =>
      sentBy .generators "p_balance_port" "flow" ((s.input T).own σ (r.1 ++ PType.suffix .generators)) t) =
      (n.attached .generators "bus" r'.1).map fun r => n.attr pf .generators r "sign" t * (planOf σ).value .generators r.1 "p" t := by
    refine List.map_congr_left fun r hr => ?_
    have hr := hm hr
    show (s.input T).parameter _ "sign" t 0 * σ ((s.input T).instance_ _ "p" t 0) = _
    rw [h.var_at σ hr (by decide) ht, h.parameter_eq hr (a := ("sign", "sign")) (by decide) ht, used_plain (by decide)]
  have hl : ((n.attached .loads "bus" r'.1).map fun r =>
      sentBy .loads "p_balance_port" "flow" ((s.input T).own σ (r.1 ++ PType.suffix .loads)) t) =
      (n.attached .loads "bus" r'.1).map fun r => n.attr pf .loads r "sign" t * n.attr pf .loads r "p_set" t := by
    refine List.map_congr_left fun r hr => ?_
    have hr := hm hr
    show (s.input T).parameter _ "sign" t 0 * (s.input T).parameter _ "p_set" t 0 = _
    rw [h.parameter_eq hr (a := ("p_set", "p_set")) (by decide) ht, h.parameter_eq hr (a := ("sign", "sign")) (by decide) ht,
      used_plain (by decide), used_plain (by decide)]
  have hk0 : ((n.attached .links "bus0" r'.1).map fun r =>
      sentBy .links "p0_port" "flow" ((s.input T).own σ (r.1 ++ PType.suffix .links)) t) =
      (n.attached .links "bus0" r'.1).map fun r => - (planOf σ).value .links r.1 "p0" t := by
    refine List.map_congr_left fun r hr => ?_
    have hr := hm hr
    show - σ ((s.input T).instance_ _ "p0" t 0) = _
    rw [h.var_at σ hr (by decide) ht]
  have hk1 : ((n.attached .links "bus1" r'.1).map fun r =>
      sentBy .links "p1_port" "flow" ((s.input T).own σ (r.1 ++ PType.suffix .links)) t) =
      (n.attached .links "bus1" r'.1).map fun r => n.attr pf .links r "efficiency" t * (planOf σ).value .links r.1 "p0" t := by
    refine List.map_congr_left fun r hr => ?_
    have hr := hm hr
    show (s.input T).parameter _ "efficiency" t 0 * σ ((s.input T).instance_ _ "p0" t 0) = _
    rw [h.var_at σ hr (by decide) ht, h.parameter_eq hr (a := ("efficiency", "efficiency")) (by decide) ht, used_plain (by decide)]
  have hu : ((n.attached .storageUnits "bus" r'.1).map fun r =>
      sentBy .storageUnits "p_balance_port" "flow" ((s.input T).own σ (r.1 ++ PType.suffix .storageUnits)) t) =
      (n.attached .storageUnits "bus" r'.1).map fun r =>
        (planOf σ).value .storageUnits r.1 "p_dispatch" t - (planOf σ).value .storageUnits r.1 "p_store" t := by
    refine List.map_congr_left fun r hr => ?_
    have hr := hm hr
    show σ ((s.input T).instance_ _ "p_dispatch" t 0) - σ ((s.input T).instance_ _ "p_store" t 0) = _
    rw [h.var_at σ hr (by decide) ht, h.var_at σ hr (by decide) ht]
  have hs : ((n.attached .stores "bus" r'.1).map fun r =>
      sentBy .stores "p_balance_port" "flow" ((s.input T).own σ (r.1 ++ PType.suffix .stores)) t) =
      (n.attached .stores "bus" r'.1).map fun r => (planOf σ).value .stores r.1 "p" t := by
    refine List.map_congr_left fun r hr => ?_
    have hr := hm hr
    show σ ((s.input T).instance_ _ "p" t 0) = _
    rw [h.var_at σ hr (by decide) ht]
  unfold pypsaKinds
  simp only [List.map_cons, List.map_nil, List.sum_cons, List.sum_nil, hg, hl, hk0, hk1, hu, hs, add_zero, zero_add]
  unfold PNetwork.injection
  rw [show (fun r : PLine => - (planOf σ).value .links r.1 "p0" t) = Neg.neg ∘ fun r : PLine => (planOf σ).value .links r.1 "p0" t from rfl,
    ← List.map_map, ← List.sum_neg]
  ring

theorem emitted_eq (h : PConverted pf n T s) (σ : TermKey → ℚ) {r' : PLine} (hr' : r' ∈ n.globalConstraints.rows) {t : Nat} (ht : t < T) :
    ((s.input T).readings σ r'.1).received "emission_port" "emission" t 0 = n.emitted pf (planOf σ) t := by
  rw [h.received_limit σ hr']
  unfold PNetwork.emitted
  congr 1
  refine List.map_congr_left fun r hr => ?_
  have hr := (List.mem_filter.1 hr).1
  show σ ((s.input T).instance_ (r.1 ++ PType.suffix .generators) "p" t 0) *
    (s.input T).parameter (r.1 ++ PType.suffix .generators) "emission_factor" t 0 /
    (s.input T).parameter (r.1 ++ PType.suffix .generators) "efficiency" t 0 = _
  rw [h.var_at σ hr (by decide) ht, h.parameter_eq hr (a := ("co2_emissions", "emission_factor")) (by decide) ht,
    h.parameter_eq hr (a := ("efficiency", "efficiency")) (by decide) ht, used_plain (a := "efficiency") (by decide),
    h.used_emission (capa := "p_nom") rfl (by decide)]

theorem accepts_iff (h : PConverted pf n T s) (σ : TermKey → ℚ) : (s.input T).Accepts σ ↔
    (∀ ty : PType, ∀ r ∈ (n.table ty).rows, ∀ t < T, ty.rules.accepts ((s.input T).readings σ (r.1 ++ ty.suffix)) t 0) ∧
    ∀ r ∈ n.globalConstraints.rows, ∀ t < T,
      (r.2.get? "sense" = some (.str "<=") → Rules.co2Max.accepts ((s.input T).readings σ r.1) t 0) ∧
      (r.2.get? "sense" = some (.str "==") → Rules.co2Eq.accepts ((s.input T).readings σ r.1) t 0) := by
  constructor
  · intro hA
    refine ⟨fun ty r hr t ht => ?_, fun r hr t ht => ?_⟩
    · obtain ⟨c, hc, h1⟩ := h.of_line ty hr
      have := hA c hc _ (model_of h1) t 0 (by rw [length_steps]; exact ht) Nat.one_pos
      rw [h1.1, ty.kind_suffix] at this
      exact this
    · obtain ⟨c, hc, h1⟩ := h.of_limit hr
      have := fun R hR => hA c hc R hR t 0 (by rw [length_steps]; exact ht) Nat.one_pos
      rw [h1.1] at this
      rcases h1.2.2.1 with ⟨hse, hm⟩ | ⟨hse, hm⟩
      · refine ⟨fun _ => this _ (by rw [hm]; rfl), fun h2 => ?_⟩
        rw [hse] at h2
        exact absurd h2 (by decide)
      · refine ⟨fun h2 => ?_, fun _ => this _ (by rw [hm]; rfl)⟩
        rw [hse] at h2
        exact absurd h2 (by decide)
  · rintro ⟨h1, h2⟩ c hc R hR t sc ht hsc
    have : sc = 0 := Nat.lt_one_iff.1 hsc
    subst this
    rw [length_steps] at ht
    rcases h.of_declared hc with ⟨ty, r, hr, hc⟩ | ⟨r, hr, hc⟩
    · rw [model_of hc] at hR
      cases hR
      rw [hc.1, ty.kind_suffix]
      exact h1 ty r hr t ht
    · rw [hc.1]
      rcases hc.2.2.1 with ⟨hse, hm⟩ | ⟨hse, hm⟩
      · have : R = Rules.co2Max := by rw [hm] at hR; exact (Option.some.inj hR).symm
        rw [this]
        exact (h2 r hr t ht).1 hse
      · have : R = Rules.co2Eq := by rw [hm] at hR; exact (Option.some.inj hR).symm
        rw [this]
        exact (h2 r hr t ht).2 hse

theorem nominal_iff (h : PConverted pf n T s) {ty : PType} {capa : String} (hc : ty.kind.capacity = some capa) (x : PPlan) (r : PLine) (t : Nat) :
    (used pf n ty r (capa ++ "_min") t ≤ x.nominal ty r.1 ∧ x.nominal ty r.1 ≤ used pf n ty r (capa ++ "_max") t) ↔
      PNetwork.NominalOk pf ty capa x r := by
  rw [h.used_bound hc (.inl rfl), h.used_bound hc (.inr rfl)]
  unfold PNetwork.NominalOk
  by_cases hf : Fixed capa r.2
  · simp only [if_pos hf, hf, true_implies, not_true, false_implies, and_true]
    exact ⟨fun h => le_antisymm h.2 h.1, fun h => ⟨h.ge, h.le⟩⟩
  · simp [hf]

theorem total_eq (h : PConverted pf n T s) (σ : TermKey → ℚ) {ty : PType} {r : PLine} (hr : r ∈ (n.table ty).rows) {v : String}
    (hv : (v, true, true) ∈ ty.rules.variables_) :
    Rules.total ((s.input T).readings σ (r.1 ++ ty.suffix)) (fun u => ((s.input T).readings σ (r.1 ++ ty.suffix)).v v u 0) =
      ∑ t ∈ Finset.range T, (planOf σ).value ty r.1 v t := by
  unfold Rules.total
  have hT : ((s.input T).readings σ (r.1 ++ ty.suffix)).T = T := length_steps
  rw [hT]
  exact Finset.sum_congr rfl fun t ht => h.var_at σ hr hv (Finset.mem_range.1 ht)

theorem generator_iff (h : PConverted pf n T s) (σ : TermKey → ℚ) {r : PLine} (hr : r ∈ (n.table .generators).rows) {t : Nat} (ht : t < T) :
    Rules.generator.accepts ((s.input T).readings σ (r.1 ++ PType.suffix .generators)) t 0 ↔
      PNetwork.NominalOk pf .generators "p_nom" (planOf σ) r ∧
      n.attr pf .generators r "p_min_pu" t * (planOf σ).nominal .generators r.1 ≤ (planOf σ).value .generators r.1 "p" t ∧
      (planOf σ).value .generators r.1 "p" t ≤ n.attr pf .generators r "p_max_pu" t * (planOf σ).nominal .generators r.1 ∧
      n.attr pf .generators r "e_sum_min" 0 ≤ ∑ t ∈ Finset.range T, (planOf σ).value .generators r.1 "p" t ∧
      ∑ t ∈ Finset.range T, (planOf σ).value .generators r.1 "p" t ≤ n.attr pf .generators r "e_sum_max" 0 := by
  have P : ∀ a ∈ PType.kind .generators |>.params, ((s.input T).readings σ (r.1 ++ PType.suffix .generators)).p a.2 t 0 =
      used pf n .generators r a.1 t := fun a ha => h.parameter_eq hr ha ht
  have V : ((s.input T).readings σ (r.1 ++ PType.suffix .generators)).v "p" t 0 = _ := h.var_at σ hr (v := "p") (by decide) ht
  have N : ((s.input T).readings σ (r.1 ++ PType.suffix .generators)).v "p_nom" t 0 = _ := h.var_nominal σ hr (by decide) t
  rw [h.attr_const (ty := .generators) (a := ("e_sum_min", "e_sum_min")) (by decide) (by decide) r 0, h.attr_const (ty := .generators) (a := ("e_sum_max", "e_sum_max")) (by decide) (by decide) r 0,
    ← h.attr_const (ty := .generators) (a := ("e_sum_min", "e_sum_min")) (by decide) (by decide) r t, ← h.attr_const (ty := .generators) (a := ("e_sum_max", "e_sum_max")) (by decide) (by decide) r t]
  simp only [Rules.generator]
  rw [h.total_eq σ hr (by decide), V, N, P ("p_nom_min", "p_nom_min") (by decide), P ("p_nom_max", "p_nom_max") (by decide), P ("p_min_pu", "p_min_pu") (by decide),
    P ("p_max_pu", "p_max_pu") (by decide), P ("e_sum_min", "e_sum_min") (by decide), P ("e_sum_max", "e_sum_max") (by decide)]
  simp only [used_plain (show plain .generators "p_min_pu" = true by decide), used_plain (show plain .generators "p_max_pu" = true by decide),
    used_plain (show plain .generators "e_sum_min" = true by decide), used_plain (show plain .generators "e_sum_max" = true by decide)]
  rw [show (used pf n .generators r "p_nom_min" t ≤ (planOf σ).nominal .generators r.1 ∧
    (planOf σ).nominal .generators r.1 ≤ used pf n .generators r "p_nom_max" t) ↔ _ from h.nominal_iff (capa := "p_nom") rfl (planOf σ) r t]

theorem link_iff (h : PConverted pf n T s) (σ : TermKey → ℚ) {r : PLine} (hr : r ∈ (n.table .links).rows) {t : Nat} (ht : t < T) :
    Rules.pypsaLink.accepts ((s.input T).readings σ (r.1 ++ PType.suffix .links)) t 0 ↔
      PNetwork.NominalOk pf .links "p_nom" (planOf σ) r ∧
      n.attr pf .links r "p_min_pu" t * (planOf σ).nominal .links r.1 ≤ (planOf σ).value .links r.1 "p0" t ∧
      (planOf σ).value .links r.1 "p0" t ≤ n.attr pf .links r "p_max_pu" t * (planOf σ).nominal .links r.1 := by
  have P : ∀ a ∈ PType.kind .links |>.params, ((s.input T).readings σ (r.1 ++ PType.suffix .links)).p a.2 t 0 =
      used pf n .links r a.1 t := fun a ha => h.parameter_eq hr ha ht
  have V : ((s.input T).readings σ (r.1 ++ PType.suffix .links)).v "p0" t 0 = _ := h.var_at σ hr (v := "p0") (by decide) ht
  have N : ((s.input T).readings σ (r.1 ++ PType.suffix .links)).v "p_nom" t 0 = _ := h.var_nominal σ hr (by decide) t
  simp only [Rules.pypsaLink]
  rw [V, N, P ("p_nom_min", "p_nom_min") (by decide), P ("p_nom_max", "p_nom_max") (by decide), P ("p_min_pu", "p_min_pu") (by decide),
    P ("p_max_pu", "p_max_pu") (by decide)]
  simp only [used_plain (show plain .links "p_min_pu" = true by decide), used_plain (show plain .links "p_max_pu" = true by decide)]
  rw [show (used pf n .links r "p_nom_min" t ≤ (planOf σ).nominal .links r.1 ∧
    (planOf σ).nominal .links r.1 ≤ used pf n .links r "p_nom_max" t) ↔ _ from h.nominal_iff (capa := "p_nom") rfl (planOf σ) r t]

theorem store_iff (h : PConverted pf n T s) (σ : TermKey → ℚ) {r : PLine} (hr : r ∈ (n.table .stores).rows) {t : Nat} (ht : t < T) :
    Rules.store.accepts ((s.input T).readings σ (r.1 ++ PType.suffix .stores)) t 0 ↔
      PNetwork.NominalOk pf .stores "e_nom" (planOf σ) r ∧
      n.attr pf .stores r "e_min_pu" t * (planOf σ).nominal .stores r.1 ≤ (planOf σ).value .stores r.1 "e" t ∧
      (planOf σ).value .stores r.1 "e" t ≤ n.attr pf .stores r "e_max_pu" t * (planOf σ).nominal .stores r.1 ∧
      (planOf σ).value .stores r.1 "e" t = (1 - n.attr pf .stores r "standing_loss" t) * (planOf σ).value .stores r.1 "e" ((t + T - 1) % T) -
        (planOf σ).value .stores r.1 "p" t := by
  have P : ∀ a ∈ PType.kind .stores |>.params, ((s.input T).readings σ (r.1 ++ PType.suffix .stores)).p a.2 t 0 =
      used pf n .stores r a.1 t := fun a ha => h.parameter_eq hr ha ht
  have V : ∀ v, (v, true, true) ∈ (PType.rules .stores).variables_ →
      ((s.input T).readings σ (r.1 ++ PType.suffix .stores)).v v t 0 = _ := fun v hv => h.var_at σ hr (v := v) hv ht
  have B : ((s.input T).readings σ (r.1 ++ PType.suffix .stores)).v "e" (t - 1) 0 = _ := h.var_before σ hr (v := "e") (by decide) ht
  have N : ((s.input T).readings σ (r.1 ++ PType.suffix .stores)).v "e_nom" t 0 = _ := h.var_nominal σ hr (by decide) t
  simp only [Rules.store]
  rw [V "e" (by decide), V "p" (by decide), B, N, P ("e_nom_min", "e_nom_min") (by decide), P ("e_nom_max", "e_nom_max") (by decide), P ("e_min_pu", "e_min_pu") (by decide),
    P ("e_max_pu", "e_max_pu") (by decide), P ("standing_loss", "standing_loss") (by decide)]
  simp only [used_plain (show plain .stores "e_min_pu" = true by decide), used_plain (show plain .stores "e_max_pu" = true by decide),
    used_plain (show plain .stores "standing_loss" = true by decide)]
  rw [show (used pf n .stores r "e_nom_min" t ≤ (planOf σ).nominal .stores r.1 ∧
    (planOf σ).nominal .stores r.1 ≤ used pf n .stores r "e_nom_max" t) ↔ _ from h.nominal_iff (capa := "e_nom") rfl (planOf σ) r t]

/-- the rules of storage units, as the shipped model has them -/
theorem storage_iff (h : PConverted pf n T s) (σ : TermKey → ℚ) {r : PLine} (hr : r ∈ (n.table .storageUnits).rows) {t : Nat} (ht : t < T) :
    let A := n.attr pf .storageUnits r
    let v := (planOf σ).value .storageUnits r.1
    let nom := (planOf σ).nominal .storageUnits r.1
    Rules.storageUnit.accepts ((s.input T).readings σ (r.1 ++ PType.suffix .storageUnits)) t 0 ↔
      PNetwork.NominalOk pf .storageUnits "p_nom" (planOf σ) r ∧
      (0 ≤ v "p_store" t ∧ v "p_store" t ≤ A "p_max_pu" t * used pf n .storageUnits r "p_nom_max" t) ∧
      (0 ≤ v "p_dispatch" t ∧ v "p_dispatch" t ≤ A "p_max_pu" t * used pf n .storageUnits r "p_nom_max" t) ∧
      (0 ≤ v "state_of_charge" t ∧ v "state_of_charge" t ≤ A "max_hours" t * used pf n .storageUnits r "p_nom_max" t) ∧
      0 ≤ v "spill" t ∧ v "p_store" t ≤ A "p_max_pu" t * nom ∧ v "state_of_charge" t ≤ A "max_hours" t * nom ∧
      v "state_of_charge" t = (1 - A "standing_loss" t) * v "state_of_charge" ((t + T - 1) % T) +
        A "efficiency_store" t * v "p_store" t - v "p_dispatch" t / A "efficiency_dispatch" t + A "inflow" t - v "spill" t := by
  intro A v nom
  have P : ∀ a ∈ PType.kind .storageUnits |>.params, ((s.input T).readings σ (r.1 ++ PType.suffix .storageUnits)).p a.2 t 0 =
      used pf n .storageUnits r a.1 t := fun a ha => h.parameter_eq hr ha ht
  have V : ∀ v, (v, true, true) ∈ (PType.rules .storageUnits).variables_ →
      ((s.input T).readings σ (r.1 ++ PType.suffix .storageUnits)).v v t 0 = _ := fun v hv => h.var_at σ hr (v := v) hv ht
  have B : ((s.input T).readings σ (r.1 ++ PType.suffix .storageUnits)).v "state_of_charge" (t - 1) 0 = _ :=
    h.var_before σ hr (v := "state_of_charge") (by decide) ht
  have N : ((s.input T).readings σ (r.1 ++ PType.suffix .storageUnits)).v "p_nom" t 0 = _ := h.var_nominal σ hr (by decide) t
  simp only [Rules.storageUnit]
  rw [V "p_store" (by decide), V "p_dispatch" (by decide), V "state_of_charge" (by decide), V "spill" (by decide), B, N,
    P ("p_nom_min", "p_nom_min") (by decide), P ("p_nom_max", "p_nom_max") (by decide), P ("p_max_pu", "p_max_pu") (by decide),
    P ("max_hours", "max_hours") (by decide), P ("standing_loss", "standing_loss") (by decide), P ("efficiency_store", "efficiency_store") (by decide),
    P ("efficiency_dispatch", "efficiency_dispatch") (by decide), P ("inflow", "inflow") (by decide)]
  simp only [used_plain (show plain .storageUnits "p_max_pu" = true by decide), used_plain (show plain .storageUnits "max_hours" = true by decide),
    used_plain (show plain .storageUnits "standing_loss" = true by decide), used_plain (show plain .storageUnits "efficiency_store" = true by decide),
    used_plain (show plain .storageUnits "efficiency_dispatch" = true by decide), used_plain (show plain .storageUnits "inflow" = true by decide)]
  rw [show (used pf n .storageUnits r "p_nom_min" t ≤ (planOf σ).nominal .storageUnits r.1 ∧
    (planOf σ).nominal .storageUnits r.1 ≤ used pf n .storageUnits r "p_nom_max" t) ↔ _ from h.nominal_iff (capa := "p_nom") rfl (planOf σ) r t]

end PConverted
end Verif
