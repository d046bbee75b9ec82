import Verif.Lemmas.PypsaAdmits

/-!
# The study that a PyPSA network is converted to means the problem of the network
-/

namespace Verif
open Verif.Props
namespace PConverted
variable {pf : String → Option Num} {n : PNetwork} {T : Nat} {s : PStudy}

theorem used_largest (h : PConverted pf n T s) (r : PLine) (t : Nat) :
    used pf n .storageUnits r "p_nom_max" t = PNetwork.largest pf "p_nom" r := by
  have := h.used_bound (ty := .storageUnits) (capa := "p_nom") rfl (e := "_max") (.inr rfl) r t
  unfold PNetwork.largest
  exact this

theorem admitsShipped_iff (h : PConverted pf n T s) (hst : n.StorageUnitsSound pf T) (σ : TermKey → ℚ) :
    (s.input T).Accepts σ ↔ n.AdmitsShipped pf T (planOf σ) := by
  have hT := h.data.snapshots
  have hS : ∀ r ∈ (n.table .storageUnits).rows, ∀ t < T, Rules.storageUnit.accepts ((s.input T).readings σ (r.1 ++ PType.suffix .storageUnits)) t 0 ↔
      (let A := n.attr pf .storageUnits r
       let v := (planOf σ).value .storageUnits r.1
       PNetwork.NominalOk pf .storageUnits "p_nom" (planOf σ) r ∧ n.ShippedUnitLimits pf (planOf σ) r t ∧ 0 ≤ v "spill" t ∧
        v "state_of_charge" t = (1 - A "standing_loss" t) * v "state_of_charge" ((t + T - 1) % T) +
          A "efficiency_store" t * v "p_store" t - v "p_dispatch" t / A "efficiency_dispatch" t + A "inflow" t - v "spill" t) := by
    intro r hr t ht
    obtain ⟨-, hq⟩ := hst r hr
    obtain ⟨q1, q2⟩ := hq t ht
    refine (h.storage_iff σ hr ht).trans ?_
    simp only
    rw [h.used_largest]
    unfold PNetwork.ShippedUnitLimits
    constructor
    · rintro ⟨h1, h2, h3, h4, h5, h6, h7, h8⟩
      exact ⟨h1, ⟨h3, ⟨h2.1, h6⟩, ⟨h4.1, h7⟩⟩, h5, h8⟩
    · rintro ⟨h1, ⟨h2, h3, h4⟩, h5, h6⟩
      have hn : (planOf σ).nominal .storageUnits r.1 ≤ PNetwork.largest pf "p_nom" r := by
        unfold PNetwork.largest
        split_ifs with hf
        · exact (h1.1 hf).le
        · exact (h1.2 hf).2
      exact ⟨h1, ⟨h3.1, h3.2.trans (mul_le_mul_of_nonneg_left hn q2)⟩, h2, ⟨h4.1, h4.2.trans (mul_le_mul_of_nonneg_left hn q1)⟩, h5, h3.2,
        h4.2, h6⟩
  have hB : ∀ r ∈ (n.table .buses).rows, ∀ t < T, Rules.bus.accepts ((s.input T).readings σ (r.1 ++ PType.suffix .buses)) t 0 ↔
      n.injection pf (planOf σ) r.1 t = 0 := by
    intro r hr t ht
    rw [show PType.suffix .buses = "" from rfl, String.append_empty]
    simp only [Rules.bus]
    rw [h.injection_eq σ hr ht, h.received_q]
    simp
  have hL : ∀ r ∈ n.globalConstraints.rows, Rules.total ((s.input T).readings σ r.1)
      (fun u => ((s.input T).readings σ r.1).received "emission_port" "emission" u 0) = ∑ t ∈ Finset.range T, n.emitted pf (planOf σ) t := by
    intro r hr
    unfold Rules.total
    rw [show ((s.input T).readings σ r.1).T = T from length_steps]
    exact Finset.sum_congr rfl fun t ht => h.emitted_eq σ hr (Finset.mem_range.1 ht)
  have hQ : ∀ r ∈ n.globalConstraints.rows, ∀ q, r.2.get? "constant" = some (.num (.fin q)) → ∀ t : Int,
      ((s.input T).readings σ r.1).p "quota" t 0 = q := fun r hr q hq t => h.quota_eq hr hq t
  rw [h.accepts_iff]
  constructor
  · rintro ⟨h1, h2⟩
    refine ⟨fun r hr => ?_, fun r hr => ?_, fun r hr => ?_, fun r hr => ?_, fun r hr t ht => ?_, fun r hr q hq => ?_⟩
    · have := fun t ht => (h.generator_iff σ hr ht).1 (h1 .generators r hr t ht)
      exact ⟨(this 0 hT).1, fun t ht => ⟨(this t ht).2.1, (this t ht).2.2.1⟩, (this 0 hT).2.2.2⟩
    · have := fun t ht => (h.link_iff σ hr ht).1 (h1 .links r hr t ht)
      exact ⟨(this 0 hT).1, fun t ht => (this t ht).2⟩
    · have := fun t ht => (hS r hr t ht).1 (h1 .storageUnits r hr t ht)
      exact ⟨(this 0 hT).1, fun t ht => (this t ht).2⟩
    · have := fun t ht => (h.store_iff σ hr ht).1 (h1 .stores r hr t ht)
      exact ⟨(this 0 hT).1, fun t ht => ⟨⟨(this t ht).2.1, (this t ht).2.2.1⟩, (this t ht).2.2.2⟩⟩
    · exact (hB r hr t ht).1 (h1 .buses r hr t ht)
    · have := h2 r hr 0 hT
      simp only [Rules.co2Max, Rules.co2Eq] at this
      rw [hL r hr, hQ r hr q hq] at this
      exact this
  · rintro ⟨hg, hl, hs, he, hb, hlim⟩
    refine ⟨fun ty r hr t ht => ?_, fun r hr t ht => ?_⟩
    · cases ty with
      | generators =>
        obtain ⟨h1, h2, h3, h4⟩ := hg r hr
        exact (h.generator_iff σ hr ht).2 ⟨h1, (h2 t ht).1, (h2 t ht).2, h3, h4⟩
      | loads => exact trivial
      | buses => exact (hB r hr t ht).2 (hb r hr t ht)
      | links =>
        obtain ⟨h1, h2⟩ := hl r hr
        exact (h.link_iff σ hr ht).2 ⟨h1, h2 t ht⟩
      | storageUnits =>
        obtain ⟨h1, h2⟩ := hs r hr
        exact (hS r hr t ht).2 ⟨h1, h2 t ht⟩
      | stores =>
        obtain ⟨h1, h2⟩ := he r hr
        exact (h.store_iff σ hr ht).2 ⟨h1, (h2 t ht).1.1, (h2 t ht).1.2, (h2 t ht).2⟩
    · obtain ⟨q, hq⟩ := h.data.limits r hr
      simp only [Rules.co2Max, Rules.co2Eq]
      rw [hL r hr, hQ r hr q hq]
      exact hlim r hr q hq

theorem expectedTotal_eq (σ : TermKey → ℚ) (id : String) (f : Int → Int → ℚ) :
    ((s.input T).readings σ id).expectedTotal f = ∑ t ∈ Finset.range T, f t 0 := by
  unfold Readings.expectedTotal
  rw [show ((s.input T).readings σ id).T = T from length_steps, show ((s.input T).readings σ id).S = 1 from rfl]
  simp

theorem capital_eq (h : PConverted pf n T s) {ty : PType} {capa : String} (hc : ty.kind.capacity = some capa) (σ : TermKey → ℚ) {r : PLine}
    (hr : r ∈ (n.table ty).rows) : (s.input T).parameter (r.1 ++ ty.suffix) "capital_cost" 0 0 * (planOf σ).nominal ty r.1 =
      PNetwork.capitalCost pf ty capa (planOf σ) r := by
  have hm : ("capital_cost", "capital_cost") ∈ ty.kind.params := by cases ty <;> cases hc <;> decide
  have := h.parameter_eq hr hm (t := 0) h.data.snapshots
  rw [h.used_capital hc] at this
  unfold PNetwork.capitalCost
  rw [show (s.input T).parameter (r.1 ++ ty.suffix) "capital_cost" 0 0 = _ from this]
  split_ifs
  · rw [zero_mul]
  · rfl

/-- the cost of a component -/
noncomputable def lineCost (pf : String → Option Num) (n : PNetwork) (T : Nat) (x : PPlan) (r : PLine) : PType → ℚ
  | .generators => PNetwork.capitalCost pf .generators "p_nom" x r +
      ∑ t ∈ Finset.range T, n.attr pf .generators r "marginal_cost" t * x.value .generators r.1 "p" t
  | .links => PNetwork.capitalCost pf .links "p_nom" x r +
      ∑ t ∈ Finset.range T, n.attr pf .links r "marginal_cost" t * x.value .links r.1 "p0" t
  | .storageUnits => PNetwork.capitalCost pf .storageUnits "p_nom" x r + ∑ t ∈ Finset.range T,
      (n.attr pf .storageUnits r "marginal_cost" t * x.value .storageUnits r.1 "p_dispatch" t +
       n.attr pf .storageUnits r "spill_cost" t * x.value .storageUnits r.1 "spill" t +
       n.attr pf .storageUnits r "marginal_cost_storage" t * x.value .storageUnits r.1 "state_of_charge" t)
  | .stores => PNetwork.capitalCost pf .stores "e_nom" x r + ∑ t ∈ Finset.range T,
      (n.attr pf .stores r "marginal_cost" t * x.value .stores r.1 "p" t +
       n.attr pf .stores r "marginal_cost_storage" t * x.value .stores r.1 "e" t)
  | .buses => 0
  | .loads => 0

theorem cost_line (h : PConverted pf n T s) (σ : TermKey → ℚ) {ty : PType} {r : PLine} (hr : r ∈ (n.table ty).rows) :
    ty.rules.cost ((s.input T).readings σ (r.1 ++ ty.suffix)) = lineCost pf n T (planOf σ) r ty := by
  have P : ∀ a, (a, a) ∈ ty.kind.params → plain ty a = true → ∀ t < T, ((s.input T).readings σ (r.1 ++ ty.suffix)).p a t 0 =
      n.attr pf ty r a t := fun a ha hp t ht => (h.parameter_eq hr ha ht).trans (used_plain hp r t)
  have V : ∀ v, (v, true, true) ∈ ty.rules.variables_ → ∀ t < T, ((s.input T).readings σ (r.1 ++ ty.suffix)).v v t 0 =
      (planOf σ).value ty r.1 v t := fun v hv t ht => h.var_at σ hr hv ht
  cases ty with
  | loads => rfl
  | buses => rfl
  | generators =>
    show ((s.input T).readings σ _).expectedTotal _ + _ = _
    rw [expectedTotal_eq, add_comm]
    congr 1
    · rw [← h.capital_eq (capa := "p_nom") rfl σ hr, ← h.var_nominal σ hr (by decide) 0]
      rfl
    · refine Finset.sum_congr rfl fun t ht => ?_
      have ht := Finset.mem_range.1 ht
      rw [P "marginal_cost" (by decide) (by decide) t ht, V "p" (by decide) t ht]
  | links =>
    show ((s.input T).readings σ _).expectedTotal _ + _ = _
    rw [expectedTotal_eq, add_comm]
    congr 1
    · rw [← h.capital_eq (capa := "p_nom") rfl σ hr, ← h.var_nominal σ hr (by decide) 0]
      rfl
    · refine Finset.sum_congr rfl fun t ht => ?_
      have ht := Finset.mem_range.1 ht
      rw [P "marginal_cost" (by decide) (by decide) t ht, V "p0" (by decide) t ht]
  | storageUnits =>
    show ((s.input T).readings σ _).expectedTotal _ + _ = _
    rw [expectedTotal_eq, add_comm]
    congr 1
    · rw [← h.capital_eq (capa := "p_nom") rfl σ hr, ← h.var_nominal σ hr (by decide) 0]
      rfl
    · refine Finset.sum_congr rfl fun t ht => ?_
      have ht := Finset.mem_range.1 ht
      rw [P "marginal_cost" (by decide) (by decide) t ht, V "p_dispatch" (by decide) t ht, P "spill_cost" (by decide) (by decide) t ht,
        V "spill" (by decide) t ht, P "marginal_cost_storage" (by decide) (by decide) t ht, V "state_of_charge" (by decide) t ht]
  | stores =>
    show ((s.input T).readings σ _).expectedTotal _ + _ = _
    rw [expectedTotal_eq, add_comm]
    congr 1
    · rw [← h.capital_eq (capa := "e_nom") rfl σ hr, ← h.var_nominal σ hr (by decide) 0]
      rfl
    · refine Finset.sum_congr rfl fun t ht => ?_
      have ht := Finset.mem_range.1 ht
      rw [P "marginal_cost" (by decide) (by decide) t ht, V "p" (by decide) t ht,
        P "marginal_cost_storage" (by decide) (by decide) t ht, V "e" (by decide) t ht]

theorem cost_eq (h : PConverted pf n T s) (σ : TermKey → ℚ) : (s.input T).cost σ = n.planCost pf T (planOf σ) := by
  obtain ⟨parts, limits, h1, h2, h3⟩ := h.study.components
  unfold StudyInput.cost
  rw [h.declared, h1, List.map_append, List.sum_append, sum_flatten]
  rw [List.sum_eq_zero (l := List.map _ limits), add_zero]
  · have : ∀ k ∈ pypsaKinds, ∀ cs : List InputComponent, List.Forall₂ (IsPypsaComponent pf n k) (n.table k.ty).rows cs →
        (cs.map fun c => ((Rules.named c.model).map fun r => r.cost ((s.input T).readings σ c.id)).getD 0).sum =
          ((n.table k.ty).rows.map fun r => k.ty.rules.cost ((s.input T).readings σ (r.1 ++ k.ty.suffix))).sum := by
      intro k hk cs hcs
      refine sum_forall₂ hcs fun r hr c hc => ?_
      have hk' := kind_of_mem hk
      have hm : Rules.named c.model = some k.ty.rules := by
        rw [hk'] at hc
        exact model_of hc
      rw [hm, hc.1, show k.suffix = k.ty.suffix by rw [← k.ty.kind_suffix, ← hk']]
      rfl
    rw [sum_forall₂ h2 this]
    have hline : ∀ ty : PType, ((n.table ty).rows.map fun r => ty.rules.cost ((s.input T).readings σ (r.1 ++ ty.suffix))) =
        (n.table ty).rows.map fun r => lineCost pf n T (planOf σ) r ty := fun ty => List.map_congr_left fun r hr => h.cost_line σ (ty := ty) hr
    unfold pypsaKinds
    simp only [List.map_cons, List.map_nil, List.sum_cons, List.sum_nil, hline, lineCost]
    unfold PNetwork.planCost
    have hz : ∀ l : List PLine, (l.map fun _ => (0 : ℚ)).sum = 0 := fun l => List.sum_eq_zero (by simp)
    rw [hz, hz]
    ring
  · intro q hq
    obtain ⟨c, hc, rfl⟩ := List.mem_map.1 hq
    obtain ⟨r, hr, hc⟩ := forall₂_right h3 hc
    rcases hc.2.2.1 with ⟨-, hm⟩ | ⟨-, hm⟩ <;> rw [hm] <;> rfl

end PConverted
end Verif
