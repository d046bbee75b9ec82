import Verif.Lemmas.PypsaKeptBalance
import Verif.Props.ShippedBuild

/-!
# C65: a PyPSA network, its conversion and the solver problem

The specification is in `Spec/PypsaProblem.lean`: `PNetwork.Admits` and `PNetwork.planCost` say what the optimisation problem of a network
is, directly from its tables and time series.  Here the network is converted, the converted files are read with the shipped library
`pypsa_models`, the solver problem is built, and the result is compared with that problem.
-/

namespace Verif.Props
open Verif Verif.Expr Verif.OptCtx Verif.Shipped

instance (capa : String) (row : Dict String Cell) : Decidable (Fixed capa row) :=
  decidable_of_iff ((row.get? (capa ++ "_extendable")).any (Cell.eqNum · 0) = true) (by
    unfold Fixed
    cases row.get? (capa ++ "_extendable") <;> simp [Cell.is_iff])

/-- the demands of the shipped model of storage units follow -/
theorem storage_needs {pf : String → Option Num} {n : PNetwork} {T : Nat} {s : PStudy} (h : PConverted pf n T s)
    (hst : n.StorageUnitsSound pf T) : ∀ r ∈ (n.table .storageUnits).rows, ∀ t < T,
      0 ≤ n.attr pf .storageUnits r "p_max_pu" t * PConverted.used pf n .storageUnits r "p_nom_max" t ∧
      0 ≤ n.attr pf .storageUnits r "max_hours" t * PConverted.used pf n .storageUnits r "p_nom_max" t := by
  intro r hr t ht
  obtain ⟨h2, h3⟩ := hst r hr
  rw [h.used_largest]
  exact ⟨mul_nonneg (h3 t ht).2 h2, mul_nonneg (h3 t ht).1 h2⟩

/-- **C65.** Take any network with the tables of PyPSA, of the supported kind, whose data can be read and make sense, whose names do not
clash and whose components use buses of the network.  Then it is converted, the converted study is read with the shipped library, and the
solver problem is built. -/
theorem c65_builds (pf : String → Option Num) (n : PNetwork) (T : Nat) (ht : n.Tables) (hk : SupportedKind n) (hc : Convertible pf n)
    (hd : DistinctNames n) (hb : BusesExist n) (hs : SeriesExist n) (hv : n.SoundData pf T) (hst : n.StorageUnitsSound pf T)
    (libs : Dict String Library) (hl : ShippedLibraries libs) (hp : (Dict.get? libs "pypsa_models").isSome = true) :
    ∃ s sys net db st, pypsaConvert pf n = .ok s ∧ resolveSystem s.system libs = .ok sys ∧ buildNetwork sys = .ok net ∧
      buildDataBase s.load s.system = .ok db ∧
      OptCtx.buildProblem { network := net, database := db, timesteps := (List.range T).map Int.ofNat, scenarios := 1 } = .ok st := by
  obtain ⟨s, ok⟩ := (c45_accepts ht).2 ⟨hk, hc⟩
  have h : PConverted pf n T s := ⟨ht, hd, hb, hs, hv, ok⟩
  obtain ⟨sys, net, db, st, h1, h2, h3, h4⟩ := c63_builds (s.input T) h.sound libs hl (h.complete (storage_needs h hst) hp)
  exact ⟨s, sys, net, db, st, ok, h1, h2, h3, h4⟩

/-- **C65, meaning.** If moreover no coefficient of the problem is smaller than `1e-16` without being zero (see `c35_tiny_coefficient`),
the solver problem is the problem of the network with the limits of storage units of the shipped library: a point is feasible exactly when
the decisions it stands for are admissible for these limits, its objective is their cost, and it is optimal exactly when no such decisions
cost less. -/
theorem c65_actual (pf : String → Option Num) (n : PNetwork) (T : Nat) (ht : n.Tables) (hk : SupportedKind n) (hc : Convertible pf n)
    (hd : DistinctNames n) (hb : BusesExist n) (hs : SeriesExist n) (hv : n.SoundData pf T) (hst : n.StorageUnitsSound pf T)
    (hkept : n.KeptData pf T) (libs : Dict String Library) (hl : ShippedLibraries libs) (hp : (Dict.get? libs "pypsa_models").isSome = true) :
    ∃ s sys net db st, pypsaConvert pf n = .ok s ∧ resolveSystem s.system libs = .ok sys ∧ buildNetwork sys = .ok net ∧
      buildDataBase s.load s.system = .ok db ∧
      OptCtx.buildProblem { network := net, database := db, timesteps := (List.range T).map Int.ofNat, scenarios := 1 } = .ok st ∧
      (∀ (pt : Nat → ℚ) (σ : TermKey → ℚ), (∀ k i, st.columns.get? k = some i → pt i = σ k) →
        ((st.solver.Feasible pt ↔ n.AdmitsShipped pf T (planOf σ)) ∧ st.solver.cost pt = n.planCost pf T (planOf σ)) ∧
        ((st.solver.Feasible pt ∧ ∀ pt', st.solver.Feasible pt' → st.solver.cost pt ≤ st.solver.cost pt') ↔
          (n.AdmitsShipped pf T (planOf σ) ∧ ∀ x, n.AdmitsShipped pf T x → n.planCost pf T (planOf σ) ≤ n.planCost pf T x))) := by
  obtain ⟨s, sys, net, db, st, ok, h1, h2, h3, h4⟩ := c65_builds pf n T ht hk hc hd hb hs hv hst libs hl hp
  refine ⟨s, sys, net, db, st, ok, h1, h2, h3, h4, fun pt σ hσ => ?_⟩
  have h : PConverted pf n T s := ⟨ht, hd, hb, hs, hv, ok⟩
  have hnt' : ∀ c ∈ net.allComponents, (∀ k ∈ c.model.allConstraints, ∀ t s' : Nat, t < (s.input T).steps.length → s' < (s.input T).scenarios →
      ((s.input T).context net db).NoTiny c k.expression t s') ∧ ∀ e ∈ c.model.objectives, ((s.input T).context net db).NoTiny c e 0 0 := by
    intro c hc
    have := h.kept (StudyInput.linked h.sound hl h1 h2) h3 hkept hc
    refine ⟨fun k hk t s' ht hs' => ?_, this.2⟩
    rw [PConverted.length_steps] at ht
    have hs0 : s' = 0 := by
      have : s' < 1 := hs'
      omega
    rw [hs0]
    exact this.1 k hk t ht
  have e1 := c60_study_partial (s.input T) h.sound libs hl sys h1 net h2 db h3 _ rfl hnt' st h4 pt σ hσ
  have e2 := c60_optimum_partial (s.input T) h.sound libs hl sys h1 net h2 db h3 _ rfl hnt' st h4 pt σ hσ
  rw [h.admitsShipped_iff hst, h.cost_eq] at e1
  refine ⟨e1, e2.trans ?_⟩
  rw [h.admitsShipped_iff hst]
  refine and_congr_right fun _ => ⟨fun hm x hx => ?_, fun hm σ' hσ' => ?_⟩
  · obtain ⟨σ', ha⟩ := exists_values hd x
    have := hm σ' ((h.admitsShipped_iff hst σ').2 (ha.symm.shipped hx))
    rw [h.cost_eq, h.cost_eq, ha.cost] at this
    exact this
  · rw [h.cost_eq, h.cost_eq]
    exact hm _ ((h.admitsShipped_iff hst σ').1 hσ')

theorem _root_.Verif.PNetwork.StorageUnitsFixed.largest {pf : String → Option Num} {r : PLine} (hf : Fixed "p_nom" r.2) :
    PNetwork.largest pf "p_nom" r = cellValue pf (r.2.get? "p_nom") := if_pos hf

/-- For storage units of given and symmetric capacity, the limits of the shipped library are the right ones. -/
theorem shipped_limits {pf : String → Option Num} {n : PNetwork} {T : Nat} (hst : n.StorageUnitsFixed pf T) (x : PPlan) :
    n.AdmitsShipped pf T x ↔ n.Admits pf T x := by
  have : ∀ r ∈ (n.table .storageUnits).rows, PNetwork.NominalOk pf .storageUnits "p_nom" x r → ∀ t < T,
      (n.ShippedUnitLimits pf x r t ↔ n.UnitLimits pf x r t) := by
    intro r hr hn t ht
    obtain ⟨hf, -, hq⟩ := hst r hr
    unfold PNetwork.ShippedUnitLimits PNetwork.UnitLimits
    simp only
    rw [(hq t ht).2.2, neg_neg, PNetwork.StorageUnitsFixed.largest hf, ← hn.1 hf]
  constructor <;> rintro ⟨h1, h2, h3, h4, h5, h6⟩ <;> refine ⟨h1, h2, fun r hr => ⟨(h3 r hr).1, fun t ht => ?_⟩, h4, h5, h6⟩
  · exact ⟨(this r hr (h3 r hr).1 t ht).1 ((h3 r hr).2 t ht).1, ((h3 r hr).2 t ht).2⟩
  · exact ⟨(this r hr (h3 r hr).1 t ht).2 ((h3 r hr).2 t ht).1, ((h3 r hr).2 t ht).2⟩

theorem _root_.Verif.PNetwork.StorageUnitsFixed.sound {pf : String → Option Num} {n : PNetwork} {T : Nat} (hst : n.StorageUnitsFixed pf T) :
    n.StorageUnitsSound pf T := by
  intro r hr
  obtain ⟨hf, h0, hq⟩ := hst r hr
  rw [PNetwork.StorageUnitsFixed.largest hf]
  exact ⟨h0, fun t ht => ⟨(hq t ht).1, (hq t ht).2.1⟩⟩

/-- **C65 (partial).** If storage units have a given capacity, the same in both directions, the solver problem is the problem of the
network.  Missing: storage units that can be extended or are not symmetric (see `c65_extendable_storage` and `c65_storage_charge`; what the
solver problem is then is said by `c65_actual`), and small coefficients. -/
theorem c65_problem_partial (pf : String → Option Num) (n : PNetwork) (T : Nat) (ht : n.Tables) (hk : SupportedKind n) (hc : Convertible pf n)
    (hd : DistinctNames n) (hb : BusesExist n) (hs : SeriesExist n) (hv : n.SoundData pf T) (hst : n.StorageUnitsFixed pf T)
    (hkept : n.KeptData pf T) (libs : Dict String Library) (hl : ShippedLibraries libs) (hp : (Dict.get? libs "pypsa_models").isSome = true) :
    ∃ s sys net db st, pypsaConvert pf n = .ok s ∧ resolveSystem s.system libs = .ok sys ∧ buildNetwork sys = .ok net ∧
      buildDataBase s.load s.system = .ok db ∧
      OptCtx.buildProblem { network := net, database := db, timesteps := (List.range T).map Int.ofNat, scenarios := 1 } = .ok st ∧
      (∀ (pt : Nat → ℚ) (σ : TermKey → ℚ), (∀ k i, st.columns.get? k = some i → pt i = σ k) →
        ((st.solver.Feasible pt ↔ n.Admits pf T (planOf σ)) ∧ st.solver.cost pt = n.planCost pf T (planOf σ)) ∧
        ((st.solver.Feasible pt ∧ ∀ pt', st.solver.Feasible pt' → st.solver.cost pt ≤ st.solver.cost pt') ↔
          (n.Admits pf T (planOf σ) ∧ ∀ x, n.Admits pf T x → n.planCost pf T (planOf σ) ≤ n.planCost pf T x))) := by
  have := c65_actual pf n T ht hk hc hd hb hs hv hst.sound hkept libs hl hp
  simpa only [shipped_limits hst] using this

/-- **C65, storage units that store no more than they dispatch.** If storing is not given more room than dispatching, every decision that is
admissible for the network is admissible for the limits of the shipped library: the solver problem is a relaxation, and its optimum costs at
most what the network costs. -/
theorem c65_relaxation {pf : String → Option Num} {n : PNetwork} {T : Nat} (hst : n.StorageUnitsSound pf T)
    (hmin : ∀ r ∈ (n.table .storageUnits).rows, 0 ≤ cellValue pf (r.2.get? (if Fixed "p_nom" r.2 then "p_nom" else "p_nom_min")) ∧
      ∀ t < T, - n.attr pf .storageUnits r "p_min_pu" t ≤ n.attr pf .storageUnits r "p_max_pu" t)
    {x : PPlan} (hx : n.Admits pf T x) : n.AdmitsShipped pf T x := by
  obtain ⟨h1, h2, h3, h4, h5, h6⟩ := hx
  refine ⟨h1, h2, fun r hr => ⟨(h3 r hr).1, fun t ht => ⟨?_, ((h3 r hr).2 t ht).2⟩⟩, h4, h5, h6⟩
  obtain ⟨a, b, c⟩ := ((h3 r hr).2 t ht).1
  obtain ⟨m0, m1⟩ := hmin r hr
  have hn := (h3 r hr).1
  have hle : x.nominal .storageUnits r.1 ≤ PNetwork.largest pf "p_nom" r := by
    unfold PNetwork.largest
    split_ifs with hf
    · exact (hn.1 hf).le
    · exact (hn.2 hf).2
  have h0 : 0 ≤ x.nominal .storageUnits r.1 := by
    by_cases hf : Fixed "p_nom" r.2
    · rw [if_pos hf] at m0
      exact m0.trans (hn.1 hf).ge
    · rw [if_neg hf] at m0
      exact m0.trans (hn.2 hf).1
  exact ⟨⟨a.1, a.2.trans (mul_le_mul_of_nonneg_left hle ((hst r hr).2 t ht).2)⟩,
    ⟨b.1, b.2.trans (mul_le_mul_of_nonneg_right (m1 t ht) h0)⟩, c⟩

end Verif.Props
