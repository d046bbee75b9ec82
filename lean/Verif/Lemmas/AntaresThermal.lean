import Verif.Lemmas.AntaresFiles
import Verif.Lemmas.StudyItems

/-!
# The tables that are computed for thermal clusters
-/

namespace Verif
open Verif.Props
namespace AThermal
variable {st : AStudy} {c : AThermal} {T : Nat}

/-- what is used of a sound cluster -/
theorem Sound.cells (h : c.Sound T) {t : Nat} (ht : t < c.series.rows.length) :
    ∃ m q : ℚ, c.modulation[t]? = some (.fin m) ∧ c.series.rows[t]? = some [.fin q] ∧ c.available t 0 = q ∧
      (c.modulation.getD t .nan).toQ = m := by
  obtain ⟨⟨h1, h2⟩, h3⟩ := h.modulation
  have htm : t < c.modulation.length := by omega
  have hm := h1 _ (List.getElem_mem htm)
  obtain ⟨m, hm⟩ : ∃ m : ℚ, c.modulation[t] = .fin m := by
    cases hv : c.modulation[t] with
    | fin m => exact ⟨m, rfl⟩
    | _ => rw [hv] at hm; cases hm
  obtain ⟨hw, hf⟩ := h.series.finite _ (List.getElem_mem ht)
  rw [h.single] at hw
  obtain ⟨v, hv⟩ := List.length_eq_one_iff.1 hw
  obtain ⟨q, rfl⟩ := hf v (by rw [hv]; exact List.mem_singleton_self v)
  refine ⟨m, q, by rw [List.getElem?_eq_getElem htm, hm], by rw [List.getElem?_eq_getElem ht, hv], ?_, ?_⟩
  · unfold AThermal.available cellAt Frame.at
    rw [List.getElem?_eq_getElem ht, hv]
    rfl
  · rw [List.getD_eq_getElem?_getD, List.getElem?_eq_getElem htm, hm]
    rfl

theorem numMin_fin (a b : ℚ) : numMin (.fin a) (.fin b) = .fin (min a b) := by
  unfold numMin
  split_ifs with h
  · rw [min_eq_left (by simpa [Num.le_fin] using h)]
  · rw [min_eq_right (le_of_not_ge (by simpa [Num.le_fin] using h))]

theorem Sound.rowMin_eq (h : c.Sound T) {t : Nat} (ht : t < c.series.rows.length) :
    rowMin (concatRow (c.cluster st) t) = .fin (c.required t 0) := by
  obtain ⟨m, q, h1, h2, h3, h4⟩ := h.cells ht
  obtain ⟨cap, hc, -⟩ := h.capacity
  unfold concatRow
  rw [show (c.cluster st).modulation = c.modulation from rfl, show (c.cluster st).series = c.series from rfl, h1, h2]
  simp only
  rw [show (c.cluster st).nominalCapacity = .fin cap from hc]
  have : (Num.fin m * Num.fin cap * Num.fin ((c.cluster st).unitCount : ℚ)) = .fin (m * cap * c.unitCount) := rfl
  rw [this]
  unfold rowMin
  simp only [ne_eq, reduceCtorEq, not_false_eq_true, decide_true, List.filter_cons_of_pos, List.filter_nil, List.foldl_cons, List.foldl_nil]
  rw [numMin_fin]
  unfold required
  rw [h3, h4, hc]
  rfl

theorem column_finite {n : Nat} {g : Nat → Num} (h : ∀ t < n, ∃ q : ℚ, g t = .fin q) :
    (⟨1, (List.range n).map fun t => [g t]⟩ : Frame).Finite := by
  intro row hr
  obtain ⟨t, ht, rfl⟩ := List.mem_map.1 hr
  refine ⟨rfl, fun v hv => ?_⟩
  rw [List.mem_singleton.1 hv]
  exact h t (List.mem_range.1 ht)

theorem column_at {n : Nat} {g : Nat → Num} {t : Nat} (ht : t < n) : cellAt ⟨1, (List.range n).map fun t => [g t]⟩ t 0 = (g t).toQ := by
  unfold cellAt Frame.at
  simp [ht]

/-- the tables have one column, with the value of `g` -/
structure IsColumn (f : Frame) (n : Nat) (g : Nat → ℚ) : Prop where
  finite : f.Finite
  rows : f.rows.length = n
  width : f.width = 1
  at_ : ∀ t < n, cellAt f t 0 = g t

theorem isColumn {n : Nat} {g : Nat → Num} {q : Nat → ℚ} (h : ∀ t < n, g t = .fin (q t)) :
    IsColumn ⟨1, (List.range n).map fun t => [g t]⟩ n q where
  finite := column_finite fun t ht => ⟨_, h t ht⟩
  rows := by simp
  width := rfl
  at_ := fun t ht => by rw [column_at ht, h t ht]; rfl

theorem Sound.pMin (h : c.Sound T) : IsColumn (pMinCluster (c.cluster st)) c.series.rows.length fun t => c.required t 0 := by
  have hn : max (c.cluster st).modulation.length (c.cluster st).series.rows.length = c.series.rows.length := by
    show max c.modulation.length c.series.rows.length = _
    rw [h.modulation.2, max_self]
  unfold pMinCluster
  rw [hn]
  exact isColumn fun t ht => h.rowMin_eq ht

theorem npCeil_div {q cap : ℚ} (hc : 0 < cap) : npCeil (npDiv (.fin q) (.fin cap)) = .fin (⌈q / cap⌉ : ℤ) := by
  rw [npDiv_fin hc.ne']
  rfl

theorem Sound.unitsMin (h : c.Sound T) :
    IsColumn (nbUnitsMin (c.cluster st)) c.series.rows.length fun t => c.unitsFor (c.required t 0) := by
  obtain ⟨cap, hc, h0⟩ := h.capacity
  have hn : max (c.cluster st).modulation.length (c.cluster st).series.rows.length = c.series.rows.length := by
    show max c.modulation.length c.series.rows.length = _
    rw [h.modulation.2, max_self]
  have : nbUnitsMin (c.cluster st) = ⟨1, (List.range c.series.rows.length).map fun t =>
      [npCeil (npDiv (rowMin (concatRow (c.cluster st) t)) (.fin cap))]⟩ := by
    unfold nbUnitsMin ceilDiv pMinCluster
    rw [hn, show (c.cluster st).nominalCapacity = .fin cap from hc]
    simp
  rw [this]
  refine isColumn fun t ht => ?_
  rw [h.rowMin_eq ht, npCeil_div h0]
  unfold unitsFor
  rw [hc]
  rfl

theorem Sound.unitsMax_row (h : c.Sound T) {t : Nat} (ht : t < c.series.rows.length) :
    (nbUnitsMax (c.cluster st)).rows[t]? = some [.fin (c.units t 0)] := by
  obtain ⟨cap, hc, h0⟩ := h.capacity
  obtain ⟨m, q, h1, h2, h3, h4⟩ := h.cells ht
  unfold nbUnitsMax ceilDiv
  rw [show (c.cluster st).series = c.series from rfl, show (c.cluster st).nominalCapacity = .fin cap from hc]
  rw [List.getElem?_map, h2]
  simp only [Option.map_some, List.map_cons, List.map_nil]
  rw [npCeil_div h0]
  unfold units unitsFor
  rw [h3, hc]
  rfl

theorem Sound.unitsMax (h : c.Sound T) : IsColumn (nbUnitsMax (c.cluster st)) c.series.rows.length fun t => c.units t 0 := by
  have hl : (nbUnitsMax (c.cluster st)).rows.length = c.series.rows.length := by
    unfold nbUnitsMax ceilDiv
    rw [List.length_map]
    rfl
  have : nbUnitsMax (c.cluster st) = ⟨1, (List.range c.series.rows.length).map fun t => [.fin (c.units t 0)]⟩ := by
    have hw : (nbUnitsMax (c.cluster st)).width = 1 := h.single
    have hrows : (nbUnitsMax (c.cluster st)).rows = (List.range c.series.rows.length).map fun t => [Num.fin (c.units t 0)] := by
      apply List.ext_getElem?
      intro t
      by_cases ht : t < c.series.rows.length
      · rw [h.unitsMax_row ht]
        simp [ht]
      · rw [List.getElem?_eq_none (by omega), List.getElem?_eq_none (by simpa using ht)]
    cases hf : nbUnitsMax (c.cluster st) with
    | mk w rows =>
      rw [hf] at hw hrows
      simp only at hw hrows
      rw [hw, hrows]
  rw [this]
  exact isColumn fun t _ => rfl

theorem _root_.Verif.comparedPeriod_eq (period : Option Int) : comparedPeriod period = (periodOf period).toNat := by
  unfold comparedPeriod periodOf
  cases period with
  | none => rfl
  | some p => by_cases h : p = 0 <;> simp [h]

theorem variation_fin (d : Direction) (x y : ℚ) :
    variationRow d [.fin x] [.fin y] = [.fin (max 0 (match d with | .forward => x - y | .backward => y - x))] := by
  cases d with
  | forward =>
    show [clip0 (Num.fin x - Num.fin y)] = _
    rw [Num.fin_sub_fin, clip0_fin]
  | backward =>
    show [clip0 (Num.fin y - Num.fin x)] = _
    rw [Num.fin_sub_fin, clip0_fin]

/-- the number of units that are lost or gained -/
def changed (c : AThermal) (d : Direction) (prev : Nat → Nat) (t : Nat) : ℚ :=
  match d with
  | .forward => c.lost prev t 0
  | .backward => c.gained prev t 0

theorem Sound.variation (h : c.Sound T) {period : Option Int} (hper : ∀ p, period = some p → 0 ≤ p) (d : Direction) {f : Frame}
    (hf : nbUnitsMaxVariation (c.cluster st) d (periodOf period) = .ok f) :
    IsColumn f c.series.rows.length (c.changed d (c.comparedWith period)) := by
  obtain ⟨p, hp, he⟩ := periodOf_pos hper
  have hpn : (periodOf period).toNat = p := by omega
  have hl := (h.unitsMax (st := st)).rows
  unfold nbUnitsMaxVariation at hf
  rw [he] at hf
  have hr := variationRows_ok d hp (nbUnitsMax (c.cluster st)).rows (List.range (nbUnitsMax (c.cluster st)).rows.length) (by simp)
  simp only [hr, ok_bind] at hf
  split_ifs at hf with hw
  have hf := Except.ok.inj hf
  rw [(h.unitsMax (st := st)).width, hl] at hf
  rw [← hf]
  have hrow : ∀ t < c.series.rows.length, variationRow d
      (((nbUnitsMax (c.cluster st)).rows[previousHour c.series.rows.length p t]?).getD []) (((nbUnitsMax (c.cluster st)).rows[t]?).getD []) =
      [.fin (c.changed d (c.comparedWith period) t)] := by
    intro t ht
    have hprev := (c44_previous hp ht).2.1
    rw [h.unitsMax_row ht, h.unitsMax_row hprev]
    simp only [Option.getD_some]
    rw [variation_fin]
    unfold changed lost gained comparedWith
    rw [comparedPeriod_eq, hpn]
    cases d <;> rfl
  have : ((List.range c.series.rows.length).map fun i => variationRow d
      (((nbUnitsMax (c.cluster st)).rows[previousHour c.series.rows.length p i]?).getD []) (((nbUnitsMax (c.cluster st)).rows[i]?).getD [])) =
      (List.range c.series.rows.length).map fun t => [Num.fin (c.changed d (c.comparedWith period) t)] :=
    List.map_congr_left fun t ht => hrow t (List.mem_range.1 ht)
  rw [this]
  exact isColumn fun t _ => by cases d <;> rfl

/-- what the table of a parameter should contain -/
def prepared (c : AThermal) (period : Option Int) (id : String) (t : Nat) : ℚ :=
  if id = "p_min_cluster" then c.required t 0
  else if id = "nb_units_min" then c.unitsFor (c.required t 0)
  else if id = "nb_units_max" then c.units t 0
  else if id = "nb_units_max_variation_forward" then c.lost (c.comparedWith period) t 0
  else c.gained (c.comparedWith period) t 0

theorem Sound.generated (h : c.Sound T) {period : Option Int} (hper : ∀ p, period = some p → 0 ≤ p) {id : String} {p : InputParam}
    {path : String} {f : Frame} (hf : generateParameter (c.cluster st) id (periodOf period) = .ok (p, path, f)) :
    IsColumn f c.series.rows.length (c.prepared period id) := by
  unfold generateParameter preproFrame at hf
  unfold prepared
  split_ifs at hf with h1 h2 h3 h4 h5
  · simp only [ok_bind, Except.ok.injEq, Prod.mk.injEq] at hf
    rw [← hf.2.2]
    simp only [h1, if_true]
    exact h.pMin
  · simp only [ok_bind, Except.ok.injEq, Prod.mk.injEq] at hf
    rw [← hf.2.2]
    simp only [if_neg h1, h2, if_true]
    exact h.unitsMin
  · simp only [ok_bind, Except.ok.injEq, Prod.mk.injEq] at hf
    rw [← hf.2.2]
    simp only [if_neg h1, if_neg h2, h3, if_true]
    exact h.unitsMax
  · obtain ⟨g, hg, hf⟩ := bind_ok_iff.1 hf
    simp only [Except.ok.injEq, Prod.mk.injEq] at hf
    rw [← hf.2.2]
    simp only [if_neg h1, if_neg h2, if_neg h3, h4, if_true]
    exact h.variation hper .forward hg
  · obtain ⟨g, hg, hf⟩ := bind_ok_iff.1 hf
    simp only [Except.ok.injEq, Prod.mk.injEq] at hf
    rw [← hf.2.2]
    simp only [if_neg h1, if_neg h2, if_neg h3, if_neg h4]
    exact h.variation hper .backward hg

end AThermal
end Verif
