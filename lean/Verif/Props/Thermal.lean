import Verif.Spec.Thermal
import Verif.Lemmas.Basic
import Mathlib.Algebra.Order.Floor.Ring
import Mathlib.Data.Rat.Floor
import Mathlib.Tactic.FieldSimp

/-!
# C44: unit counts of thermal clusters

The full statement would hold for all capacities and would use the same notion of previous hour at every hour.  It fails
for a null capacity (`c44_null_capacity`), for the first hour (`c44_first_hour`) and, with several scenarios, the minimum
power is not that of each scenario (`c44_scenarios_merged`) and cannot be read for the other ones (`c44_other_scenarios_fail`).
-/

namespace Verif.Props

theorem numLe_refl {v : Num} (h : v ≠ .nan) : v.le v = true := by
  cases v <;> simp_all [Num.le]

theorem numLe_trans {a b c : Num} (h1 : a.le b = true) (h2 : b.le c = true) : a.le c = true := by
  cases a <;> cases b <;> cases c <;> simp_all [Num.le]
  exact le_trans h1 h2

theorem numLe_total {a b : Num} (ha : a ≠ .nan) (hb : b ≠ .nan) : a.le b = true ∨ b.le a = true := by
  cases a <;> cases b <;> simp_all [Num.le]
  exact le_total _ _

theorem numMin_le {a b : Num} (ha : a ≠ .nan) (hb : b ≠ .nan) : (numMin a b).le a = true ∧ (numMin a b).le b = true ∧ (numMin a b = a ∨ numMin a b = b) := by
  unfold numMin
  split_ifs with h
  · exact ⟨numLe_refl ha, h, .inl rfl⟩
  · exact ⟨(numLe_total ha hb).resolve_left h, numLe_refl hb, .inr rfl⟩

theorem foldl_numMin (vs : List Num) : ∀ v, v ≠ .nan → (∀ w ∈ vs, w ≠ .nan) →
    vs.foldl numMin v ∈ v :: vs ∧ ∀ w ∈ v :: vs, (vs.foldl numMin v).le w = true := by
  induction vs with
  | nil => intro v hv _; simpa using numLe_refl hv
  | cons u vs ih =>
    intro v hv hvs
    have hu := hvs u (by simp)
    obtain ⟨h1, h2, h3⟩ := numMin_le hv hu
    have hn : numMin v u ≠ .nan := by rcases h3 with h | h <;> rw [h] <;> assumption
    obtain ⟨i1, i2⟩ := ih _ hn fun w hw => hvs w (by simp [hw])
    rw [List.foldl_cons]
    refine ⟨?_, ?_⟩
    · rcases List.mem_cons.1 i1 with h | h
      · rw [h]
        rcases h3 with h | h <;> simp [h]
      · simp [h]
    · intro w hw
      have h0 := i2 _ (List.mem_cons_self)
      rcases List.mem_cons.1 hw with rfl | hw
      · exact numLe_trans h0 h1
      rcases List.mem_cons.1 hw with rfl | hw
      · exact numLe_trans h0 h2
      · exact i2 w (by simp [hw])

/-- the minimum of a line is one of its numbers, and at most the other ones -/
theorem rowMin_spec {row : List Num} (h : ∃ v ∈ row, v ≠ .nan) :
    rowMin row ∈ row ∧ rowMin row ≠ .nan ∧ ∀ v ∈ row, v ≠ .nan → (rowMin row).le v = true := by
  unfold rowMin
  have hf : ∀ v, v ∈ row.filter (· ≠ .nan) ↔ v ∈ row ∧ v ≠ .nan := by simp
  generalize he : row.filter (· ≠ .nan) = l at *
  cases l with
  | nil =>
    obtain ⟨v, h1, h2⟩ := h
    exact absurd ((hf v).2 ⟨h1, h2⟩) (by simp)
  | cons v vs =>
    obtain ⟨h1, h2⟩ := foldl_numMin vs v ((hf v).1 (by simp)).2 fun w hw => ((hf w).1 (by simp [hw])).2
    exact ⟨((hf _).1 h1).1, ((hf _).1 h1).2, fun w hw hn => h2 w ((hf w).2 ⟨hw, hn⟩)⟩

theorem npDiv_fin {a b : ℚ} (h : b ≠ 0) : npDiv (.fin a) (.fin b) = .fin (a / b) := by
  simp [npDiv, Num.div, h]

theorem units_spec {cap q : ℚ} (hc : 0 < cap) : IsUnitCount cap q ⌈q / cap⌉ := by
  constructor
  · exact (div_le_iff₀ hc).1 (Int.le_ceil _)
  · have := Int.ceil_lt_add_one (q / cap)
    rw [← lt_div_iff₀ hc]
    linarith

theorem npCeil_mono {a b : Num} {cap : ℚ} (hc : 0 < cap) (h : a.le b = true) :
    (npCeil (npDiv a (.fin cap))).le (npCeil (npDiv b (.fin cap))) = true := by
  have h1 : npCeil (npDiv .pinf (.fin cap)) = .pinf := by
    simp [npDiv, Num.div, hc.ne', Num.sgn, hc, not_lt.2 hc.le, Num.ofSgn, npCeil]
  have h2 : npCeil (npDiv .ninf (.fin cap)) = .ninf := by
    simp [npDiv, Num.div, hc.ne', Num.sgn, hc, not_lt.2 hc.le, Num.ofSgn, npCeil]
  have h3 : ∀ q : ℚ, npCeil (npDiv (.fin q) (.fin cap)) = .fin ⌈q / cap⌉ := fun q => by rw [npDiv_fin hc.ne']; rfl
  cases a <;> cases b <;> (try simp only [h1, h2, h3]) <;> simp_all [Num.le]
  exact Int.ceil_le_ceil (by gcongr)

/-- **C44 (partial: positive capacities).**  At each hour and scenario, the maximum number of units is the least one that provides the
available power, and the minimum number of units is at most that. -/
theorem c44_units_partial {c : ThermalCluster} {cap q : ℚ} (hcap : c.nominalCapacity = .fin cap) (hc : 0 < cap) {h s : Nat}
    (hq : c.series.at h s = some (.fin q)) :
    ∃ (v : Num) (m : ℤ), (nbUnitsMin c).at h 0 = some v ∧ (nbUnitsMax c).at h s = some (.fin m) ∧ IsUnitCount cap q m ∧
      v.le (.fin m) = true := by
  unfold Frame.at at hq
  obtain ⟨row, hr, hrow⟩ := Option.bind_eq_some_iff.1 hq
  have hlt : h < c.series.rows.length := (List.getElem?_eq_some_iff.1 hr).1
  have hmem : Num.fin q ∈ concatRow c h := by
    unfold concatRow
    rw [hr]
    exact List.mem_cons_of_mem _ (List.mem_of_getElem? hrow)
  obtain ⟨-, -, hle⟩ := rowMin_spec ⟨_, hmem, by simp⟩
  have hle := hle _ hmem (by simp)
  refine ⟨npCeil (npDiv (rowMin (concatRow c h)) (.fin cap)), ⌈q / cap⌉, ?_, ?_, units_spec hc, ?_⟩
  · simp [nbUnitsMin, ceilDiv, pMinCluster, Frame.at, List.getElem?_map, List.getElem?_range, hlt, hcap]
  · simp [nbUnitsMax, ceilDiv, Frame.at, List.getElem?_map, hr, hrow, hcap, npDiv_fin hc.ne', npCeil]
  · have := npCeil_mono hc hle
    rwa [npDiv_fin hc.ne'] at this

/-- **C44**, minimum: with finite data it is the least number of units for the smallest of the minimum generation and of the
available powers of that hour. -/
theorem c44_units_min {c : ThermalCluster} {cap m : ℚ} (hcap : c.nominalCapacity = .fin cap) (hc : 0 < cap) {h : Nat} {row : List Num}
    (hm : c.modulation[h]? = some (.fin m)) (hr : c.series.rows[h]? = some row) (hf : ∀ v ∈ row, ∃ q : ℚ, v = .fin q) :
    ∃ (p : ℚ) (u : ℤ), (pMinCluster c).at h 0 = some (.fin p) ∧ (nbUnitsMin c).at h 0 = some (.fin u) ∧ IsUnitCount cap p u ∧
      (p = m * cap * c.unitCount ∨ .fin p ∈ row) ∧ p ≤ m * cap * c.unitCount ∧ ∀ q : ℚ, .fin q ∈ row → p ≤ q := by
  have hlt : h < c.series.rows.length := (List.getElem?_eq_some_iff.1 hr).1
  have hrow : concatRow c h = .fin (m * cap * c.unitCount) :: row := by
    unfold concatRow
    rw [hr, hm, hcap]
    rfl
  obtain ⟨h1, h2, h3⟩ := rowMin_spec (row := concatRow c h) ⟨_, by rw [hrow]; exact List.mem_cons_self, by simp⟩
  obtain ⟨p, hp⟩ : ∃ p : ℚ, rowMin (concatRow c h) = .fin p := by
    rw [hrow] at h1 ⊢
    rcases List.mem_cons.1 h1 with h | h
    · exact ⟨_, h⟩
    · exact hf _ h
  rw [hrow] at h1 h3
  have hpm : (pMinCluster c).at h 0 = some (.fin p) := by
    simp [pMinCluster, Frame.at, List.getElem?_map, List.getElem?_range, hlt, hp]
  refine ⟨p, ⌈p / cap⌉, hpm, ?_, units_spec hc, ?_, ?_, ?_⟩
  · simp [nbUnitsMin, ceilDiv, pMinCluster, Frame.at, List.getElem?_map, List.getElem?_range, hlt, hcap, hp, npDiv_fin hc.ne', npCeil]
  · rw [← hrow, hp, hrow] at h1
    rcases List.mem_cons.1 h1 with h | h
    · cases h; exact .inl rfl
    · exact .inr h
  · have := h3 _ List.mem_cons_self (by simp)
    rw [← hrow, hp] at this
    simpa [Num.le] using this
  · intro q hq
    have := h3 _ (List.mem_cons_of_mem _ hq) (by simp)
    rw [← hrow, hp] at this
    simpa [Num.le] using this

/-- **C44**, previous hour: inside the series, in the same period, and the hour before it there. -/
theorem c44_previous {n p h : Nat} (hp : 0 < p) (hh : h < n) :
    previousIndex n p h = previousHour n p h ∧ previousHour n p h < n ∧ previousHour n p h / p = h / p := by
  unfold previousIndex previousHour npMod npFloorDiv
  by_cases h0 : h = 0
  · subst h0; simp [hh]
  have hp' : (p : Int) ≠ 0 := by omega
  rw [if_neg h0, if_neg h0, if_neg hp', if_neg hp', Int.fmod_eq_emod_of_nonneg _ (by omega), Int.fdiv_eq_ediv_of_nonneg _ (by omega)]
  have hd := Nat.div_add_mod h p
  have hr := Nat.mod_lt h hp
  have hd' : (h : Int) / p * p = ((p * (h / p) : Nat) : Int) := by push_cast; ring
  rw [hd']
  generalize hq : p * (h / p) = q at *
  generalize h % p = r at *
  have hdiv : ∀ k, k < p → (q + k) / p = h / p := by
    intro k hk
    rw [← hq, Nat.mul_add_div hp, Nat.div_eq_of_lt hk, Nat.add_zero]
  have hmod : ((h : Int) - 1) % p = if r = 0 then (p : Int) - 1 else r - 1 := by
    have e : ((h : Int) - 1) = (r - 1) + p * (h / p : Nat) := by
      have : (p : Int) * (h / p : Nat) = q := by rw [← hq]; push_cast; ring
      omega
    rw [e, Int.add_mul_emod_self_left]
    split_ifs with hr0
    · subst hr0
      rw [show ((0 : Nat) : Int) - 1 = (p - 1) + p * (-1) by push_cast; ring, Int.add_mul_emod_self_left, Int.emod_eq_of_lt (by omega) (by omega)]
    · exact Int.emod_eq_of_lt (by omega) (by omega)
  rw [hmod]
  by_cases hr0 : r = 0
  · simp only [hr0, if_true]
    refine ⟨by push_cast; omega, by omega, ?_⟩
    rcases le_total (h + p - 1) (n - 1) with hle | hle
    · rw [min_eq_left hle, show h + p - 1 = q + (p - 1) by omega, hdiv _ (by omega)]
    · rw [min_eq_right hle, show n - 1 = q + (n - 1 - q) by omega, hdiv _ (by omega)]
  · simp only [hr0, if_false]
    refine ⟨by push_cast; omega, by omega, ?_⟩
    rw [show h - 1 = q + (r - 1) by omega, hdiv _ (by omega)]

theorem previousIndex_eq {n p h : Nat} (hp : 0 < p) (hh : h < n) : previousIndex n p h = (previousHour n p h : Int) :=
  (c44_previous hp hh).1

theorem pyIndex_nat {α} (l : List α) (i : Nat) (h : i < l.length) : pyIndex l (i : Int) = .ok l[i] := by
  unfold pyIndex
  have h1 : ¬ (i : Int) < 0 := by omega
  simp only [h1, if_false, Int.toNat_natCast, List.getElem?_eq_getElem h]

theorem variationRows_ok (d : Direction) {p : Nat} (hp : 0 < p) (rows : List (List Num)) : ∀ is : List Nat, (∀ i ∈ is, i < rows.length) →
    variationRows d p rows is =
      .ok (is.map fun i => variationRow d ((rows[previousHour rows.length p i]?).getD []) ((rows[i]?).getD [])) := by
  intro is
  induction is with
  | nil => intro _; rfl
  | cons i is ih =>
    intro h
    have hi := h i (by simp)
    have hpr := (c44_previous hp hi).2.1
    unfold variationRows
    rw [previousIndex_eq hp hi, pyIndex_nat _ _ hpr, pyIndex_nat _ _ hi, ih fun j hj => h j (by simp [hj])]
    simp [ok_bind, hi, hpr]

theorem clip0_fin (q : ℚ) : clip0 (.fin q) = .fin (max 0 q) := by
  unfold clip0
  have hl : (Num.fin q).lt 0 = true ↔ q < 0 := by
    simp [Num.lt, Num.zero_def, Num.le_fin, Num.eqb, lt_iff_le_and_ne]
  by_cases h : q < 0
  · show (if (Num.fin q).lt 0 = true then 0 else Num.fin q) = _
    rw [if_pos (hl.2 h), max_eq_left h.le]; rfl
  · simp [mt hl.1 h, max_eq_right (not_lt.1 h)]

/-- **C44 (partial: positive capacities and periods, finite data).**  The allowed decrease (`forward`) and increase (`backward`) of the
number of units at an hour are the positive parts of the differences of the maximum numbers of units with the previous hour. -/
theorem c44_variation_partial {c : ThermalCluster} {cap : ℚ} (hcap : c.nominalCapacity = .fin cap) (hc : 0 < cap)
    (hf : c.series.Finite) (hw : c.series.width ≠ 0) {p : Nat} (hp : 0 < p) :
    ∃ F B, nbUnitsMaxVariation c .forward p = .ok F ∧ nbUnitsMaxVariation c .backward p = .ok B ∧
      F.rows.length = c.series.rows.length ∧ B.rows.length = c.series.rows.length ∧
      ∀ h < c.series.rows.length, ∀ s < c.series.width, ∃ x y f b : ℚ,
        (nbUnitsMax c).at h s = some (.fin x) ∧ (nbUnitsMax c).at (previousHour c.series.rows.length p h) s = some (.fin y) ∧
        F.at h s = some (.fin f) ∧ B.at h s = some (.fin b) ∧
        f = max 0 (y - x) ∧ b = max 0 (x - y) := by
  have hlen : (nbUnitsMax c).rows.length = c.series.rows.length := by simp [nbUnitsMax, ceilDiv]
  have hrow : ∀ h < c.series.rows.length, ∃ row : List Num, (nbUnitsMax c).rows[h]? = some row ∧ row.length = c.series.width ∧
      ∀ s < c.series.width, ∃ q : ℚ, row[s]? = some (.fin q) := by
    intro h hh
    obtain ⟨h1, h2⟩ := hf _ (List.getElem_mem hh)
    refine ⟨(c.series.rows[h]).map fun v => npCeil (npDiv v c.nominalCapacity), by simp [nbUnitsMax, ceilDiv, hh], by simpa using h1, ?_⟩
    intro s hs
    have hs' : s < c.series.rows[h].length := by omega
    obtain ⟨q, hq⟩ := h2 _ (List.getElem_mem hs')
    refine ⟨⌈q / cap⌉, ?_⟩
    rw [List.getElem?_map, List.getElem?_eq_getElem hs', hq, hcap, Option.map_some, npDiv_fin hc.ne']
    rfl
  have hv : ∀ d, nbUnitsMaxVariation c d p = .ok ⟨c.series.width, (List.range c.series.rows.length).map fun i =>
      variationRow d (((nbUnitsMax c).rows[previousHour c.series.rows.length p i]?).getD []) (((nbUnitsMax c).rows[i]?).getD [])⟩ := by
    intro d
    have hwid : (nbUnitsMax c).width = c.series.width := rfl
    have hr := variationRows_ok d hp (nbUnitsMax c).rows (List.range (nbUnitsMax c).rows.length) (by simp)
    rw [hlen] at hr
    unfold nbUnitsMaxVariation
    simp only [hlen, hr, ok_bind, hwid, hw, if_false]
  refine ⟨_, _, hv _, hv _, by simp, by simp, ?_⟩
  intro h hh s hs
  have hpr := (c44_previous hp hh).2.1
  obtain ⟨r1, e1, l1, g1⟩ := hrow h hh
  obtain ⟨r2, e2, l2, g2⟩ := hrow _ hpr
  obtain ⟨x, hx⟩ := g1 s hs
  obtain ⟨y, hy⟩ := g2 s hs
  refine ⟨x, y, _, _, by simp [Frame.at, e1, hx], by simp [Frame.at, e2, hy], ?_, ?_, rfl, rfl⟩
  · simp [Frame.at, hh, e1, e2, variationRow, rowSub, List.getElem?_zipWith, hx, hy, clip0_fin]
  · simp [Frame.at, hh, e1, e2, variationRow, rowSub, List.getElem?_zipWith, hx, hy, clip0_fin]

/-- the five parameters that can be computed -/
def thermalParameters : List String :=
  ["p_min_cluster", "nb_units_min", "nb_units_max", "nb_units_max_variation_forward", "nb_units_max_variation_backward"]

/-- **C44**, files: the parameter refers to the file that is written, without its suffix; ids other than the five known ones are
refused. -/
theorem c44_file (c : ThermalCluster) (pid : String) (period : Int) :
    (∀ ip path f, generateParameter c pid period = .ok (ip, path, f) →
      pid ∈ thermalParameters ∧ ip.id = pid ∧ path = c.seriesPath ++ "/" ++ pid ++ ".txt" ∧
      ∃ v, ip.value = .name v ∧ path = v ++ ".txt") ∧
    (pid ∉ thermalParameters → generateParameter c pid period = .error (.valueError "Unsupported parameter_id")) := by
  have hn : preproFrame c pid period = none ↔ pid ∉ thermalParameters := by
    unfold preproFrame thermalParameters
    split_ifs <;> simp_all
  refine ⟨?_, fun h => by unfold generateParameter; rw [hn.2 h]⟩
  intro ip path f h
  unfold generateParameter at h
  have hp : pid ∈ thermalParameters := by
    by_contra hc
    rw [hn.2 hc] at h
    cases h
  split at h
  · cases h
  · obtain ⟨g, -, h⟩ := bind_ok_iff.1 h
    cases h
    exact ⟨hp, rfl, rfl, _, rfl, rfl⟩

/-- a cluster of three units of 100 MW, two scenarios and four hours -/
def cluster0 : ThermalCluster where
  modulation := [.fin (1/2), .fin (1/2), .fin 0, .fin 1]
  series := ⟨2, [[.fin 300, .fin 120], [.fin 101, .fin 300], [.fin 0, .fin 50], [.fin 250, .fin 300]]⟩
  unitCount := 3
  nominalCapacity := .fin 100
  seriesPath := "s"

example : (nbUnitsMin cluster0).rows = [[.fin 2], [.fin 2], [.fin 0], [.fin 3]] ∧
    (nbUnitsMax cluster0).rows = [[.fin 3, .fin 2], [.fin 2, .fin 3], [.fin 0, .fin 1], [.fin 3, .fin 3]] ∧
    (nbUnitsMaxVariation cluster0 .forward 2).toOption.map (·.rows) =
      some [[.fin 0, .fin 0], [.fin 1, .fin 0], [.fin 3, .fin 2], [.fin 0, .fin 0]] := by
  decide +kernel

example : cluster0.series.Finite ∧ cluster0.series.width ≠ 0 := by
  constructor
  · intro row hr
    simp only [cluster0, List.mem_cons, List.not_mem_nil, or_false] at hr
    rcases hr with rfl | rfl | rfl | rfl <;> refine ⟨rfl, ?_⟩ <;> intro v hv <;>
      simp only [List.mem_cons, List.not_mem_nil, or_false] at hv <;> rcases hv with rfl | rfl <;> exact ⟨_, rfl⟩
  · decide

/-- **C44 fails for a null capacity**: the numbers of units are not numbers. -/
theorem c44_null_capacity : ∃ c : ThermalCluster, c.nominalCapacity = .fin 0 ∧ c.series.Finite ∧
    (nbUnitsMin c).at 0 0 = some .nan ∧ (nbUnitsMax c).at 0 0 = some .pinf := by
  refine ⟨⟨[.fin 1], ⟨1, [[.fin 5]]⟩, 1, .fin 0, ""⟩, rfl, ?_, by decide +kernel, by decide +kernel⟩
  intro row hr
  simp only [List.mem_singleton] at hr
  subst hr
  exact ⟨rfl, by simp⟩

/-- **C44 fails at the first hour**: the hour before the first one of any later full period is the last one of that period, but hour 0 is
its own previous hour, so that its variation is always null. -/
theorem c44_first_hour {n p : Nat} (hp : 2 ≤ p) (hn : 2 * p ≤ n) :
    previousIndex n p p = p + (p - 1) ∧ previousIndex n p 0 = 0 ∧ (0 : Int) ≠ p - 1 := by
  rw [previousIndex_eq (by omega) (by omega : p < n), previousIndex_eq (by omega) (by omega : 0 < n)]
  unfold previousHour
  rw [if_neg (by omega), if_pos (Nat.mod_self p)]
  simp
  omega

/-- **C44 fails with several scenarios (1)**: one minimum is used for all of them, although the power that is available in the first
scenario would allow the minimum generation. -/
theorem c44_scenarios_merged : ∃ c : ThermalCluster, c.series.at 0 0 = some (.fin 300) ∧ c.modulation = [.fin 1] ∧
    c.nominalCapacity = .fin 100 ∧ c.unitCount = 3 ∧ (nbUnitsMin c).at 0 0 = some (.fin 0) :=
  ⟨⟨[.fin 1], ⟨2, [[.fin 300, .fin 0]]⟩, 3, .fin 100, ""⟩, by decide +kernel, rfl, rfl, rfl, by decide +kernel⟩

/-- **C44 fails with several scenarios (2)**: the minimum is declared to depend on scenarios, but reading it for another scenario than
the first one raises an error, for every cluster. -/
theorem c44_other_scenarios_fail {c : ThermalCluster} {pid : String} (hpid : pid = "p_min_cluster" ∨ pid = "nb_units_min") {period : Int}
    {ip : InputParam} {path : String} {f : Frame} (hg : generateParameter c pid period = .ok (ip, path, f))
    {load : String → R Frame} (hl : ∀ v, ip.value = .name v → load v = .ok f) {t s : Nat} (ht : t < c.series.rows.length) (hs : 1 ≤ s) :
    ∃ d, buildData load ip = .ok d ∧ d.getValue (some t) (some s) "" = .error .indexError := by
  have hfr : ∃ g : Nat → Num, f = ⟨1, (List.range (max c.modulation.length c.series.rows.length)).map fun h => [g h]⟩ ∧
      ∃ v, ip.value = .name v ∧ ip.timeDependent = true ∧ ip.scenarioDependent = true := by
    rcases hpid with rfl | rfl
    · cases hg
      exact ⟨_, rfl, _, rfl, rfl, rfl⟩
    · cases hg
      refine ⟨fun h => npCeil (npDiv (rowMin (concatRow c h)) c.nominalCapacity), ?_, _, rfl, rfl, rfl⟩
      simp [nbUnitsMin, ceilDiv, pMinCluster]
  obtain ⟨g, rfl, v, hv, htd, hsd⟩ := hfr
  have hb : buildData load ip = .ok (.timeScenarioSeries
      ⟨1, (List.range (max c.modulation.length c.series.rows.length)).map fun h => [g h]⟩ none) := by
    unfold buildData
    rw [hv]
    simp [hl v hv, ok_bind, htd, hsd]
  refine ⟨_, hb, ?_⟩
  have ht' : t < (List.range (max c.modulation.length c.series.rows.length)).length := by simp; omega
  simp only [Data.getValue, applyScenarization, ok_bind, Frame.iloc]
  rw [pyIndex_nat _ _ (by simpa using ht'), ok_bind]
  unfold pyIndex
  have h1 : ¬ (s : Int) < 0 := by omega
  simp only [h1, if_false, Int.toNat_natCast]
  rw [List.getElem?_eq_none (by simpa using hs)]

end Verif.Props
