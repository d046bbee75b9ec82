import Verif.Lemmas.AntaresProblem
import Verif.Lemmas.PypsaMeaning

/-!
# The study that an Antares study is converted to: values of parameters and variables, completeness
-/

namespace Verif
open Verif.Props
namespace AConverted
variable {st : AStudy} {period : Option Int} {pre : Dict String Num} {disk : String → R Frame} {B : List (AArea × BatteryData)}
    {T S : Nat} {sys : InputSystem} {files : List (String × Frame)}

theorem area_mem {a : AArea} (ha : a ∈ st.balanced) : areaItem a ∈ antaresItems st B := mem_items.2 (.inl ⟨a, ha, rfl⟩)

theorem object_mem {o : AObject} (ho : o ∈ st.objects) : objectItem st o ∈ antaresItems st B := mem_items.2 (.inr (.inl ⟨o, ho, rfl⟩))

theorem battery_mem {e : AArea × BatteryData} (he : e ∈ B) : batteryItem st e ∈ antaresItems st B := mem_items.2 (.inr (.inr ⟨e, he, rfl⟩))

/-! ## Variables -/

theorem var (h : AConverted st period pre disk B T S sys files) (σ : TermKey → ℚ) {it : StudyItem} (hi : it ∈ antaresItems st B) {R : Rules}
    (hR : Rules.named it.ref = some R) {v : String} (hv : R.variables_.find? (fun x => x.1 = v) = some (v, true, true)) (t : Int) (s : Nat) :
    ((AStudy.input disk sys files T S).own σ it.id).v v t s = aPlanOf σ it.id v (t % T).toNat s := by
  have h0 : 0 ≤ t % T := Int.emod_nonneg _ (by have := h.data.hours; omega)
  show σ ((AStudy.input disk sys files T S).instance_ it.id v t s) = σ _
  rw [h.items.instance_ hi hR hv, Int.toNat_of_nonneg h0]

theorem nat_mod (T : Nat) {t : Nat} (ht : t < T) : ((t : Int) % T).toNat = t := by
  rw [Int.emod_eq_of_lt (Int.natCast_nonneg t) (by exact_mod_cast ht), Int.toNat_natCast]

/-! ## Parameters -/

theorem area_cost (h : AConverted st period pre disk B T S sys files) {a : AArea} (ha : a ∈ st.balanced) (t : Int) {s : Nat} (hs : s < S) :
    (AStudy.input disk sys files T S).parameter a.id "spillage_cost" t s = a.energyCostSpilled.toQ ∧
    (AStudy.input disk sys files T S).parameter a.id "ens_cost" t s = a.energyCostUnsupplied.toQ :=
  ⟨h.items.parameter (area_mem ha) (x := ("spillage_cost", .num a.energyCostSpilled)) (by simp [areaItem]) t hs,
   h.items.parameter (area_mem ha) (x := ("ens_cost", .num a.energyCostUnsupplied)) (by simp [areaItem]) t hs⟩

theorem par_num (h : AConverted st period pre disk B T S sys files) {o : AObject} (ho : o ∈ st.objects) {id : String} {v : Num}
    (hv : (id, .inl v) ∈ o.params) (t : Int) {s : Nat} (hs : s < S) : (AStudy.input disk sys files T S).parameter o.name id t s = v.toQ :=
  h.items.parameter (object_mem ho) (x := (id, .num v)) (List.mem_map.2 ⟨_, hv, rfl⟩) t hs

theorem par_disk (h : AConverted st period pre disk B T S sys files) {o : AObject} (ho : o ∈ st.objects) {id f : String}
    (hf : (id, .inr f) ∈ o.params) (hn : ∀ a t, o = .thermal a t → id ∉ thermalParameters) (t : Int) {s : Nat} (hs : s < S) :
    (AStudy.input disk sys files T S).parameter o.name id t s = st.onDisk disk f (t % T).toNat s := by
  rw [show (AStudy.input disk sys files T S).parameter o.name id t s = _ from
    h.items.parameter (object_mem ho) (x := (id, .file (st.path ++ "/input/" ++ f) true)) (List.mem_map.2 ⟨_, hf, rfl⟩) t hs]
  unfold ItemParam.value AStudy.onDisk
  rw [show (AStudy.input disk sys files T S).load = AStudy.load disk files from rfl]
  simp only [h.load_object ho hf hn]
  cases disk (st.fileOf f) <;> rfl

theorem par_prepared (h : AConverted st period pre disk B T S sys files) {a : AArea} {c : AThermal} (ho : .thermal a c ∈ st.objects)
    {id n : String} (hid : id ∈ thermalParameters) (hn : "/" ++ id = n)
    (hm : (id, .inr ("thermal/series/" ++ c.areaId ++ "/" ++ c.id ++ n)) ∈ (AObject.thermal a c).params) (t : Int) {s : Nat} (hs : s < S) :
    (AStudy.input disk sys files T S).parameter c.id id t s = c.prepared period id (t % T).toNat := by
  subst hn
  obtain ⟨hc, rfl, -⟩ := h.data.objects _ ho
  have hs0 : s = 0 := by omega
  subst hs0
  obtain ⟨f, h1, h2⟩ := h.load_prepared ho hid
  rw [String.append_assoc (s₁ := "thermal/series/" ++ c.areaId ++ "/" ++ c.id)] at h1
  rw [show (AStudy.input disk sys files T 1).parameter c.id id t (0 : Nat) = _ from
    h.items.parameter (object_mem ho) (x := (id, .file (st.path ++ "/input/" ++ ("thermal/series/" ++ c.areaId ++ "/" ++ c.id ++ ("/" ++ id))) true))
      (List.mem_map.2 ⟨_, hm, rfl⟩) t hs]
  unfold ItemParam.value
  rw [show (AStudy.input disk sys files T 1).load = AStudy.load disk files from rfl]
  simp only [h1]
  have hT := h.data.hours
  have : (t % T).toNat < T := by
    have h0 : 0 ≤ t % T := Int.emod_nonneg _ (by omega)
    have h1 : t % T < T := Int.emod_lt_of_pos _ (by omega)
    omega
  exact h2.at_ _ (lt_of_lt_of_le this hc.series.hours)

/-- the parameters of a cluster -/
structure ThermalPars (I : StudyInput) (c : AThermal) (T : Nat) (period : Option Int) : Prop where
  pMin : ∀ t : Int, I.parameter c.id "p_min_cluster" t 0 = c.required (t % T).toNat 0
  pMax : ∀ t : Int, I.parameter c.id "p_max_cluster" t 0 = c.available (t % T).toNat 0
  unitsMin : ∀ t : Int, I.parameter c.id "nb_units_min" t 0 = c.unitsFor (c.required (t % T).toNat 0)
  unitsMax : ∀ t : Int, I.parameter c.id "nb_units_max" t 0 = c.units (t % T).toNat 0
  forward : ∀ t : Int, I.parameter c.id "nb_units_max_variation_forward" t 0 = c.lost (c.comparedWith period) (t % T).toNat 0
  backward : ∀ t : Int, I.parameter c.id "nb_units_max_variation_backward" t 0 = c.gained (c.comparedWith period) (t % T).toNat 0
  pMinUnit : ∀ t : Int, I.parameter c.id "p_min_unit" t 0 = c.minStablePower.toQ
  pMaxUnit : ∀ t : Int, I.parameter c.id "p_max_unit" t 0 = c.nominalCapacity.toQ
  generation : ∀ t : Int, I.parameter c.id "generation_cost" t 0 = c.marginalCost.toQ
  startup : ∀ t : Int, I.parameter c.id "startup_cost" t 0 = c.startupCost.toQ
  fixed : ∀ t : Int, I.parameter c.id "fixed_cost" t 0 = c.fixedCost.toQ
  up : ∀ t : Int, I.parameter c.id "d_min_up" t 0 = c.minUpTime.toQ
  down : ∀ t : Int, I.parameter c.id "d_min_down" t 0 = c.minDownTime.toQ

theorem thermalPars (h : AConverted st period pre disk B T S sys files) {a : AArea} {c : AThermal} (ho : .thermal a c ∈ st.objects) :
    S = 1 ∧ ThermalPars (AStudy.input disk sys files T S) c T period := by
  have hs := h.data.objects _ ho
  obtain ⟨hc, hS, hd⟩ := hs
  refine ⟨hS, ?_⟩
  have h0 : (0 : Nat) < S := by omega
  have hp : ∀ {id n : String}, id ∈ thermalParameters → "/" ++ id = n →
      (id, .inr ("thermal/series/" ++ c.areaId ++ "/" ++ c.id ++ n)) ∈ (AObject.thermal a c).params →
      ∀ t : Int, (AStudy.input disk sys files T S).parameter c.id id t 0 = c.prepared period id (t % T).toNat :=
    fun hid hn hm t => h.par_prepared ho hid hn hm t h0
  have hn : ∀ {id : String} {v : Num}, (id, .inl v) ∈ (AObject.thermal a c).params →
      ∀ t : Int, (AStudy.input disk sys files T S).parameter c.id id t 0 = v.toQ := fun hm t => h.par_num ho hm t h0
  exact {
    pMin := hp (id := "p_min_cluster") (by decide) rfl (by simp [AObject.params])
    pMax := by
      intro t
      rw [show (AStudy.input disk sys files T S).parameter c.id "p_max_cluster" t 0 = _ from
        h.par_disk ho (id := "p_max_cluster") (f := "thermal/series/" ++ c.areaId ++ "/" ++ c.id ++ "/series") (by simp [AObject.params])
          (fun _ _ _ => by decide) t h0]
      unfold AStudy.onDisk
      rw [hd]
      rfl
    unitsMin := hp (id := "nb_units_min") (by decide) rfl (by simp [AObject.params])
    unitsMax := hp (id := "nb_units_max") (by decide) rfl (by simp [AObject.params])
    forward := hp (id := "nb_units_max_variation_forward") (by decide) rfl (by simp [AObject.params])
    backward := hp (id := "nb_units_max_variation_backward") (by decide) rfl (by simp [AObject.params])
    pMinUnit := hn (by simp [AObject.params])
    pMaxUnit := hn (by simp [AObject.params])
    generation := hn (by simp [AObject.params])
    startup := hn (by simp [AObject.params])
    fixed := hn (by simp [AObject.params])
    up := hn (by simp [AObject.params])
    down := hn (by simp [AObject.params]) }

/-- the parameters of a storage -/
structure StoragePars (I : StudyInput) (st : AStudy) (disk : String → R Frame) (u : AStorage) (T S : Nat) : Prop where
  injection : ∀ t : Int, ∀ s : Nat, s < S → I.parameter u.id "p_max_injection_modulation" t s =
    st.onDisk disk (u.seriesName "PMAX-injection") (t % T).toNat s
  withdrawal : ∀ t : Int, ∀ s : Nat, s < S → I.parameter u.id "p_max_withdrawal_modulation" t s =
    st.onDisk disk (u.seriesName "PMAX-withdrawal") (t % T).toNat s
  lower : ∀ t : Int, ∀ s : Nat, s < S → I.parameter u.id "lower_rule_curve" t s =
    st.onDisk disk (u.seriesName "lower-rule-curve") (t % T).toNat s
  upper : ∀ t : Int, ∀ s : Nat, s < S → I.parameter u.id "upper_rule_curve" t s =
    st.onDisk disk (u.seriesName "upper-rule-curve") (t % T).toNat s
  inflows : ∀ t : Int, ∀ s : Nat, s < S → I.parameter u.id "inflows" t s = st.onDisk disk (u.seriesName "inflows") (t % T).toNat s
  injectionCapacity : ∀ t : Int, ∀ s : Nat, s < S → I.parameter u.id "injection_nominal_capacity" t s = u.injectionNominalCapacity.toQ
  withdrawalCapacity : ∀ t : Int, ∀ s : Nat, s < S → I.parameter u.id "withdrawal_nominal_capacity" t s = u.withdrawalNominalCapacity.toQ
  reservoir : ∀ t : Int, ∀ s : Nat, s < S → I.parameter u.id "reservoir_capacity" t s = u.reservoirCapacity.toQ
  initial : ∀ t : Int, ∀ s : Nat, s < S → I.parameter u.id "initial_level" t s = u.initialLevel.toQ
  efficiency : ∀ t : Int, ∀ s : Nat, s < S → I.parameter u.id "efficiency_injection" t s = u.efficiency.toQ
  one : ∀ t : Int, ∀ s : Nat, s < S → I.parameter u.id "efficiency_withdrawal" t s = 1

theorem storagePars (h : AConverted st period pre disk B T S sys files) {a : AArea} {u : AStorage} (ho : .storage a u ∈ st.objects) :
    StoragePars (AStudy.input disk sys files T S) st disk u T S := by
  have hf : ∀ {id n m : String}, "/" ++ n = m → (id, .inr ("st-storage/series/" ++ u.areaId ++ "/" ++ u.id ++ m)) ∈ (AObject.storage a u).params →
      ∀ t : Int, ∀ s : Nat, s < S → (AStudy.input disk sys files T S).parameter u.id id t s = st.onDisk disk (u.seriesName n) (t % T).toNat s := by
    intro id n m he hm t s hs
    subst he
    rw [show (AStudy.input disk sys files T S).parameter u.id id t s = _ from h.par_disk ho hm (fun _ _ he => by cases he) t hs]
    unfold AStorage.seriesName
    rw [String.append_assoc (s₁ := "st-storage/series/" ++ u.areaId ++ "/" ++ u.id)]
  have hn : ∀ {id : String} {v : Num}, (id, .inl v) ∈ (AObject.storage a u).params →
      ∀ t : Int, ∀ s : Nat, s < S → (AStudy.input disk sys files T S).parameter u.id id t s = v.toQ := fun hm t s hs => h.par_num ho hm t hs
  exact {
    injection := hf (n := "PMAX-injection") rfl (by simp [AObject.params])
    withdrawal := hf (n := "PMAX-withdrawal") rfl (by simp [AObject.params])
    lower := hf (n := "lower-rule-curve") rfl (by simp [AObject.params])
    upper := hf (n := "upper-rule-curve") rfl (by simp [AObject.params])
    inflows := hf (n := "inflows") rfl (by simp [AObject.params])
    injectionCapacity := hn (by simp [AObject.params])
    withdrawalCapacity := hn (by simp [AObject.params])
    reservoir := hn (by simp [AObject.params])
    initial := hn (by simp [AObject.params])
    efficiency := hn (by simp [AObject.params])
    one := hn (v := 1) (by simp [AObject.params]) }

theorem load_par (h : AConverted st period pre disk B T S sys files) {a : AArea} (ho : .load a ∈ st.objects) (t : Int) {s : Nat} (hs : s < S) :
    (AStudy.input disk sys files T S).parameter "load" "load" t s = seriesAt a.load (t % T).toNat s := by
  rw [show (AStudy.input disk sys files T S).parameter "load" "load" t s = _ from
    h.par_disk ho (id := "load") (f := "load/series/load_" ++ a.id) (by simp [AObject.params]) (fun _ _ he => by cases he) t hs]
  obtain ⟨f, h1, -, h2⟩ := h.data.objects _ ho
  unfold AStudy.onDisk seriesAt
  rw [h1, h2]
  rfl

theorem link_pars (h : AConverted st period pre disk B T S sys files) {l : ALink} (ho : .link l ∈ st.objects) (t : Int) {s : Nat} (hs : s < S) :
    (AStudy.input disk sys files T S).parameter l.id "capacity_direct" t s = st.onDisk disk (l.capacityName "_direct") (t % T).toNat s ∧
    (AStudy.input disk sys files T S).parameter l.id "capacity_indirect" t s = st.onDisk disk (l.capacityName "_indirect") (t % T).toNat s :=
  ⟨h.par_disk ho (id := "capacity_direct") (by simp [AObject.params, ALink.capacityName]) (fun _ _ he => by cases he) t hs,
   h.par_disk ho (id := "capacity_indirect") (by simp [AObject.params, ALink.capacityName]) (fun _ _ he => by cases he) t hs⟩

/-- the parameters of a battery -/
structure BatteryPars (I : StudyInput) (e : AArea × BatteryData) (T S : Nat) : Prop where
  injection : ∀ t : Int, ∀ s : Nat, s < S → I.parameter e.1.battery "p_max_injection_modulation" t s *
    I.parameter e.1.battery "injection_nominal_capacity" t s = valueAt e.2.injection (t % T).toNat
  withdrawal : ∀ t : Int, ∀ s : Nat, s < S → I.parameter e.1.battery "p_max_withdrawal_modulation" t s *
    I.parameter e.1.battery "withdrawal_nominal_capacity" t s = valueAt e.2.production (t % T).toNat
  lower : ∀ t : Int, ∀ s : Nat, s < S → I.parameter e.1.battery "lower_rule_curve" t s = 0
  upper : ∀ t : Int, ∀ s : Nat, s < S → I.parameter e.1.battery "upper_rule_curve" t s *
    I.parameter e.1.battery "reservoir_capacity" t s = valueAt e.2.level (t % T).toNat
  efficiency : ∀ t : Int, ∀ s : Nat, s < S → I.parameter e.1.battery "efficiency_injection" t s = - e.2.linkWeight.toQ
  weight : ∀ t : Int, ∀ s : Nat, s < S → I.parameter e.1.battery "efficiency_withdrawal" t s = e.2.clusterWeight.toQ
  cost : ∀ t : Int, ∀ s : Nat, s < S → I.parameter e.1.battery "marginal_cost" t s = valueAt e.2.cost (t % T).toNat

theorem divided {l : List Num} {q : ℚ} (h : ∀ v ∈ l, Fin' v) (hq : q ≠ 0) {t : Nat} (ht : t < l.length) :
    cellAt (columnOf (l.map fun v => quotient v (.fin q))) t 0 * q = valueAt l t := by
  rw [columnOf_at (by rw [List.length_map]; exact ht)]
  unfold valueAt
  rw [List.getD_eq_getElem?_getD, List.getD_eq_getElem?_getD, List.getElem?_map, List.getElem?_eq_getElem ht]
  simp only [Option.map_some, Option.getD_some]
  obtain ⟨x, hx, -⟩ := fin_of (h _ (List.getElem_mem ht))
  rw [hx, quotient_fin hq]
  show x / q * q = x
  rw [div_mul_cancel₀ _ hq]

theorem batteryPars (h : AConverted st period pre disk B T S sys files) {e : AArea × BatteryData} (he : e ∈ B) :
    BatteryPars (AStudy.input disk sys files T S) e T S := by
  have hs := h.data.batteries e he
  obtain ⟨r, hr, r0⟩ := hs.reservoir
  obtain ⟨w, hw, w0⟩ := hs.withdrawal
  obtain ⟨m, hm, m0⟩ := h.top_eq he
  obtain ⟨k1, k2⟩ := hs.weights
  obtain ⟨s1, s2, s3⟩ := hs.series
  have hT := h.data.hours
  have hlt : ∀ t : Int, (t % T).toNat < T := by
    intro t
    have h0 : 0 ≤ t % T := Int.emod_nonneg _ (by omega)
    have h1 : t % T < T := Int.emod_lt_of_pos _ (by omega)
    omega
  have hf : ∀ {id n : String} {l : List Num}, (id, .file n false) ∈ (batteryItem st e).params →
      (n ++ ".txt", columnOf l) ∈ batteryFiles st e.1.id e.2 e.2.top →
      ∀ t : Int, ∀ s : Nat, s < S → (AStudy.input disk sys files T S).parameter e.1.battery id t s = cellAt (columnOf l) (t % T).toNat 0 := by
    intro id n l hid hn t s hs
    rw [show (AStudy.input disk sys files T S).parameter e.1.battery id t s = _ from h.items.parameter (battery_mem he) hid t hs]
    unfold ItemParam.value
    rw [show (AStudy.input disk sys files T S).load = AStudy.load disk files from rfl]
    simp only [h.load_curve he hn]
    rfl
  have hn : ∀ {id : String} {v : Num}, (id, .num v) ∈ (batteryItem st e).params →
      ∀ t : Int, ∀ s : Nat, s < S → (AStudy.input disk sys files T S).parameter e.1.battery id t s = v.toQ :=
    fun hm t s hs => h.items.parameter (battery_mem he) hm t hs
  exact {
    injection := by
      intro t s hs'
      rw [hf (id := "p_max_injection_modulation") (n := capacityDir st e.1.id ++ "/p_max_injection_modulation_" ++ e.1.id)
        (l := e.2.injection.map fun v => quotient v e.2.top) (by simp [batteryItem]) (by simp [batteryFiles, String.append_assoc]) t s hs',
        hn (id := "injection_nominal_capacity") (v := e.2.top) (by simp [batteryItem]) t s hs', hm]
      exact divided hs.injection.1.1 m0 (lt_of_lt_of_le (hlt t) hs.injection.1.2)
    withdrawal := by
      intro t s hs'
      rw [hf (id := "p_max_withdrawal_modulation") (n := productionDir st e.1.id ++ "/p_max_withdrawal_modulation_" ++ e.1.id)
        (l := e.2.production.map fun v => quotient v e.2.withdrawal) (by simp [batteryItem]) (by simp [batteryFiles, String.append_assoc]) t s hs',
        hn (id := "withdrawal_nominal_capacity") (v := e.2.withdrawal) (by simp [batteryItem]) t s hs', hw]
      exact divided s2.1 w0 (lt_of_lt_of_le (hlt t) s2.2)
    lower := hn (v := 0) (by simp [batteryItem])
    upper := by
      intro t s hs'
      rw [hf (id := "upper_rule_curve") (n := levelDir st e.1.id ++ "/upper_rule_curve_z_batteries")
        (l := e.2.level.map fun v => quotient v e.2.reservoir) (by simp [batteryItem]) (by simp [batteryFiles, String.append_assoc]) t s hs',
        hn (id := "reservoir_capacity") (v := e.2.reservoir) (by simp [batteryItem]) t s hs', hr]
      exact divided s1.1 r0 (lt_of_lt_of_le (hlt t) s1.2)
    efficiency := by
      intro t s hs'
      rw [hn (id := "efficiency_injection") (v := e.2.linkWeight * (-1)) (by simp [batteryItem]) t s hs']
      obtain ⟨q, hq, -⟩ := fin_of k1
      rw [hq]
      show q * (-1) = -q
      ring
    weight := hn (by simp [batteryItem])
    cost := by
      intro t s hs'
      rw [hf (id := "marginal_cost") (n := costDir st e.1.id ++ "/marginal_cost_" ++ e.1.id)
        (l := e.2.cost) (by simp [batteryItem]) (by simp [batteryFiles, String.append_assoc]) t s hs',
        columnOf_at (lt_of_lt_of_le (hlt t) s3.2)]
      rfl }

/-! ## Connections -/

theorem rulesOf_area (h : AConverted st period pre disk B T S sys files) {a : AArea} (ha : a ∈ st.balanced) :
    (AStudy.input disk sys files T S).rulesOf a.id = some Rules.area :=
  h.items.rulesOf (area_mem ha)

theorem rulesOf_object (h : AConverted st period pre disk B T S sys files) {o : AObject} (ho : o ∈ st.objects) :
    (AStudy.input disk sys files T S).rulesOf o.name = some (rulesOf o) :=
  (h.items.rulesOf (object_mem ho)).trans (h.named ho)

theorem rulesOf_battery (h : AConverted st period pre disk B T S sys files) {e : AArea × BatteryData} (he : e ∈ B) :
    (AStudy.input disk sys files T S).rulesOf e.1.battery = some Rules.battery :=
  h.items.rulesOf (battery_mem he)

/-- the first end of a connection of an object: it sends its flow -/
theorem object_sends (h : AConverted st period pre disk B T S sys files) {o : AObject} (ho : o ∈ st.objects) {x : InputConnection}
    (hx : x ∈ o.connections) : x.component1 = o.name ∧ x.port2 = "balance_port" ∧ ∃ f, (x.port1, [("flow", some f)]) ∈ (rulesOf o).ports ∧
      (rulesOf o).sends x.port1 "flow" = some f := by
  rcases h.object_cases ho with ⟨a, c, rfl⟩ | ⟨a, u, rfl⟩ | ⟨a, rfl⟩ | ⟨l, rfl⟩
  · rw [List.mem_singleton.1 hx]
    exact ⟨rfl, rfl, _, .head _, rfl⟩
  · rw [List.mem_singleton.1 hx]
    exact ⟨rfl, rfl, _, .head _, rfl⟩
  · rw [List.mem_singleton.1 hx]
    exact ⟨rfl, rfl, _, .head _, rfl⟩
  · rcases List.mem_cons.1 hx with rfl | hx
    · exact ⟨rfl, rfl, _, .tail _ (.head _), rfl⟩
    · rw [List.mem_singleton.1 hx]
      exact ⟨rfl, rfl, _, .head _, rfl⟩

theorem second_end (h : AConverted st period pre disk B T S sys files) {x : InputConnection} (hx : x ∈ sys.connections) :
    ∃ a ∈ st.balanced, x.component2 = a.id := by
  obtain ⟨-, ⟨c, hc, he⟩, -⟩ := c56_connected_partial h.plain h.keys h.connectable h.ok x hx
  obtain ⟨a, ha, hca⟩ := forall₂_right (c56_nodes h.ok) hc
  exact ⟨a, ha, by rw [← he, hca.1]⟩

theorem joins (h : AConverted st period pre disk B T S sys files) {x : InputConnection} (hx : x ∈ sys.connections) :
    (AStudy.input disk sys files T S).Joins x := by
  obtain ⟨a, ha, h2⟩ := h.second_end hx
  obtain ⟨cs, bs, -, -, -, hc⟩ := h.parts
  rw [hc] at hx
  have key : ∀ {R : Rules} {f : Readings → Int → Int → ℚ}, (AStudy.input disk sys files T S).rulesOf x.component1 = some R →
      (x.port1, [("flow", some f)]) ∈ R.ports → R.sends x.port1 "flow" = some f → x.port2 = "balance_port" →
      (AStudy.input disk sys files T S).Joins x := by
    intro R f hR hp hs h3
    refine ⟨R, Rules.area, [("flow", some f)], [("flow", none)], hR, by rw [h2]; exact h.rulesOf_area ha, hp, by rw [h3]; exact .head _, rfl, ?_⟩
    intro g hg
    simp only [List.map_cons, List.map_nil, List.mem_singleton] at hg
    subst hg
    rw [hs, h3]
    exact Bool.noConfusion
  rcases List.mem_append.1 hx with hx | hx
  · obtain ⟨o, ho, hx⟩ := List.mem_flatMap.1 hx
    obtain ⟨h1, h3, f, h4, h5⟩ := h.object_sends ho hx
    exact key (by rw [h1]; exact h.rulesOf_object ho) h4 h5 h3
  · obtain ⟨e, he, rfl⟩ := List.mem_map.1 hx
    exact key (h.rulesOf_battery he) (.head _) rfl rfl

/-! ## Completeness -/

/-- the libraries of the study are there -/
def HasLibraries (libs : Dict String Library) (B : List (AArea × BatteryData)) : Prop :=
  (Dict.get? libs "antares-historic").isSome = true ∧ (B ≠ [] → (Dict.get? libs "andromede-v1-models").isSome = true)

theorem toNat_lt {T : Nat} (hT : 0 < T) (t : Int) : (t % T).toNat < T := by
  have h0 : 0 ≤ t % T := Int.emod_nonneg _ (by omega)
  have h1 : t % T < T := Int.emod_lt_of_pos _ (by omega)
  omega

theorem complete (h : AConverted st period pre disk B T S sys files) {libs : Dict String Library} (hl : HasLibraries libs B) :
    (AStudy.input disk sys files T S).Complete libs := by
  refine h.items.complete ?_ ?_ (fun k hk => h.joins hk) ?_
  · intro it hi
    rcases mem_items.1 hi with ⟨a, ha, rfl⟩ | ⟨o, ho, rfl⟩ | ⟨e, he, rfl⟩
    · rw [show Rules.libraryOf (areaItem a).ref = "antares-historic" from by simp only [areaItem]; decide]
      exact hl.1
    · have : Rules.libraryOf o.model = "antares-historic" := by cases o <;> simp only [AObject.model] <;> decide
      show (Dict.get? libs (Rules.libraryOf o.model)).isSome = true
      rw [this]
      exact hl.1
    · rw [show Rules.libraryOf (batteryItem st e).ref = "andromede-v1-models" from by simp only [batteryItem]; decide]
      exact hl.2 (List.ne_nil_of_mem he)
  · intro it hi R hR q hq
    rcases mem_items.1 hi with ⟨a, ha, rfl⟩ | ⟨o, ho, rfl⟩ | ⟨e, he, rfl⟩
    · cases (show some Rules.area = some R from hR)
      have : ∀ q ∈ Rules.area.parameters, q.1 ∈ ["ens_cost", "spillage_cost"] := by decide
      exact this q hq
    · rw [show Rules.named (objectItem st o).ref = some (rulesOf o) from h.named ho] at hR
      cases hR
      have e1 : (objectItem st o).params.map (·.1) = o.params.map (·.1) := by
        unfold objectItem
        rw [List.map_map]
        rfl
      rw [e1]
      rcases h.object_cases ho with ⟨a, c, rfl⟩ | ⟨a, u, rfl⟩ | ⟨a, rfl⟩ | ⟨l, rfl⟩
      · have : ∀ q ∈ Rules.thermal.parameters, q.1 ∈ ["p_min_cluster", "nb_units_min", "nb_units_max", "nb_units_max_variation_forward",
          "nb_units_max_variation_backward", "unit_count", "p_min_unit", "efficiency", "p_max_unit", "generation_cost", "fixed_cost",
          "startup_cost", "d_min_up", "d_min_down", "p_max_cluster"] := by decide
        exact this q hq
      · have : ∀ q ∈ Rules.shortTermStorage.parameters, q.1 ∈ ["efficiency_injection", "efficiency_withdrawal", "initial_level",
          "reservoir_capacity", "injection_nominal_capacity", "withdrawal_nominal_capacity", "inflows", "lower_rule_curve", "upper_rule_curve",
          "p_max_injection_modulation", "p_max_withdrawal_modulation"] := by decide
        exact this q hq
      · have : ∀ q ∈ Rules.load.parameters, q.1 ∈ ["load"] := by decide
        exact this q hq
      · have : ∀ q ∈ Rules.link.parameters, q.1 ∈ ["capacity_direct", "capacity_indirect"] := by decide
        exact this q hq
    · cases (show some Rules.battery = some R from hR)
      have : ∀ q ∈ Rules.battery.parameters, q.1 ∈ ["reservoir_capacity", "injection_nominal_capacity", "withdrawal_nominal_capacity",
        "efficiency_injection", "efficiency_withdrawal", "lower_rule_curve", "upper_rule_curve", "p_max_injection_modulation",
        "p_max_withdrawal_modulation", "marginal_cost"] := by decide
      exact this q hq
  · intro it hi d hd t s ht hs
    have hT := h.data.hours
    rcases mem_items.1 hi with ⟨a, ha, rfl⟩ | ⟨o, ho, rfl⟩ | ⟨e, he, rfl⟩
    · simp [Rules.needs, areaItem] at hd
    · have hso := h.data.objects o ho
      rcases h.object_cases ho with ⟨a, c, rfl⟩ | ⟨a, u, rfl⟩ | ⟨a, rfl⟩ | ⟨l, rfl⟩
      · simp [Rules.needs, objectItem, AObject.model] at hd
        subst hd
        obtain ⟨hc, -, -⟩ := hso
        obtain ⟨rfl, hp⟩ := h.thermalPars ho
        have hs0 : s = 0 := by omega
        subst hs0
        obtain ⟨cap, hcap, h0⟩ := hc.capacity
        obtain ⟨⟨up, hup⟩, down, hdown⟩ := hc.durations
        have hle : c.required t 0 ≤ c.available t 0 := min_le_right _ _
        have hav := hc.available t ht
        show (AStudy.input disk sys files T 1).parameter c.id "p_min_cluster" t 0 ≤ (AStudy.input disk sys files T 1).parameter c.id "p_max_cluster" t 0 ∧
          (AStudy.input disk sys files T 1).parameter c.id "nb_units_min" t 0 ≤ (AStudy.input disk sys files T 1).parameter c.id "nb_units_max" t 0 ∧
          0 ≤ (AStudy.input disk sys files T 1).parameter c.id "nb_units_max" t 0 ∧
          Whole ((AStudy.input disk sys files T 1).parameter c.id "d_min_up" t 0) ∧
          Whole ((AStudy.input disk sys files T 1).parameter c.id "d_min_down" t 0)
        rw [hp.pMin, hp.pMax, hp.unitsMin, hp.unitsMax, hp.up, hp.down, nat_mod T ht, hup, hdown]
        refine ⟨hle, ?_, ?_, ⟨up, by simp [Num.toQ]⟩, ⟨down, by simp [Num.toQ]⟩⟩
        · unfold AThermal.units AThermal.unitsFor
          rw [hcap]
          exact_mod_cast Int.ceil_le_ceil (div_le_div_of_nonneg_right hle h0.le)
        · unfold AThermal.units AThermal.unitsFor
          rw [hcap]
          exact_mod_cast Int.ceil_nonneg (div_nonneg hav h0.le)
      · simp [Rules.needs, objectItem, AObject.model] at hd
        subst hd
        have hp := h.storagePars ho
        obtain ⟨-, -, -, -, -, -, hv⟩ := hso
        have := hv t ht s hs
        show 0 ≤ (AStudy.input disk sys files T S).parameter u.id "p_max_injection_modulation" t s *
            (AStudy.input disk sys files T S).parameter u.id "injection_nominal_capacity" t s ∧
          0 ≤ (AStudy.input disk sys files T S).parameter u.id "p_max_withdrawal_modulation" t s *
            (AStudy.input disk sys files T S).parameter u.id "withdrawal_nominal_capacity" t s ∧
          (AStudy.input disk sys files T S).parameter u.id "lower_rule_curve" t s *
            (AStudy.input disk sys files T S).parameter u.id "reservoir_capacity" t s ≤
          (AStudy.input disk sys files T S).parameter u.id "upper_rule_curve" t s *
            (AStudy.input disk sys files T S).parameter u.id "reservoir_capacity" t s
        rw [hp.injection t s hs, hp.withdrawal t s hs, hp.lower t s hs, hp.upper t s hs, hp.injectionCapacity t s hs, hp.withdrawalCapacity t s hs,
          hp.reservoir t s hs, nat_mod T ht]
        exact this
      · simp [Rules.needs, objectItem, AObject.model] at hd
      · simp [Rules.needs, objectItem, AObject.model] at hd
        subst hd
        obtain ⟨h1, h2⟩ := h.link_pars ho t hs
        have := hso.2 t ht s hs
        show 0 ≤ (AStudy.input disk sys files T S).parameter l.id "capacity_direct" t s ∧
          0 ≤ (AStudy.input disk sys files T S).parameter l.id "capacity_indirect" t s
        rw [h1, h2, nat_mod T ht]
        exact this
    · simp [Rules.needs, batteryItem] at hd
      subst hd
      have hp := h.batteryPars he
      have := (h.data.batteries e he).values t ht
      show 0 ≤ (AStudy.input disk sys files T S).parameter e.1.battery "p_max_injection_modulation" t s *
          (AStudy.input disk sys files T S).parameter e.1.battery "injection_nominal_capacity" t s ∧
        0 ≤ (AStudy.input disk sys files T S).parameter e.1.battery "p_max_withdrawal_modulation" t s *
          (AStudy.input disk sys files T S).parameter e.1.battery "withdrawal_nominal_capacity" t s ∧
        (AStudy.input disk sys files T S).parameter e.1.battery "lower_rule_curve" t s *
          (AStudy.input disk sys files T S).parameter e.1.battery "reservoir_capacity" t s ≤
        (AStudy.input disk sys files T S).parameter e.1.battery "upper_rule_curve" t s *
          (AStudy.input disk sys files T S).parameter e.1.battery "reservoir_capacity" t s
      rw [hp.injection t s hs, hp.withdrawal t s hs, hp.lower t s hs, hp.upper t s hs, nat_mod T ht, zero_mul]
      exact this

end AConverted
end Verif
