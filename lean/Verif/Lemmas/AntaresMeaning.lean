import Verif.Lemmas.AntaresComplete

/-!
# The meaning of the study that an Antares study is converted to
-/

namespace Verif
open Verif.Props
namespace AConverted
variable {st : AStudy} {period : Option Int} {pre : Dict String Num} {disk : String → R Frame} {B : List (AArea × BatteryData)}
    {T S : Nat} {sys : InputSystem} {files : List (String × Frame)}

theorem carried_first {I : StudyInput} (σ : TermKey → ℚ) {x : InputConnection} {field : String} {R : Rules} {f : Readings → Int → Int → ℚ}
    (hR : I.rulesOf x.component1 = some R) (hs : R.sends x.port1 field = some f) (t s : Int) :
    I.carried σ x field t s = f (I.own σ x.component1) t s := by
  have h1 : I.sent σ x.component1 x.port1 field = some (f (I.own σ x.component1)) := by
    unfold StudyInput.sent
    rw [hR, Option.bind_some, hs]
    rfl
  unfold StudyInput.carried
  rw [h1]

theorem sum_one {α} (g : α → ℚ) (x : α) : ([x].map g).sum = g x := by simp

theorem sum_two {α} (g : α → ℚ) (x y : α) : ([x, y].map g).sum = g x + g y := by simp

theorem object_ne_area (h : AConverted st period pre disk B T S sys files) {o : AObject} (ho : o ∈ st.objects) {a : AArea} (ha : a ∈ st.balanced) :
    o.name ≠ a.id := by
  intro he
  exact (List.nodup_append.1 h.distinct.names).2.2 a.id (List.mem_map.2 ⟨a, ha, rfl⟩) o.name
    (List.mem_append_left _ (List.mem_map.2 ⟨o, ho, rfl⟩)) he.symm

theorem battery_ne_area (h : AConverted st period pre disk B T S sys files) {e : AArea × BatteryData} (he : e ∈ B) {a : AArea}
    (ha : a ∈ st.balanced) : e.1.battery ≠ a.id := by
  intro hn
  exact (List.nodup_append.1 h.distinct.names).2.2 a.id (List.mem_map.2 ⟨a, ha, rfl⟩) e.1.battery
    (List.mem_append_right _ (List.mem_map.2 ⟨e, he, rfl⟩)) hn.symm

theorem var_nat (h : AConverted st period pre disk B T S sys files) (σ : TermKey → ℚ) {it : StudyItem} (hi : it ∈ antaresItems st B) {R : Rules}
    (hR : Rules.named it.ref = some R) {v : String} (hv : R.variables_.find? (fun x => x.1 = v) = some (v, true, true)) {t : Nat} (ht : t < T)
    (s : Nat) : ((AStudy.input disk sys files T S).own σ it.id).v v t s = aPlanOf σ it.id v t s := by
  rw [h.var σ hi hR hv, nat_mod T ht]

/-- what an area receives -/
theorem received_area (h : AConverted st period pre disk B T S sys files) (σ : TermKey → ℚ) {b : AArea} (hb : b ∈ st.balanced) {t s : Nat}
    (ht : t < T) (hs : s < S) : ((AStudy.input disk sys files T S).readings σ b.id).received "balance_port" "flow" t s =
      st.receives disk B (aPlanOf σ) b.id t s := by
  obtain ⟨cs, bs, -, -, -, hc⟩ := h.parts
  show ((sys.connections.map _).sum) = _
  rw [hc, List.map_append, List.sum_append, PConverted.sum_flatMap]
  unfold AStudy.receives
  congr 1
  · congr 1
    refine List.map_congr_left fun o ho => ?_
    have hx : ∀ x ∈ o.connections, ∀ f, (rulesOf o).sends x.port1 "flow" = some f →
        (if x.component1 = b.id ∧ x.port1 = "balance_port" then (AStudy.input disk sys files T S).carried σ x "flow" t s else 0) +
          (if x.component2 = b.id ∧ x.port2 = "balance_port" then (AStudy.input disk sys files T S).carried σ x "flow" t s else 0) =
        if x.component2 = b.id then f ((AStudy.input disk sys files T S).own σ o.name) t s else 0 := by
      intro x hx f hf
      obtain ⟨h1, h2, -⟩ := h.object_sends ho hx
      rw [if_neg (fun hh => h.object_ne_area ho hb (h1.symm.trans hh.1)), zero_add, h2,
        carried_first σ (by rw [h1]; exact h.rulesOf_object ho) hf, h1]
      simp
    have hvar : ∀ {v : String}, (rulesOf o).variables_.find? (fun x => x.1 = v) = some (v, true, true) →
        ((AStudy.input disk sys files T S).own σ o.name).v v t s = aPlanOf σ o.name v t s :=
      fun hv => h.var_nat σ (object_mem ho) (h.named ho) hv ht s
    rcases h.object_cases ho with ⟨a, c, rfl⟩ | ⟨a, u, rfl⟩ | ⟨a, rfl⟩ | ⟨l, rfl⟩
    · refine (sum_one _ _).trans ((hx _ (.head _) _ rfl).trans ?_)
      show (if a.id = b.id then ((AStudy.input disk sys files T S).own σ (AObject.thermal a c).name).v "generation" t s else 0) = _
      rw [hvar rfl]
      rfl
    · refine (sum_one _ _).trans ((hx _ (.head _) _ rfl).trans ?_)
      show (if a.id = b.id then ((AStudy.input disk sys files T S).own σ (AObject.storage a u).name).v "p_withdrawal" t s -
        ((AStudy.input disk sys files T S).own σ (AObject.storage a u).name).v "p_injection" t s else 0) = _
      rw [hvar rfl, hvar rfl]
      rfl
    · refine (sum_one _ _).trans ((hx _ (.head _) _ rfl).trans ?_)
      show (if a.id = b.id then - (AStudy.input disk sys files T S).parameter "load" "load" t s else 0) = _
      rw [h.load_par ho t hs, nat_mod T ht]
      rfl
    · refine (sum_two _ _ _).trans ((congrArg₂ (· + ·) (hx _ (.head _) _ rfl) (hx _ (.tail _ (.head _)) _ rfl)).trans ?_)
      show (if l.areaFrom = b.id then - ((AStudy.input disk sys files T S).own σ (AObject.link l).name).v "flow" t s else 0) +
        (if l.areaTo = b.id then ((AStudy.input disk sys files T S).own σ (AObject.link l).name).v "flow" t s else 0) = _
      rw [hvar rfl]
      show _ = (if l.areaTo = b.id then aPlanOf σ l.id "flow" t s else 0) - (if l.areaFrom = b.id then aPlanOf σ l.id "flow" t s else 0)
      rw [show (AObject.link l).name = l.id from rfl]
      split_ifs <;> ring
  · rw [List.map_map]
    congr 1
    refine List.map_congr_left fun e he => ?_
    simp only [Function.comp]
    rw [if_neg (fun hh => h.battery_ne_area he hb hh.1), zero_add]
    have hvar : ∀ {v : String}, Rules.battery.variables_.find? (fun x => x.1 = v) = some (v, true, true) →
        ((AStudy.input disk sys files T S).own σ e.1.battery).v v t s = aPlanOf σ e.1.battery v t s :=
      fun hv => h.var_nat σ (battery_mem he) rfl hv ht s
    rw [carried_first σ (x := ⟨e.1.battery, "injection_port", e.1.id, "balance_port"⟩) (h.rulesOf_battery he) rfl]
    simp only [and_true]
    rw [hvar rfl, hvar rfl]

/-! ## Rules -/

/-- a sum over the last hours -/
theorem lastSteps_eq (n : Nat) (f : Int → ℚ) (t : Int) : Rules.lastSteps n f t = ∑ k ∈ Finset.range n, f (t - k) := by
  unfold Rules.lastSteps
  rw [show ((n : ℚ)).ceil = (n : Int) by exact_mod_cast Rat.ceil_intCast n]
  symm
  refine Finset.sum_bij (fun k _ => t - (k : Int)) ?_ ?_ ?_ (fun _ _ => rfl)
  · intro k hk
    have := Finset.mem_range.1 hk
    rw [Finset.mem_Icc]
    omega
  · intro a _ b _ hab
    have : t - (a : Int) = t - (b : Int) := hab
    omega
  · intro k hk
    rw [Finset.mem_Icc] at hk
    refine ⟨(t - k).toNat, Finset.mem_range.2 (by omega), ?_⟩
    show t - ((t - k).toNat : Int) = k
    omega

theorem area_accepts (h : AConverted st period pre disk B T S sys files) (σ : TermKey → ℚ) {a : AArea} (ha : a ∈ st.balanced) {t s : Nat}
    (ht : t < T) (hs : s < S) : Rules.area.accepts ((AStudy.input disk sys files T S).readings σ a.id) t s ↔
      0 ≤ aPlanOf σ a.id "spillage" t s ∧ 0 ≤ aPlanOf σ a.id "unsupplied_energy" t s ∧
        st.receives disk B (aPlanOf σ) a.id t s + aPlanOf σ a.id "unsupplied_energy" t s = aPlanOf σ a.id "spillage" t s := by
  have hvar : ∀ {v : String}, Rules.area.variables_.find? (fun x => x.1 = v) = some (v, true, true) →
      ((AStudy.input disk sys files T S).own σ a.id).v v t s = aPlanOf σ a.id v t s :=
    fun hv => h.var_nat σ (area_mem ha) rfl hv ht s
  show 0 ≤ ((AStudy.input disk sys files T S).own σ a.id).v "spillage" t s ∧
    0 ≤ ((AStudy.input disk sys files T S).own σ a.id).v "unsupplied_energy" t s ∧
    ((AStudy.input disk sys files T S).readings σ a.id).received "balance_port" "flow" t s +
      ((AStudy.input disk sys files T S).own σ a.id).v "unsupplied_energy" t s = ((AStudy.input disk sys files T S).own σ a.id).v "spillage" t s ↔ _
  rw [hvar rfl, hvar rfl, h.received_area σ ha ht hs]

theorem thermal_accepts (h : AConverted st period pre disk B T S sys files) (σ : TermKey → ℚ) {a : AArea} {c : AThermal}
    (ho : .thermal a c ∈ st.objects) {t s : Nat} (ht : t < T) (hs : s < S) :
    Rules.thermal.accepts ((AStudy.input disk sys files T S).readings σ c.id) t s ↔ c.Ok T (c.comparedWith period) (aPlanOf σ c.id) t s := by
  obtain ⟨rfl, hp⟩ := h.thermalPars ho
  obtain ⟨hc, -, -⟩ := h.data.objects _ ho
  have hs0 : s = 0 := by omega
  subst hs0
  obtain ⟨⟨up, hup⟩, down, hdown⟩ := hc.durations
  have hv : ∀ {v : String}, Rules.thermal.variables_.find? (fun x => x.1 = v) = some (v, true, true) → ∀ t : Int,
      ((AStudy.input disk sys files T 1).readings σ c.id).v v t 0 = aPlanOf σ c.id v (t % T).toNat 0 :=
    fun hv t => h.var σ (object_mem ho) (h.named ho) hv t 0
  have hpar : ∀ (n : String) (t : Int), ((AStudy.input disk sys files T 1).readings σ c.id).p n t 0 =
      (AStudy.input disk sys files T 1).parameter c.id n t 0 := fun _ _ => rfl
  have hu : ((up : ℚ)).ceil = (up : Int) := by exact_mod_cast Rat.ceil_intCast up
  have hd : ((down : ℚ)).ceil = (down : Int) := by exact_mod_cast Rat.ceil_intCast down
  have hhu : AThermal.hours c.minUpTime = up := by
    unfold AThermal.hours
    rw [hup]
    show ((up : ℚ)).ceil.toNat = up
    rw [hu, Int.toNat_natCast]
  have hhd : AThermal.hours c.minDownTime = down := by
    unfold AThermal.hours
    rw [hdown]
    show ((down : ℚ)).ceil.toNat = down
    rw [hd, Int.toNat_natCast]
  have hup' : c.minUpTime.toQ = (up : ℚ) := by rw [hup]; rfl
  have hdown' : c.minDownTime.toQ = (down : ℚ) := by rw [hdown]; rfl
  have hback : ∀ k : Nat, (((t : Int) - k) % T).toNat = earlier T t k := fun _ => rfl
  have hone : (((t : Int) - 1) % T).toNat = earlier T t 1 := rfl
  unfold Rules.thermal
  simp only [hpar, Nat.cast_zero]
  rw [hp.up, hp.down, hup', hdown', hd, lastSteps_eq, lastSteps_eq, lastSteps_eq]
  simp only [hp.pMin, hp.pMax, hp.unitsMin, hp.unitsMax, hp.forward, hp.backward, hp.pMinUnit, hp.pMaxUnit, hv (v := "generation") rfl,
    hv (v := "nb_units_on") rfl, hv (v := "nb_starting") rfl, hv (v := "nb_stopping") rfl, hv (v := "nb_failing") rfl, hback, hone, nat_mod T ht]
  constructor
  · rintro ⟨h1, h2, h3, h4, h5, h6, h7, h8, h9, h10, h11, h12⟩
    exact ⟨h1, h2, h3, h4, ⟨h5, h9, h10⟩, ⟨h7, h6⟩, h8, by rw [hhu]; exact h11, by rw [hhd]; exact h12⟩
  · intro hk
    have h11 := hk.minUp
    have h12 := hk.minDown
    rw [hhu] at h11
    rw [hhd] at h12
    exact ⟨hk.power, hk.running, hk.starting, hk.stopping, hk.failing.1, hk.each.2, hk.each.1, hk.dynamics, hk.failing.2.1, hk.failing.2.2, h11, h12⟩

theorem next_hour {T t : Nat} : (((t : Int) + 1) % T).toNat = (t + 1) % T := by
  rw [show ((t : Int) + 1) = ((t + 1 : Nat) : Int) by push_cast; ring, ← Int.natCast_mod, Int.toNat_natCast]

theorem storage_accepts (h : AConverted st period pre disk B T S sys files) (σ : TermKey → ℚ) {a : AArea} {u : AStorage}
    (ho : .storage a u ∈ st.objects) {t s : Nat} (ht : t < T) (hs : s < S) :
    Rules.shortTermStorage.accepts ((AStudy.input disk sys files T S).readings σ u.id) t s ↔ u.Ok st disk T (aPlanOf σ u.id) t s := by
  have hp := h.storagePars ho
  have hv : ∀ {v : String}, Rules.shortTermStorage.variables_.find? (fun x => x.1 = v) = some (v, true, true) → ∀ t : Int,
      ((AStudy.input disk sys files T S).readings σ u.id).v v t s = aPlanOf σ u.id v (t % T).toNat s :=
    fun hv t => h.var σ (object_mem ho) (h.named ho) hv t s
  have hpar : ∀ (n : String) (t : Int), ((AStudy.input disk sys files T S).readings σ u.id).p n t s =
      (AStudy.input disk sys files T S).parameter u.id n t s := fun _ _ => rfl
  have h0 : ((0 : Int) % T).toNat = 0 := by simp
  unfold Rules.shortTermStorage
  simp only [hpar]
  rw [hp.injection t s hs, hp.withdrawal t s hs, hp.lower t s hs, hp.upper t s hs, hp.inflows t s hs, hp.injectionCapacity t s hs,
    hp.withdrawalCapacity t s hs, hp.reservoir t s hs, hp.initial t s hs, hp.efficiency t s hs, hp.one t s hs]
  simp only [hv (v := "p_injection") rfl, hv (v := "p_withdrawal") rfl, hv (v := "level") rfl, nat_mod T ht, next_hour, h0, one_mul]
  constructor
  · rintro ⟨h1, h2, h3, h4, h5⟩
    exact ⟨h1, h2, h3, h4, h5⟩
  · intro hk
    exact ⟨hk.injection, hk.withdrawal, hk.level, hk.initial, hk.balance⟩

theorem link_accepts (h : AConverted st period pre disk B T S sys files) (σ : TermKey → ℚ) {l : ALink}
    (ho : .link l ∈ st.objects) {t s : Nat} (ht : t < T) (hs : s < S) :
    Rules.link.accepts ((AStudy.input disk sys files T S).readings σ l.id) t s ↔ l.Ok st disk (aPlanOf σ l.id) t s := by
  obtain ⟨p1, p2⟩ := h.link_pars ho t hs
  have hv : ∀ {v : String}, Rules.link.variables_.find? (fun x => x.1 = v) = some (v, true, true) → ∀ t : Int,
      ((AStudy.input disk sys files T S).readings σ l.id).v v t s = aPlanOf σ l.id v (t % T).toNat s :=
    fun hv t => h.var σ (object_mem ho) (h.named ho) hv t s
  have hpar : ∀ (n : String) (t : Int), ((AStudy.input disk sys files T S).readings σ l.id).p n t s =
      (AStudy.input disk sys files T S).parameter l.id n t s := fun _ _ => rfl
  unfold Rules.link
  simp only [hpar]
  rw [p1, p2]
  simp only [hv (v := "flow_direct") rfl, hv (v := "flow_indirect") rfl, hv (v := "flow") rfl, nat_mod T ht]
  constructor
  · rintro ⟨h1, h2, h3⟩
    exact ⟨h1, h2, h3⟩
  · intro hk
    exact ⟨hk.direct, hk.indirect, hk.flow⟩

theorem battery_accepts (h : AConverted st period pre disk B T S sys files) (σ : TermKey → ℚ) {e : AArea × BatteryData}
    (he : e ∈ B) {t s : Nat} (ht : t < T) (hs : s < S) :
    Rules.battery.accepts ((AStudy.input disk sys files T S).readings σ e.1.battery) t s ↔ e.2.Ok T (aPlanOf σ e.1.battery) t s := by
  have hp := h.batteryPars he
  have hv : ∀ {v : String}, Rules.battery.variables_.find? (fun x => x.1 = v) = some (v, true, true) → ∀ t : Int,
      ((AStudy.input disk sys files T S).readings σ e.1.battery).v v t s = aPlanOf σ e.1.battery v (t % T).toNat s :=
    fun hv t => h.var σ (battery_mem he) rfl hv t s
  have hpar : ∀ (n : String) (t : Int), ((AStudy.input disk sys files T S).readings σ e.1.battery).p n t s =
      (AStudy.input disk sys files T S).parameter e.1.battery n t s := fun _ _ => rfl
  unfold Rules.battery
  simp only [hpar]
  rw [hp.injection t s hs, hp.withdrawal t s hs, hp.lower t s hs, hp.upper t s hs, hp.efficiency t s hs, hp.weight t s hs]
  simp only [hv (v := "p_injection") rfl, hv (v := "p_withdrawal") rfl, hv (v := "level") rfl, nat_mod T ht, next_hour, zero_mul]
  constructor
  · rintro ⟨h1, h2, h3, h5⟩
    exact ⟨h1, h2, h3, by rw [h5]; ring⟩
  · intro hk
    exact ⟨hk.injection, hk.withdrawal, hk.level, by rw [hk.balance]; ring⟩

/-- the rules are accepted exactly when the decisions are admissible -/
theorem accepts_iff (h : AConverted st period pre disk B T S sys files) (σ : TermKey → ℚ) :
    (AStudy.input disk sys files T S).Accepts σ ↔ st.AdmitsWith disk B T S (fun c => c.comparedWith period) (aPlanOf σ) := by
  have hI := h.items
  have gen : ∀ {it : StudyItem} {R : Rules}, it ∈ antaresItems st B → Rules.named it.ref = some R → (AStudy.input disk sys files T S).Accepts σ →
      ∀ t s : Nat, t < T → s < S → R.accepts ((AStudy.input disk sys files T S).readings σ it.id) t s := by
    intro it R hi hR ha t s ht hs
    obtain ⟨c, hc, h1⟩ := hI.of_item hi
    rw [← h1.1]
    exact ha c hc R (by rw [h1.2.1]; exact hR) t s (by rw [hI.length_steps]; exact ht) hs
  constructor
  · intro ha
    refine ⟨fun a haa t ht s hs => ?_, fun o ho t ht s hs => ?_, fun e he t ht s hs => ?_⟩
    · exact (h.area_accepts σ haa ht hs).1 (gen (area_mem haa) rfl ha t s ht hs)
    · have := gen (object_mem ho) (h.named ho) ha t s ht hs
      rcases h.object_cases ho with ⟨a, c, rfl⟩ | ⟨a, u, rfl⟩ | ⟨a, rfl⟩ | ⟨l, rfl⟩
      · exact (h.thermal_accepts σ ho ht hs).1 this
      · exact (h.storage_accepts σ ho ht hs).1 this
      · trivial
      · exact (h.link_accepts σ ho ht hs).1 this
    · exact (h.battery_accepts σ he ht hs).1 (gen (battery_mem he) rfl ha t s ht hs)
  · intro ha c hc R hR t s ht hs
    rw [hI.length_steps] at ht
    have hs : s < S := hs
    obtain ⟨it, hi, h1⟩ := hI.of_declared hc
    rw [h1.1]
    rw [h1.2.1] at hR
    rcases mem_items.1 hi with ⟨a, haa, rfl⟩ | ⟨o, ho, rfl⟩ | ⟨e, he, rfl⟩
    · cases (show some Rules.area = some R from hR)
      exact (h.area_accepts σ haa ht hs).2 (ha.areas a haa t ht s hs)
    · rw [show Rules.named (objectItem st o).ref = some (rulesOf o) from h.named ho] at hR
      cases hR
      have := ha.objects o ho t ht s hs
      rcases h.object_cases ho with ⟨a, c, rfl⟩ | ⟨a, u, rfl⟩ | ⟨a, rfl⟩ | ⟨l, rfl⟩
      · exact (h.thermal_accepts σ ho ht hs).2 this
      · exact (h.storage_accepts σ ho ht hs).2 this
      · trivial
      · exact (h.link_accepts σ ho ht hs).2 this
    · cases (show some Rules.battery = some R from hR)
      exact (h.battery_accepts σ he ht hs).2 (ha.batteries e he t ht s hs)

/-! ## Costs -/

theorem expectedTotal_eq (h : AConverted st period pre disk B T S sys files) (σ : TermKey → ℚ) (id : String) {f : Int → Int → ℚ} {g : Nat → Nat → ℚ}
    (hfg : ∀ t s : Nat, t < T → s < S → f t s = g t s) :
    ((AStudy.input disk sys files T S).readings σ id).expectedTotal f = (∑ s ∈ Finset.range S, ∑ t ∈ Finset.range T, g t s) / S := by
  unfold Readings.expectedTotal
  rw [show ((AStudy.input disk sys files T S).readings σ id).T = T from h.items.length_steps,
    show ((AStudy.input disk sys files T S).readings σ id).S = S from rfl]
  congr 1
  refine Finset.sum_congr rfl fun s hs => Finset.sum_congr rfl fun t ht => ?_
  exact hfg t s (Finset.mem_range.1 ht) (Finset.mem_range.1 hs)

theorem area_costs (h : AConverted st period pre disk B T S sys files) (σ : TermKey → ℚ) {a : AArea} (ha : a ∈ st.balanced) :
    Rules.area.cost ((AStudy.input disk sys files T S).readings σ a.id) = (∑ s ∈ Finset.range S, ∑ t ∈ Finset.range T,
      (a.energyCostSpilled.toQ * aPlanOf σ a.id "spillage" t s + a.energyCostUnsupplied.toQ * aPlanOf σ a.id "unsupplied_energy" t s)) / S := by
  dsimp only [Rules.area]
  refine h.expectedTotal_eq σ a.id fun t s ht hs => ?_
  have hvar : ∀ {v : String}, Rules.area.variables_.find? (fun x => x.1 = v) = some (v, true, true) →
      ((AStudy.input disk sys files T S).readings σ a.id).v v t s = aPlanOf σ a.id v t s :=
    fun hv => h.var_nat σ (area_mem ha) rfl hv ht s
  obtain ⟨h1, h2⟩ := h.area_cost ha t hs
  rw [hvar rfl, hvar rfl]
  rw [show ((AStudy.input disk sys files T S).readings σ a.id).p "spillage_cost" t s = _ from h1,
    show ((AStudy.input disk sys files T S).readings σ a.id).p "ens_cost" t s = _ from h2]

theorem object_costs (h : AConverted st period pre disk B T S sys files) (σ : TermKey → ℚ) {o : AObject} (ho : o ∈ st.objects) :
    (rulesOf o).cost ((AStudy.input disk sys files T S).readings σ o.name) =
      (∑ s ∈ Finset.range S, ∑ t ∈ Finset.range T, o.cost (aPlanOf σ) t s) / S := by
  rcases h.object_cases ho with ⟨a, c, rfl⟩ | ⟨a, u, rfl⟩ | ⟨a, rfl⟩ | ⟨l, rfl⟩
  · obtain ⟨rfl, hp⟩ := h.thermalPars ho
    show Rules.thermal.cost ((AStudy.input disk sys files T 1).readings σ c.id) = _
    dsimp only [Rules.thermal]
    refine h.expectedTotal_eq σ c.id fun t s ht hs => ?_
    have hvar : ∀ {v : String}, Rules.thermal.variables_.find? (fun x => x.1 = v) = some (v, true, true) →
        ((AStudy.input disk sys files T 1).readings σ c.id).v v t s = aPlanOf σ c.id v t s :=
      fun hv => h.var_nat σ (object_mem ho) rfl hv ht s
    have hs0 : s = 0 := by omega
    subst hs0
    rw [hvar rfl, hvar rfl, hvar rfl]
    rw [show ((AStudy.input disk sys files T 1).readings σ c.id).p "generation_cost" t (0 : Nat) = _ from hp.generation t,
      show ((AStudy.input disk sys files T 1).readings σ c.id).p "startup_cost" t (0 : Nat) = _ from hp.startup t,
      show ((AStudy.input disk sys files T 1).readings σ c.id).p "fixed_cost" t (0 : Nat) = _ from hp.fixed t]
    rfl
  · show 0 = _
    simp [AObject.cost]
  · show 0 = _
    simp [AObject.cost]
  · show 0 = _
    simp [AObject.cost]

theorem battery_costs (h : AConverted st period pre disk B T S sys files) (σ : TermKey → ℚ) {e : AArea × BatteryData} (he : e ∈ B) :
    Rules.battery.cost ((AStudy.input disk sys files T S).readings σ e.1.battery) = (∑ s ∈ Finset.range S, ∑ t ∈ Finset.range T,
      valueAt e.2.cost t * aPlanOf σ e.1.battery "p_injection" t s) / S := by
  dsimp only [Rules.battery]
  refine h.expectedTotal_eq σ e.1.battery fun t s ht hs => ?_
  have hvar : ∀ {v : String}, Rules.battery.variables_.find? (fun x => x.1 = v) = some (v, true, true) →
      ((AStudy.input disk sys files T S).readings σ e.1.battery).v v t s = aPlanOf σ e.1.battery v t s :=
    fun hv => h.var_nat σ (battery_mem he) rfl hv ht s
  rw [hvar rfl]
  rw [show ((AStudy.input disk sys files T S).readings σ e.1.battery).p "marginal_cost" t s = _ from (h.batteryPars he).cost t s hs, nat_mod T ht]

theorem sum_swap {α} (l : List α) (g : α → Nat → Nat → ℚ) (T S : Nat) :
    (l.map fun a => (∑ s ∈ Finset.range S, ∑ t ∈ Finset.range T, g a t s) / S).sum =
      (∑ s ∈ Finset.range S, ∑ t ∈ Finset.range T, (l.map fun a => g a t s).sum) / S := by
  induction l with
  | nil => simp
  | cons a l ih =>
    simp only [List.map_cons, List.sum_cons, ih, Finset.sum_add_distrib]
    ring

theorem cost_eq (h : AConverted st period pre disk B T S sys files) (σ : TermKey → ℚ) :
    (AStudy.input disk sys files T S).cost σ = st.planCost B T S (aPlanOf σ) := by
  have h1 : (AStudy.input disk sys files T S).cost σ = ((antaresItems st B).map fun it =>
      ((Rules.named it.ref).map fun r => r.cost ((AStudy.input disk sys files T S).readings σ it.id)).getD 0).sum := by
    unfold StudyInput.cost
    refine PConverted.sum_forall₂ h.items.declared fun it hi c hc => ?_
    rw [hc.1, hc.2.1]
  rw [h1]
  unfold antaresItems
  rw [List.map_append, List.map_append, List.sum_append, List.sum_append, List.map_map, List.map_map, List.map_map]
  have a1 : (st.balanced.map ((fun it => ((Rules.named it.ref).map fun r => r.cost ((AStudy.input disk sys files T S).readings σ it.id)).getD 0) ∘
      areaItem)) = st.balanced.map fun a => (∑ s ∈ Finset.range S, ∑ t ∈ Finset.range T,
      (a.energyCostSpilled.toQ * aPlanOf σ a.id "spillage" t s + a.energyCostUnsupplied.toQ * aPlanOf σ a.id "unsupplied_energy" t s)) / (S : ℚ) :=
    List.map_congr_left fun a ha => h.area_costs σ ha
  have a2 : (st.objects.map ((fun it => ((Rules.named it.ref).map fun r => r.cost ((AStudy.input disk sys files T S).readings σ it.id)).getD 0) ∘
      objectItem st)) = st.objects.map fun o => (∑ s ∈ Finset.range S, ∑ t ∈ Finset.range T, o.cost (aPlanOf σ) t s) / (S : ℚ) := by
    refine List.map_congr_left fun o ho => ?_
    show ((Rules.named o.model).map fun r => r.cost ((AStudy.input disk sys files T S).readings σ o.name)).getD 0 = _
    rw [h.named ho]
    exact h.object_costs σ ho
  have a3 : (B.map ((fun it => ((Rules.named it.ref).map fun r => r.cost ((AStudy.input disk sys files T S).readings σ it.id)).getD 0) ∘
      batteryItem st)) = B.map fun e => (∑ s ∈ Finset.range S, ∑ t ∈ Finset.range T,
      valueAt e.2.cost t * aPlanOf σ e.1.battery "p_injection" t s) / (S : ℚ) :=
    List.map_congr_left fun e he => h.battery_costs σ he
  rw [a1, a2, a3]
  rw [sum_swap st.balanced (fun a t s => a.energyCostSpilled.toQ * aPlanOf σ a.id "spillage" t s +
      a.energyCostUnsupplied.toQ * aPlanOf σ a.id "unsupplied_energy" t s),
    sum_swap st.objects (fun o t s => o.cost (aPlanOf σ) t s),
    sum_swap B (fun e t s => valueAt e.2.cost t * aPlanOf σ e.1.battery "p_injection" t s)]
  unfold AStudy.planCost AStudy.costAt
  simp only [Finset.sum_add_distrib]
  ring

end AConverted
end Verif
