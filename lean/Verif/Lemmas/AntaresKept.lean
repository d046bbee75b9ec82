import Verif.Lemmas.AntaresMeaning
import Verif.Lemmas.PypsaKeptBalance
import Verif.Lemmas.UnitForms

/-! # The coefficients of the problem of a converted Antares study -/

namespace Verif
open Verif.Props Verif.Expr Verif.OptCtx Verif.Shipped Verif.PNetwork

/-- the reading of an expression in a component when variables have any values at any timestep -/
abbrev rdOf (I : StudyInput) (net : Network) (db : DataBase) (var : String → String → Option Int → Option Int → ℚ) (c : Component) : MCtx :=
  (I.context net db).readAs ((I.context net db).unwrapped var) c

section
variable {I : StudyInput} {net : Network} {db : DataBase} {c : Component}

theorem rdOf_par (hl : I.Linked net) (hs : I.Sound) (hdb : buildDataBase I.load I.system = .ok db) (hc : c ∈ net.allComponents) (n : String)
    (t : Int) (s : Nat) (var) : mden (rdOf I net db var c) (.par n) t s = I.parameter c.id n t s := by
  simp only [mden]
  exact hl.dataValue_eq hs hdb hc n t s (Int.natCast_nonneg s)

theorem rdOf_var (hl : I.Linked net) (hs : I.Sound) (hc : c ∈ net.allComponents) {m : Model} (hm : c.model = m) {v : String}
    (hv : m.variables_.get? v |>.map (·.structure_) |>.isEqSome ⟨true, true⟩) (t s : Int) (var) :
    mden (rdOf I net db var c) (.var v) t s = var c.id v (some t) (some s) := by
  have hg : (I.context net db).network.getComponent c.id = .ok c := getComponent_of_mem (hl.networkOk db hs) hc
  have : (I.context net db).varIdx c.id v = ⟨true, true⟩ := by
    unfold OptCtx.varIdx
    simp only [hg, hm]
    cases hx : Option.map (·.structure_) (m.variables_.get? v) with
    | none => rw [hx] at hv; cases hv
    | some i => rw [hx] at hv; simpa [Option.isEqSome] using hv
  simp only [mden]
  show var c.id v (atT ((I.context net db).varIdx c.id v) t) (atS ((I.context net db).varIdx c.id v) s) = _
  rw [this]
  rfl

theorem rdOf_average {T S : Nat} (hT : I.steps.length = T) (hS : I.scenarios = S) (e : Expr) (var) :
    mden (rdOf I net db var c) (.scen (.allsum e) .expectation) 0 0 =
      (∑ s ∈ Finset.range S, ∑ t ∈ Finset.range T, mden (rdOf I net db var c) e t s) / S := by
  subst hT hS
  rfl

theorem rdOf_received (hl : I.Linked net) (hs : I.Sound) (hdb : buildDataBase I.load I.system = .ok db) (hc : c ∈ net.allComponents)
    (p f : String) {t : Nat} (ht : t < I.steps.length) (s : Nat) (var) :
    mden (rdOf I net db var c) (.agg (.portField p f) .portSum) t s =
      (I.readings (StudyInput.Linked.wrapped var) c.id).received p f t s := by
  rw [hl.mden_block var _ (by
    intro y hy
    simp only [subs, List.mem_cons, List.not_mem_nil, or_false] at hy
    rcases hy with rfl | rfl <;> exact ⟨rfl, rfl⟩) t s (by positivity) (by exact_mod_cast ht)]
  rw [hl.mden_read hs hdb _ hc _ (by
    intro y hy
    simp only [subs, List.mem_cons, List.not_mem_nil, or_false] at hy
    rcases hy with rfl | rfl <;> rfl) t s (Int.natCast_nonneg s)]
  exact congrArg (fun R => R.received p f t s) (hl.readings_eq (db := db) hs (StudyInput.Linked.wrapped var) hc)

end

/-- the models of the items of an Antares study -/
def antaresModel (ref : String) : Option Model :=
  if ref = "antares-historic.area" then some antaresAreaModel else
  if ref = "antares-historic.load" then some antaresLoadModel else
  if ref = "antares-historic.link" then some antaresLinkModel else
  if ref = "antares-historic.thermal" then some antaresThermalModel else
  if ref = "antares-historic.short-term-storage" then some antaresShortTermStorageModel else
  if ref = "andromede-v1-models.battery" then some andromedeBatteryModel else none

theorem antares_model {ref : String} {m m' : Model} {R : Rules} (h : (ref, m, R) ∈ shippedModels) (hm : antaresModel ref = some m') : m = m' := by
  have key : ∀ x ∈ shippedModels, ∀ m', antaresModel x.1 = some m' → x.2.1 = m' := by
    intro x hx
    simp only [shippedModels, List.mem_cons, List.not_mem_nil, or_false] at hx
    rcases hx with rfl | rfl | rfl | rfl | rfl | rfl | rfl | rfl | rfl | rfl | rfl | rfl | rfl | rfl | rfl | rfl | rfl <;>
      intro m' hm <;> simp [antaresModel] at hm <;> exact hm
  exact key _ h _ hm

/-- no coefficient of the rules and costs of a component is dropped -/
def KeptAll (I : StudyInput) (net : Network) (db : DataBase) (T S : Nat) (c : Component) : Prop :=
  (∀ k ∈ c.model.allConstraints, ∀ t s : Nat, t < T → s < S → (I.context net db).NoTiny c k.expression t s) ∧
    ∀ e ∈ c.model.objectives, (I.context net db).NoTiny c e 0 0

namespace AConverted
variable {st : AStudy} {period : Option Int} {pre : Dict String Num} {disk : String → R Frame} {B : List (AArea × BatteryData)}
    {T S : Nat} {sys : InputSystem} {files : List (String × Frame)} {net : Network} {db : DataBase}

theorem kept_receives (st : AStudy) (disk : String → R Frame) (B : List (AArea × BatteryData)) (b : String) (t s : Nat) :
    IntForm fun σ => st.receives disk B (aPlanOf σ) b t s := by
  refine IntForm.add (IntForm.sumList _ fun o _ => ?_) (IntForm.sumList _ fun e _ => ?_)
  · cases o with
    | renewable a r => exact .ite (.const _) (.const _)
    | thermal a c => exact .ite (.single _) (.const _)
    | storage a u => exact .ite (.sub (.single _) (.single _)) (.const _)
    | load a => exact .ite (.const _) (.const _)
    | wind a => exact .ite (.const _) (.const _)
    | solar a => exact .ite (.const _) (.const _)
    | link l => exact .sub (.ite (.single _) (.const _)) (.ite (.single _) (.const _))
  · exact .ite (.sub (.single _) (.single _)) (.const _)

theorem component_cases (h : AConverted st period pre disk B T S sys files) (hl : (AStudy.input disk sys files T S).Linked net) {c : Component}
    (hc : c ∈ net.allComponents) : ∃ it ∈ antaresItems st B, c.id = it.id ∧ ∀ m, antaresModel it.ref = some m → c.model = m := by
  obtain ⟨ic, hic, hid, R, hR⟩ := hl.rules hc
  obtain ⟨it, hi, h1⟩ := h.items.of_declared hic
  refine ⟨it, hi, hid.trans h1.1, fun m hm => ?_⟩
  rw [h1.2.1] at hR
  exact antares_model hR hm

variable {c : Component}

theorem kept_area (h : AConverted st period pre disk B T S sys files) (hl : (AStudy.input disk sys files T S).Linked net)
    (hdb : buildDataBase (AStudy.load disk files) sys = .ok db) (hk : st.KeptData B T S) (hc : c ∈ net.allComponents)
    {a : AArea} (ha : a ∈ st.balanced) (hid : c.id = a.id) (hm : c.model = antaresAreaModel) :
    KeptAll (AStudy.input disk sys files T S) net db T S c := by
  have V : ∀ v ∈ ["spillage", "unsupplied_energy"], ∀ (t s : Int) var,
      mden (rdOf (AStudy.input disk sys files T S) net db var c) (.var v) t s = var a.id v (some t) (some s) := by
    intro v hv t s var
    rw [rdOf_var hl h.items.sound hc hm (by revert v; decide), hid]
  have P := fun n t s var => rdOf_par hl h.items.sound hdb hc n t s var
  refine ⟨?_, ?_⟩ <;> rw [hm]
  · intro k hkm t s ht hs
    simp only [Model.allConstraints, antaresAreaModel, Dict.values, List.map_cons, List.map_nil, List.append_nil, List.nil_append, List.mem_cons,
      List.not_mem_nil, or_false] at hkm
    subst hkm
    refine (((kept_receives st disk B a.id t s).sub (.single (cell a.id "spillage" t s))).add
      (.single (cell a.id "unsupplied_energy" t s))).kept.noTiny fun var => ?_
    show mden (rdOf (AStudy.input disk sys files T S) net db var c) (.agg (.portField "balance_port" "flow") .portSum) t s +
      (-mden (rdOf (AStudy.input disk sys files T S) net db var c) (.var "spillage") t s +
      (- -mden (rdOf (AStudy.input disk sys files T S) net db var c) (.var "unsupplied_energy") t s + 0)) = _
    rw [rdOf_received hl h.items.sound hdb hc _ _ (by rw [h.items.length_steps]; exact ht), hid, h.received_area _ ha ht hs,
      V _ (by simp), V _ (by simp)]
    simp only [StudyInput.Linked.wrapped]
    ring
  · intro e he
    simp only [Model.objectives, antaresAreaModel, Option.toList, List.append_nil, List.nil_append, List.mem_cons, List.not_mem_nil, or_false] at he
    subst he
    refine ((KeptForm.average T S (fun _ _ => (hk.areas a ha).1) a.id "spillage").add
      (KeptForm.average T S (fun _ _ => (hk.areas a ha).2) a.id "unsupplied_energy") ?_).noTiny fun var => ?_
    · rintro k ⟨t, s, rfl⟩ ⟨t', s', he⟩
      simp at he
    · rw [rdOf_average h.items.length_steps rfl, ← add_div, ← Finset.sum_add_distrib]
      congr 1
      refine Finset.sum_congr rfl fun s hs => ?_
      rw [← Finset.sum_add_distrib]
      refine Finset.sum_congr rfl fun t ht => ?_
      show mden (rdOf (AStudy.input disk sys files T S) net db var c) (.par "spillage_cost") t s *
        mden (rdOf (AStudy.input disk sys files T S) net db var c) (.var "spillage") t s +
        (mden (rdOf (AStudy.input disk sys files T S) net db var c) (.par "ens_cost") t s *
        mden (rdOf (AStudy.input disk sys files T S) net db var c) (.var "unsupplied_energy") t s + 0) = _
      obtain ⟨h1, h2⟩ := h.area_cost ha t (Finset.mem_range.1 hs)
      rw [V _ (by simp), V _ (by simp), P, P, hid, h1, h2, add_zero]
      rfl

theorem kept_thermal (h : AConverted st period pre disk B T S sys files) (hl : (AStudy.input disk sys files T S).Linked net)
    (hdb : buildDataBase (AStudy.load disk files) sys = .ok db) (hk : st.KeptData B T S) (hc : c ∈ net.allComponents)
    {a : AArea} {o : AThermal} (ho : .thermal a o ∈ st.objects) (hid : c.id = o.id) (hm : c.model = antaresThermalModel) :
    KeptAll (AStudy.input disk sys files T S) net db T S c := by
  have V : ∀ v ∈ ["generation", "nb_units_on", "nb_starting"], ∀ (t s : Int) var,
      mden (rdOf (AStudy.input disk sys files T S) net db var c) (.var v) t s = var o.id v (some t) (some s) := by
    intro v hv t s var
    rw [rdOf_var hl h.items.sound hc hm (by revert v; decide), hid]
  have P := fun n t s var => rdOf_par hl h.items.sound hdb hc n t s var
  obtain ⟨hS, hp⟩ := h.thermalPars ho
  obtain ⟨k1, k2, k3, k4, k5⟩ := hk.thermals a o ho
  refine ⟨?_, ?_⟩ <;> rw [hm]
  · intro k hkm t s ht hs
    have hs0 : s = 0 := by omega
    subst hs0
    simp only [Model.allConstraints, antaresThermalModel, Dict.values, List.map_cons, List.map_nil, List.append_nil, List.nil_append, List.mem_cons,
      List.not_mem_nil, or_false] at hkm
    rcases hkm with rfl | rfl | rfl | rfl | rfl | rfl | rfl
    · refine (KeptForm.pair kept_one (kept_neg k1) (k := cell o.id "generation" t (0 : Nat)) (k' := cell o.id "nb_units_on" t (0 : Nat)) (by simp)).noTiny fun var => ?_
      show mden (rdOf (AStudy.input disk sys files T S) net db var c) (.var "generation") t (0 : Nat) +
        (-(mden (rdOf (AStudy.input disk sys files T S) net db var c) (.var "nb_units_on") t (0 : Nat) *
        mden (rdOf (AStudy.input disk sys files T S) net db var c) (.par "p_max_unit") t (0 : Nat)) + 0) = _
      rw [V _ (by simp), V _ (by simp), P, hid, Nat.cast_zero, hp.pMaxUnit]
      simp only [StudyInput.Linked.wrapped]
      ring
    · refine (KeptForm.pair kept_one (kept_neg k2) (k := cell o.id "generation" t (0 : Nat)) (k' := cell o.id "nb_units_on" t (0 : Nat)) (by simp)).noTiny fun var => ?_
      show mden (rdOf (AStudy.input disk sys files T S) net db var c) (.var "generation") t (0 : Nat) +
        (-(mden (rdOf (AStudy.input disk sys files T S) net db var c) (.var "nb_units_on") t (0 : Nat) *
        mden (rdOf (AStudy.input disk sys files T S) net db var c) (.par "p_min_unit") t (0 : Nat)) + 0) = _
      rw [V _ (by simp), V _ (by simp), P, hid, Nat.cast_zero, hp.pMinUnit]
      simp only [StudyInput.Linked.wrapped]
      ring
    · refine Unitary.noTiny (.add ?_) _ _
      intro e he
      simp only [List.mem_cons, List.not_mem_nil, or_false] at he
      rcases he with rfl | rfl | rfl | rfl
      · exact .var _
      · exact .neg (.shift (.var _) (.neg (.lit _)))
      · exact .neg (.var _)
      · exact .neg (.neg (.var _))
    · refine Unitary.noTiny (.add ?_) _ _
      intro e he
      simp only [List.mem_cons, List.not_mem_nil, or_false] at he
      rcases he with rfl | rfl
      · exact .var _
      · exact .neg (.var _)
    · refine Unitary.noTiny (.add ?_) _ _
      intro e he
      simp only [List.mem_cons, List.not_mem_nil, or_false] at he
      rcases he with rfl | rfl
      · exact .var _
      · exact .neg (.steady (.par _))
    · have hw : ∀ n, Steady (.add [.neg (.par n), .lit (.fin 1)]) := by
        intro n
        refine .add fun e he => ?_
        simp only [List.mem_cons, List.not_mem_nil, or_false] at he
        rcases he with rfl | rfl
        · exact .neg (.par _)
        · exact .lit _
      refine Unitary.noTiny (.add ?_) _ _
      intro e he
      simp only [List.mem_cons, List.not_mem_nil, or_false] at he
      rcases he with rfl | rfl
      · refine .tsum (.add ?_) (hw _) (.lit _)
        intro e he
        simp only [List.mem_cons, List.not_mem_nil, or_false] at he
        rcases he with rfl | rfl
        · exact .var _
        · exact .neg (.var _)
      · exact .neg (.var _)
    · have hw : ∀ n, Steady (.add [.neg (.par n), .lit (.fin 1)]) := by
        intro n
        refine .add fun e he => ?_
        simp only [List.mem_cons, List.not_mem_nil, or_false] at he
        rcases he with rfl | rfl
        · exact .neg (.par _)
        · exact .lit _
      refine Unitary.noTiny (.add ?_) _ _
      intro e he
      simp only [List.mem_cons, List.not_mem_nil, or_false] at he
      rcases he with rfl | rfl | rfl | rfl
      · exact .tsum (.var _) (hw _) (.lit _)
      · exact .neg (.steady (.shift (.par _) (.neg (.par _))))
      · exact .neg (.neg (.var _))
      · exact .neg (.steady (.tsum (.par _) (hw _) (.lit _)))
  · intro e he
    simp only [Model.objectives, antaresThermalModel, Option.toList, List.append_nil, List.nil_append, List.mem_cons, List.not_mem_nil, or_false] at he
    subst he
    have hd : ∀ {q : ℚ}, Kept q → Kept (q / (S : ℚ)) := by
      intro q hq
      rw [hS, Nat.cast_one, div_one]
      exact hq
    refine (((KeptForm.average T S (fun _ _ => hd k3) o.id "generation").add
      (KeptForm.average T S (fun _ _ => hd k4) o.id "nb_starting") ?_).add
      (KeptForm.average T S (fun _ _ => hd k5) o.id "nb_units_on") ?_).noTiny fun var => ?_
    · rintro k ⟨t, s, rfl⟩ ⟨t', s', he⟩
      simp at he
    · rintro k (⟨t, s, rfl⟩ | ⟨t, s, rfl⟩) ⟨t', s', he⟩ <;> simp at he
    · rw [rdOf_average h.items.length_steps rfl, ← add_div, ← add_div, ← Finset.sum_add_distrib, ← Finset.sum_add_distrib]
      congr 1
      refine Finset.sum_congr rfl fun s hs => ?_
      rw [← Finset.sum_add_distrib, ← Finset.sum_add_distrib]
      refine Finset.sum_congr rfl fun t ht => ?_
      have hs := Finset.mem_range.1 hs
      have hs0 : s = 0 := by omega
      subst hs0
      show mden (rdOf (AStudy.input disk sys files T S) net db var c) (.par "generation_cost") t (0 : Nat) *
        mden (rdOf (AStudy.input disk sys files T S) net db var c) (.var "generation") t (0 : Nat) +
        (mden (rdOf (AStudy.input disk sys files T S) net db var c) (.par "startup_cost") t (0 : Nat) *
        mden (rdOf (AStudy.input disk sys files T S) net db var c) (.var "nb_starting") t (0 : Nat) +
        (mden (rdOf (AStudy.input disk sys files T S) net db var c) (.par "fixed_cost") t (0 : Nat) *
        mden (rdOf (AStudy.input disk sys files T S) net db var c) (.var "nb_units_on") t (0 : Nat) + 0)) = _
      rw [V _ (by simp), V _ (by simp), V _ (by simp), P, P, P, hid, Nat.cast_zero, hp.generation, hp.startup, hp.fixed, add_zero, ← add_assoc]
      rfl

theorem kept_storage (h : AConverted st period pre disk B T S sys files) (hl : (AStudy.input disk sys files T S).Linked net)
    (hdb : buildDataBase (AStudy.load disk files) sys = .ok db) (hk : st.KeptData B T S) (hc : c ∈ net.allComponents)
    {a : AArea} {u : AStorage} (ho : .storage a u ∈ st.objects) (hid : c.id = u.id) (hm : c.model = antaresShortTermStorageModel) :
    KeptAll (AStudy.input disk sys files T S) net db T S c := by
  have V : ∀ v ∈ ["p_injection", "p_withdrawal", "level"], ∀ (t s : Int) var,
      mden (rdOf (AStudy.input disk sys files T S) net db var c) (.var v) t s = var u.id v (some t) (some s) := by
    intro v hv t s var
    rw [rdOf_var hl h.items.sound hc hm (by revert v; decide), hid]
  have P := fun n t s var => rdOf_par hl h.items.sound hdb hc n t s var
  have hp := h.storagePars ho
  refine ⟨?_, ?_⟩ <;> rw [hm]
  · intro k hkm t s ht hs
    simp only [Model.allConstraints, antaresShortTermStorageModel, Dict.values, List.map_cons, List.map_nil, List.append_nil, List.nil_append, List.mem_cons,
      List.not_mem_nil, or_false] at hkm
    rcases hkm with rfl | rfl
    · refine Unitary.noTiny (.add ?_) _ _
      intro e he
      simp only [List.mem_cons, List.not_mem_nil, or_false] at he
      rcases he with rfl | rfl
      · exact .evalT (.var _) (.lit _)
      · exact .neg (.steady (.mul (.par _) (.par _)))
    · refine ((((KeptForm.pair kept_one (kept_neg kept_one) (k := cell u.id "level" (t + 1) s) (k' := cell u.id "level" t s) (by simp)).add
        (KeptForm.pair (kept_neg (hk.storages a u ho)) kept_one (k := cell u.id "p_injection" t s) (k' := cell u.id "p_withdrawal" t s) (by simp)) ?_)).add
        (.const (-(AStudy.input disk sys files T S).parameter u.id "inflows" t s)) fun _ _ h => h).noTiny fun var => ?_
      · rintro k (rfl | rfl) (he | he) <;> simp at he
      · show mden (rdOf (AStudy.input disk sys files T S) net db var c) (.var "level") (t + 1) s +
          (-mden (rdOf (AStudy.input disk sys files T S) net db var c) (.var "level") t s +
          (-(mden (rdOf (AStudy.input disk sys files T S) net db var c) (.par "efficiency_injection") t s *
            mden (rdOf (AStudy.input disk sys files T S) net db var c) (.var "p_injection") t s) +
          (- -(mden (rdOf (AStudy.input disk sys files T S) net db var c) (.par "efficiency_withdrawal") t s *
            mden (rdOf (AStudy.input disk sys files T S) net db var c) (.var "p_withdrawal") t s) +
          (-mden (rdOf (AStudy.input disk sys files T S) net db var c) (.par "inflows") t s + 0)))) = _
        rw [V _ (by simp), V _ (by simp), V _ (by simp), V _ (by simp), P, P, P, hid, hp.efficiency t s hs, hp.one t s hs]
        simp only [StudyInput.Linked.wrapped]
        ring
  · intro e he
    simp [Model.objectives, antaresShortTermStorageModel] at he

theorem kept_battery (h : AConverted st period pre disk B T S sys files) (hl : (AStudy.input disk sys files T S).Linked net)
    (hdb : buildDataBase (AStudy.load disk files) sys = .ok db) (hk : st.KeptData B T S) (hc : c ∈ net.allComponents)
    {e : AArea × BatteryData} (he : e ∈ B) (hid : c.id = e.1.battery) (hm : c.model = andromedeBatteryModel) :
    KeptAll (AStudy.input disk sys files T S) net db T S c := by
  have V : ∀ v ∈ ["p_injection", "p_withdrawal", "level"], ∀ (t s : Int) var,
      mden (rdOf (AStudy.input disk sys files T S) net db var c) (.var v) t s = var e.1.battery v (some t) (some s) := by
    intro v hv t s var
    rw [rdOf_var hl h.items.sound hc hm (by revert v; decide), hid]
  have P := fun n t s var => rdOf_par hl h.items.sound hdb hc n t s var
  have hp := h.batteryPars he
  obtain ⟨k1, k2, k3⟩ := hk.batteries e he
  refine ⟨?_, ?_⟩ <;> rw [hm]
  · intro k hkm t s ht hs
    simp only [Model.allConstraints, andromedeBatteryModel, Dict.values, List.map_cons, List.map_nil, List.append_nil, List.nil_append, List.mem_cons,
      List.not_mem_nil, or_false] at hkm
    subst hkm
    refine ((KeptForm.pair kept_one (kept_neg kept_one) (k := cell e.1.battery "level" (t + 1) s) (k' := cell e.1.battery "level" t s) (by simp)).add
      (KeptForm.pair k1 k2 (k := cell e.1.battery "p_injection" t s) (k' := cell e.1.battery "p_withdrawal" t s) (by simp)) ?_).noTiny fun var => ?_
    · rintro k (rfl | rfl) (he | he) <;> simp at he
    · show mden (rdOf (AStudy.input disk sys files T S) net db var c) (.var "level") (t + 1) s +
        (-mden (rdOf (AStudy.input disk sys files T S) net db var c) (.var "level") t s +
        (-(mden (rdOf (AStudy.input disk sys files T S) net db var c) (.par "efficiency_injection") t s *
          mden (rdOf (AStudy.input disk sys files T S) net db var c) (.var "p_injection") t s) +
        (- -(mden (rdOf (AStudy.input disk sys files T S) net db var c) (.par "efficiency_withdrawal") t s *
          mden (rdOf (AStudy.input disk sys files T S) net db var c) (.var "p_withdrawal") t s) + 0))) = _
      rw [V _ (by simp), V _ (by simp), V _ (by simp), V _ (by simp), P, P, hid, hp.efficiency t s hs, hp.weight t s hs]
      simp only [StudyInput.Linked.wrapped]
      ring
  · intro x hx
    simp only [Model.objectives, andromedeBatteryModel, Option.toList, List.append_nil, List.nil_append, List.mem_cons, List.not_mem_nil, or_false] at hx
    subst hx
    refine (KeptForm.average T S k3 e.1.battery "p_injection").noTiny fun var => ?_
    rw [rdOf_average h.items.length_steps rfl]
    congr 1
    refine Finset.sum_congr rfl fun s hs => Finset.sum_congr rfl fun t ht => ?_
    show mden (rdOf (AStudy.input disk sys files T S) net db var c) (.par "marginal_cost") t s *
      mden (rdOf (AStudy.input disk sys files T S) net db var c) (.var "p_injection") t s = _
    rw [V _ (by simp), P, hid, hp.cost t s (Finset.mem_range.1 hs), nat_mod T (Finset.mem_range.1 ht)]
    rfl

/-- no coefficient of the problem is dropped -/
theorem kept (h : AConverted st period pre disk B T S sys files) (hl : (AStudy.input disk sys files T S).Linked net)
    (hdb : buildDataBase (AStudy.load disk files) sys = .ok db) (hk : st.KeptData B T S) (hc : c ∈ net.allComponents) :
    KeptAll (AStudy.input disk sys files T S) net db T S c := by
  obtain ⟨it, hi, hid, hm⟩ := h.component_cases hl hc
  rcases mem_items.1 hi with ⟨a, ha, rfl⟩ | ⟨o, ho, rfl⟩ | ⟨e, he, rfl⟩
  · exact h.kept_area hl hdb hk hc ha hid (hm _ rfl)
  · rcases h.object_cases ho with ⟨a, o, rfl⟩ | ⟨a, u, rfl⟩ | ⟨a, rfl⟩ | ⟨l, rfl⟩
    · exact h.kept_thermal hl hdb hk hc ho hid (hm _ rfl)
    · exact h.kept_storage hl hdb hk hc ho hid (hm _ rfl)
    · have hm := hm _ rfl
      refine ⟨fun k hk => ?_, fun e he => ?_⟩
      · rw [hm] at hk
        simp [Model.allConstraints, antaresLoadModel, Dict.values] at hk
      · rw [hm] at he
        simp [Model.objectives, antaresLoadModel] at he
    · have hm := hm _ rfl
      refine ⟨?_, fun e he => ?_⟩
      · rw [hm]
        intro k hkm t s _ _
        simp only [Model.allConstraints, antaresLinkModel, Dict.values, List.map_cons, List.map_nil, List.append_nil, List.nil_append, List.mem_cons,
          List.not_mem_nil, or_false] at hkm
        subst hkm
        refine Unitary.noTiny (.add ?_) _ _
        intro e he
        simp only [List.mem_cons, List.not_mem_nil, or_false] at he
        rcases he with rfl | rfl | rfl
        · exact .var _
        · exact .neg (.var _)
        · exact .neg (.neg (.var _))
      · rw [hm] at he
        simp [Model.objectives, antaresLinkModel] at he
  · exact h.kept_battery hl hdb hk hc he hid (hm _ rfl)

end AConverted
end Verif
