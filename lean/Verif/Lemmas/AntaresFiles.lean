import Verif.Props.Antares
import Verif.Spec.AntaresProblem

/-!
# The files of a converted Antares study
-/

namespace Verif
open Verif.Props

/-! ## Battery files -/

/-- files with names in `N` and one column are added -/
def Adds (N : List String) (s s' : BState) : Prop := ∃ fs, s'.files = s.files ++ fs ∧ ∀ f ∈ fs, f.1 ∈ N ∧ ∃ l, f.2 = columnOf l

theorem Adds.refl (N : List String) (s : BState) : Adds N s s := ⟨[], by simp, by simp⟩

theorem Adds.trans {N : List String} {s s1 s2 : BState} (h : Adds N s s1) (h' : Adds N s1 s2) : Adds N s s2 := by
  obtain ⟨fs, e, h⟩ := h
  obtain ⟨gs, e', h'⟩ := h'
  refine ⟨fs ++ gs, by rw [e', e, List.append_assoc], ?_⟩
  intro f hf
  rcases List.mem_append.1 hf with hf | hf
  · exact h f hf
  · exact h' f hf

theorem convertValues_adds {st : AStudy} {N : List String} (ps : List TemplateParam)
    (hN : ∀ p ∈ ps, ∀ s r, convertValue st s p.id p.value = .ok r → Adds N s r.2) : ∀ {s s' : BState} {r : R (List InputParam)},
    convertValues st ps s = (s', r) → Adds N s s' := by
  induction ps with
  | nil => intro s s' r h; cases h; exact .refl N s
  | cons p ps ih =>
    intro s s' r h
    rw [convertValues] at h
    cases hv : convertValue st s p.id p.value with
    | error e =>
      rw [hv] at h
      cases h
      exact .refl N s
    | ok x =>
      obtain ⟨v, s1⟩ := x
      rw [hv] at h
      have h1 := hN p (by simp) _ _ hv
      cases hc : convertValues st ps s1 with
      | mk s2 r2 =>
        have h2 := ih (fun p hp => hN p (by simp [hp])) hc
        simp only [hc, Prod.mk.injEq] at h
        rw [← h.1]
        exact h1.trans h2

theorem battery_adds {st : AStudy} (hk : KeysAreIds st) {x : String} {s s' : BState} {r : R (List InputParam)}
    (h : convertValues st (batteryTemplate.componentParams.map (·.subst fun s => pyReplace s "${area}" x)) s = (s', r)) :
    Adds (batteryFileNames st x) s s' := by
  rw [battery_params] at h
  refine convertValues_adds _ ?_ h
  intro p hp s r hr
  simp only [List.mem_cons, List.not_mem_nil, or_false] at hp
  rcases hp with rfl | rfl | rfl | rfl | rfl | rfl | rfl | rfl | rfl | rfl
  · obtain ⟨v, -, rfl⟩ := capacity_ok_iff.1 hr
    exact ⟨[], by simp, by simp⟩
  · obtain ⟨_, _, _, -, -, -, rfl⟩ := max_ok_iff.1 hr
    exact ⟨[], by simp, by simp⟩
  · obtain ⟨v, -, rfl⟩ := capacity_ok_iff.1 hr
    exact ⟨[], by simp, by simp⟩
  · obtain ⟨v, -, rfl⟩ := weight_mul_ok_iff.1 hr
    exact .refl _ _
  · obtain ⟨v, -, rfl⟩ := weight_ok_iff.1 hr
    exact .refl _ _
  · cases hr
    exact .refl _ _
  · obtain ⟨a, _, _, ha, -, -, rfl⟩ := div_ok_iff.1 hr
    refine ⟨_, rfl, ?_⟩
    intro f hf
    rw [List.mem_singleton.1 hf]
    exact ⟨by simp [outName, hk.get ha, batteryFileNames, levelDir, String.append_assoc], _, rfl⟩
  · obtain ⟨a, _, _, ha, -, -, rfl⟩ := div_ok_iff.1 hr
    refine ⟨_, rfl, ?_⟩
    intro f hf
    rw [List.mem_singleton.1 hf]
    exact ⟨by simp [outName, hk.get ha, batteryFileNames, capacityDir, String.append_assoc], _, rfl⟩
  · obtain ⟨a, _, _, ha, -, -, rfl⟩ := div_ok_iff.1 hr
    refine ⟨_, rfl, ?_⟩
    intro f hf
    rw [List.mem_singleton.1 hf]
    exact ⟨by simp [outName, hk.get ha, batteryFileNames, productionDir, String.append_assoc], _, rfl⟩
  · obtain ⟨a, _, ha, -, rfl⟩ := series_ok_iff.1 hr
    refine ⟨_, rfl, ?_⟩
    intro f hf
    rw [List.mem_singleton.1 hf]
    exact ⟨by simp [outName, hk.get ha, batteryFileNames, costDir, String.append_assoc], _, rfl⟩

theorem capacity_unique {st : AStudy} {a c : String} {v w : Num} (h : CapacityIs st a c v) (h' : CapacityIs st a c w) : v = w := by
  obtain ⟨x, t, h1, h2, rfl⟩ := h
  obtain ⟨x', t', h1', h2', rfl⟩ := h'
  rw [h1] at h1'
  cases h1'
  rw [h2] at h2'
  cases h2'
  rfl

theorem weight_unique {st : AStudy} {a c : String} {v w : Num} (h : WeightIs st a c v) (h' : WeightIs st a c w) : v = w := by
  obtain ⟨x, h1, h2⟩ := h
  obtain ⟨x', h1', h2'⟩ := h'
  rw [h1] at h1'
  cases h1'
  rw [h2] at h2'
  cases h2'
  rfl

theorem battery_unique {st : AStudy} {a : String} {d d' : BatteryData} (h : BatteryOf st a d) (h' : BatteryOf st a d') : d = d' := by
  cases d
  cases d'
  simp only [BatteryData.mk.injEq]
  exact ⟨capacity_unique h.reservoir h'.reservoir, series_unique h.injection h'.injection, capacity_unique h.withdrawal h'.withdrawal,
    weight_unique h.linkWeight h'.linkWeight, weight_unique h.clusterWeight h'.clusterWeight, series_unique h.level h'.level,
    series_unique h.production h'.production, series_unique h.cost h'.cost⟩

theorem batteryFiles_names (st : AStudy) (x : String) (d : BatteryData) (m : Num) : (batteryFiles st x d m).map (·.1) = batteryFileNames st x := rfl

/-- where files of batteries come from -/
def FromBattery (st : AStudy) (as : List AArea) (f : String × Frame) : Prop :=
  ∃ a ∈ as, f.1 ∈ batteryFileNames st a.id ∧ (∃ l, f.2 = columnOf l) ∧ ∀ d m, BatteryOf st a.id d → pyMaximum d.injection = .ok m → f ∈ batteryFiles st a.id d m

theorem convertTemplates_files {st : AStudy} (hk : KeysAreIds st) (as : List AArea) : ∀ {s s' : BState} {c : Converted},
    convertTemplates st batteryTemplate "${area}" as s = .ok (s', c) → ∃ fs, s'.files = s.files ++ fs ∧ ∀ f ∈ fs, FromBattery st as f := by
  induction as with
  | nil =>
    intro s s' c h
    cases h
    exact ⟨[], by simp, by simp⟩
  | cons a as ih =>
    intro s s' c h
    rw [convertTemplates] at h
    cases hv : convertValues st (batteryTemplate.componentParams.map (·.subst fun s => pyReplace s "${area}" a.id)) s with
    | mk s1 r =>
    simp only [hv] at h
    cases r with
    | error e =>
      dsimp only at h
      cases he : e.isSkipped with
      | false => rw [he] at h; cases h
      | true =>
        rw [he] at h
        cases h
        obtain ⟨fs, e1, e2⟩ := battery_adds hk hv
        refine ⟨fs, e1, fun f hf => ⟨a, by simp, (e2 f hf).1, (e2 f hf).2, fun d m hd _ => absurd ⟨d, hd⟩ (battery_skipped hk hv he)⟩⟩
    | ok ps =>
      dsimp only at h
      obtain ⟨⟨s2, c2⟩, h2, h⟩ := bind_ok_iff.1 h
      cases h
      obtain ⟨fs, e1, e2⟩ := ih h2
      obtain ⟨d, m, hb, hm, hi, hf, -⟩ := (battery_ok_iff hk).1 hv
      refine ⟨batteryFiles st a.id d m ++ fs, by rw [e1, hf, List.append_assoc], ?_⟩
      intro f hf'
      rcases List.mem_append.1 hf' with hf' | hf'
      · refine ⟨a, by simp, ?_, ?_, ?_⟩
        · rw [← batteryFiles_names st a.id d m]
          exact List.mem_map_of_mem hf'
        · simp only [batteryFiles, List.mem_cons, List.not_mem_nil, or_false] at hf'
          rcases hf' with rfl | rfl | rfl | rfl <;> exact ⟨_, rfl⟩
        · intro d' m' hd' hm'
          cases battery_unique hb hd'
          rw [hm] at hm'
          cases hm'
          exact hf'
      · obtain ⟨b, hb', h3⟩ := e2 f hf'
        exact ⟨b, by simp [hb'], h3⟩

/-! ## All files -/

/-- the file of a computed parameter of a thermal cluster -/
def thermalFile (st : AStudy) (t : AThermal) (id : String) : String := st.fileOf ("thermal/series/" ++ t.areaId ++ "/" ++ t.id ++ "/" ++ id)

theorem thermalFile_eq (st : AStudy) (t : AThermal) (id : String) :
    thermalFile st t id = st.path ++ "/input/thermal/series/" ++ t.areaId ++ "/" ++ t.id ++ "/" ++ id ++ ".txt" := by
  unfold thermalFile AStudy.fileOf
  apply String.toList_inj.1
  simp

/-- where files of thermal clusters come from -/
def FromThermal (st : AStudy) (period : Int) (f : String × Frame) : Prop :=
  ∃ a t, .thermal a t ∈ st.objects ∧ ∃ id ∈ thermalParameters, f.1 = thermalFile st t id ∧ ∃ p, generateParameter (t.cluster st) id period = .ok (p, f)

theorem mem_kept_iff {st : AStudy} {a : AArea} {t : AThermal} : .thermal a t ∈ st.objects ↔ (a, t) ∈ keptSpec st := by
  rw [objects_eq]
  simp only [List.mem_append, List.mem_flatMap, List.mem_map, reduceCtorEq, and_false, exists_false, false_or, or_false]
  constructor
  · rintro ⟨⟨a', t'⟩, hm, he⟩
    cases he
    exact hm
  · exact fun h => ⟨_, h, rfl⟩

theorem thermal_from {st : AStudy} {period : Int} {a : AArea} {t : AThermal} (ho : .thermal a t ∈ st.objects) {fs : List (String × Frame)}
    (h : ThermalFiles st period t fs) {f : String × Frame} (hf : f ∈ fs) : FromThermal st period f := by
  obtain ⟨x1, x2, x3, x4, x5, h1, h2, h3, h4, h5, rfl⟩ := h
  have key : ∀ {id x}, id ∈ thermalParameters → generateParameter (t.cluster st) id period = .ok x → FromThermal st period x.2 := by
    intro id x hid hx
    refine ⟨a, t, ho, id, hid, ?_, x.1, hx⟩
    rw [thermalFile_eq, ((c44_file (t.cluster st) id period).1 x.1 x.2.1 x.2.2 hx).2.2.1]
    rfl
  have h1 : generateParameter (t.cluster st) "p_min_cluster" period = .ok x1 := h1
  have h2 : generateParameter (t.cluster st) "nb_units_min" period = .ok x2 := h2
  have h3 : generateParameter (t.cluster st) "nb_units_max" period = .ok x3 := h3
  simp only [List.mem_cons, List.not_mem_nil, or_false] at hf
  rcases hf with rfl | rfl | rfl | rfl | rfl
  · exact key (by decide) h1
  · exact key (by decide) h2
  · exact key (by decide) h3
  · exact key (by decide) h4
  · exact key (by decide) h5

/-- the areas that may have a battery -/
def AStudy.candidates (st : AStudy) : List AArea := st.areas.values.filter fun a => a.id ≠ "z_batteries" ∧ a.id ≠ "z_batteries_pcomp"

theorem files_from {st : AStudy} (hp : PlainAreas st) (hk : KeysAreIds st) {period : Option Int} {pre : Dict String Num}
    {sys : InputSystem} {files : List (String × Frame)} (h : convertStudy st batteryTemplate period pre = .ok (sys, files)) :
    ∀ f ∈ files, FromThermal st (periodOf period) f ∨ FromBattery st st.candidates f := by
  obtain ⟨t, b, ht, hb, -, -, -, h4⟩ := convertStudy_ok_iff.1 h
  rw [battery_pattern] at ht hb h4
  obtain ⟨-, fss, hf1, hf2⟩ := thermals_part hp ht
  simp only at h4
  have hempty : ∀ l : List Converted, (∀ c ∈ l, c.files = []) → (Converted.concat l).files = [] := by
    intro l hl
    induction l with
    | nil => rfl
    | cons c l ih =>
      show c.files ++ (Converted.concat l).files = []
      rw [hl c (by simp), ih fun c hc => hl c (by simp [hc])]
      rfl
  have hmisc : ∀ k i n a s, (convertMisc st k i n a s).files = [] := by
    intro k i n a s
    unfold convertMisc
    split
    · rfl
    · split <;> rfl
  have e1 : (convertRenewables st).files = [] := hempty _ (by
    intro c hc
    obtain ⟨a, -, hc⟩ := List.mem_flatMap.1 hc
    obtain ⟨r, -, rfl⟩ := List.mem_map.1 hc
    rfl)
  have e2 : (convertStorages st).files = [] := hempty _ (by
    intro c hc
    obtain ⟨a, -, hc⟩ := List.mem_flatMap.1 hc
    obtain ⟨r, -, rfl⟩ := List.mem_map.1 hc
    rfl)
  have e3 : (convertLoads st).files = [] := hempty _ (by
    intro c hc
    obtain ⟨a, -, rfl⟩ := List.mem_map.1 hc
    exact hmisc ..)
  have e4 : (convertWind st).files = [] := hempty _ (by
    intro c hc
    obtain ⟨a, -, rfl⟩ := List.mem_map.1 hc
    exact hmisc ..)
  have e5 : (convertSolar st).files = [] := hempty _ (by
    intro c hc
    obtain ⟨a, -, rfl⟩ := List.mem_map.1 hc
    exact hmisc ..)
  have e6 : (convertLinks st batteryTemplate "${area}").files = [] := hempty _ (by
    intro c hc
    obtain ⟨a, -, rfl⟩ := List.mem_map.1 hc
    rfl)
  rw [e1, e2, e3, e4, e5, e6] at h4
  simp only [List.nil_append] at h4
  rw [h4]
  intro f hf
  rcases List.mem_append.1 hf with hf | hf
  · left
    rw [hf1] at hf
    obtain ⟨fs, hfs, hf⟩ := List.mem_flatten.1 hf
    obtain ⟨⟨a, y⟩, hy, hyf⟩ := forall₂_right hf2 hfs
    exact thermal_from (mem_kept_iff.2 hy) hyf hf
  · right
    unfold convertBatteries at hb
    obtain ⟨⟨s, c⟩, h1, hb⟩ := bind_ok_iff.1 hb
    cases hb
    rw [validAreas_eq hk] at h1
    obtain ⟨fs, e1, e2⟩ := convertTemplates_files hk _ h1
    simp only [List.nil_append] at e1
    rw [e1] at hf
    exact e2 f hf

/-! ## What is read -/

theorem nodup_flatMap_unique {α β} {l : List α} {f : α → List β} (h : (l.flatMap f).Nodup) {x y : α} {n : β} (hx : x ∈ l) (hy : y ∈ l)
    (hnx : n ∈ f x) (hny : n ∈ f y) : x = y := by
  induction l with
  | nil => cases hx
  | cons z l ih =>
    rw [List.flatMap_cons] at h
    obtain ⟨-, h2, h3⟩ := List.nodup_append.1 h
    rcases List.mem_cons.1 hx with hx | hx <;> rcases List.mem_cons.1 hy with hy | hy
    · rw [hx, hy]
    · rw [hx] at hnx
      exact absurd rfl (h3 n hnx n (List.mem_flatMap.2 ⟨y, hy, hny⟩))
    · rw [hy] at hny
      exact absurd rfl (h3 n hny n (List.mem_flatMap.2 ⟨x, hx, hnx⟩))
    · exact ih h2 hx hy

theorem nodup_of_flatMap {α β} {l : List α} {f : α → List β} (h : (l.flatMap f).Nodup) {x : α} (hx : x ∈ l) : (f x).Nodup := by
  induction l with
  | nil => cases hx
  | cons z l ih =>
    rw [List.flatMap_cons] at h
    obtain ⟨h1, h2, -⟩ := List.nodup_append.1 h
    rcases List.mem_cons.1 hx with rfl | hx
    · exact h1
    · exact ih h2 hx

theorem load_written {disk : String → R Frame} {files : List (String × Frame)} {n : String} {f : Frame} (hf : (n ++ ".txt", f) ∈ files)
    (hu : ∀ g, (n ++ ".txt", g) ∈ files → g = f) : AStudy.load disk files n = .ok f := by
  unfold AStudy.load
  cases h : files.reverse.find? fun f => f.1 = n ++ ".txt" with
  | none =>
    rw [List.find?_eq_none] at h
    exact absurd (by simp) (h _ (List.mem_reverse.2 hf))
  | some g =>
    have h1 := List.mem_reverse.1 (List.mem_of_find?_eq_some h)
    have h2 : g.1 = n ++ ".txt" := by simpa using List.find?_some h
    obtain ⟨g1, g2⟩ := g
    simp only at h2
    subst h2
    simp only [hu g2 h1]

theorem load_disk {disk : String → R Frame} {files : List (String × Frame)} {n : String} (hu : ∀ g, (n ++ ".txt", g) ∉ files) :
    AStudy.load disk files n = disk (n ++ ".txt") := by
  unfold AStudy.load
  cases h : files.reverse.find? fun f => f.1 = n ++ ".txt" with
  | none => rfl
  | some g =>
    have h1 := List.mem_reverse.1 (List.mem_of_find?_eq_some h)
    have h2 : g.1 = n ++ ".txt" := by simpa using List.find?_some h
    obtain ⟨g1, g2⟩ := g
    simp only at h2
    subst h2
    exact absurd h1 (hu g2)

theorem thermal_files (st : AStudy) (a : AArea) (t : AThermal) :
    (AObject.thermal a t).files st = (thermalParameters ++ ["series"]).map (thermalFile st t) := by
  simp [AObject.files, AObject.params, thermalParameters, thermalFile, String.append_assoc]

theorem mem_files {st : AStudy} {o : AObject} {id f : String} (h : (id, .inr f) ∈ o.params) : st.fileOf f ∈ o.files st :=
  List.mem_filterMap.2 ⟨_, h, rfl⟩

section
variable {st : AStudy} (hp : PlainAreas st) (hk : KeysAreIds st) {period : Option Int} {pre : Dict String Num} {sys : InputSystem}
  {files : List (String × Frame)} (h : convertStudy st batteryTemplate period pre = .ok (sys, files)) {B : List (AArea × BatteryData)}
  (hd : st.Distinct B) (disk : String → R Frame)
include hp hk h hd

theorem load_thermal {a : AArea} {t : AThermal} (ho : .thermal a t ∈ st.objects) {id : String} (hid : id ∈ thermalParameters) :
    ∃ p f, generateParameter (t.cluster st) id (periodOf period) = .ok (p, thermalFile st t id, f) ∧
      AStudy.load disk files (st.path ++ "/input/" ++ ("thermal/series/" ++ t.areaId ++ "/" ++ t.id ++ "/" ++ id)) = .ok f := by
  have hper : (if period = none ∨ period = some 0 then 168 else period.getD 0) = periodOf period := by
    cases period with
    | none => rfl
    | some q => simp [periodOf]
  obtain ⟨p, f, h1, h2⟩ := c56_thermal_files hp h ho id hid
  rw [hper] at h1
  rw [← thermalFile_eq] at h1 h2
  refine ⟨p, f, h1, load_written h2 ?_⟩
  intro g hg
  obtain ⟨d1, d2, d3⟩ := List.nodup_append.1 hd.files
  have hm : ∀ i ∈ thermalParameters, thermalFile st t i ∈ (AObject.thermal a t).files st := by
    intro i hi
    rw [thermal_files]
    exact List.mem_map_of_mem (List.mem_append_left _ hi)
  rcases files_from hp hk h _ hg with ⟨a', t', ho', id', hid', he, p', hp'⟩ | ⟨a', ha', hn, -⟩
  · have he : thermalFile st t id = thermalFile st t' id' := he
    have hm' : thermalFile st t' id' ∈ (AObject.thermal a' t').files st := by
      rw [thermal_files]
      exact List.mem_map_of_mem (List.mem_append_left _ hid')
    rw [← he] at hm'
    have := nodup_flatMap_unique d1 ho ho' (hm id hid) hm'
    cases this
    have hnd := nodup_of_flatMap d1 ho
    rw [thermal_files] at hnd
    have := List.inj_on_of_nodup_map hnd (List.mem_append_left _ hid) (List.mem_append_left _ hid') he
    subst this
    rw [h1] at hp'
    have := Except.ok.inj hp'
    simp only [Prod.mk.injEq] at this
    exact this.2.2.symm
  · exact absurd rfl (d3 _ (List.mem_flatMap.2 ⟨_, ho, hm id hid⟩) _ (List.mem_flatMap.2 ⟨a', ha', hn⟩))

theorem load_other {o : AObject} (ho : o ∈ st.objects) {id f : String} (hf : (id, .inr f) ∈ o.params)
    (hn : ∀ a t, o = .thermal a t → id ∉ thermalParameters) : AStudy.load disk files (st.path ++ "/input/" ++ f) = disk (st.fileOf f) := by
  refine load_disk fun g hg => ?_
  obtain ⟨d1, d2, d3⟩ := List.nodup_append.1 hd.files
  have hm := mem_files (st := st) hf
  rcases files_from hp hk h _ hg with ⟨a', t', ho', id', hid', he, p', hp'⟩ | ⟨a', ha', hn, -⟩
  · have he : st.fileOf f = thermalFile st t' id' := he
    have hm' : thermalFile st t' id' ∈ (AObject.thermal a' t').files st := by
      rw [thermal_files]
      exact List.mem_map_of_mem (List.mem_append_left _ hid')
    rw [← he] at hm'
    have := nodup_flatMap_unique d1 ho ho' hm hm'
    subst this
    have hnd := nodup_of_flatMap d1 ho
    rw [thermal_files] at hnd
    have hser : st.fileOf f = thermalFile st t' "series" := by
      have := hn a' t' rfl
      simp only [AObject.params, List.mem_cons, Prod.mk.injEq, reduceCtorEq, and_false, List.not_mem_nil, or_false, false_or, Sum.inr.injEq] at hf
      rcases hf with ⟨rfl, -⟩ | ⟨rfl, -⟩ | ⟨rfl, -⟩ | ⟨rfl, -⟩ | ⟨rfl, -⟩ | ⟨-, rfl⟩
      · exact absurd (by decide) this
      · exact absurd (by decide) this
      · exact absurd (by decide) this
      · exact absurd (by decide) this
      · exact absurd (by decide) this
      · simp [thermalFile, String.append_assoc]
    rw [hser] at he
    have := List.inj_on_of_nodup_map hnd (List.mem_append_right _ (by simp)) (List.mem_append_left _ hid') he
    rw [← this] at hid'
    exact absurd hid' (by decide)
  · exact absurd rfl (d3 _ (List.mem_flatMap.2 ⟨_, ho, hm⟩) _ (List.mem_flatMap.2 ⟨a', ha', hn⟩))

theorem load_battery {a : AArea} (ha : a ∈ st.candidates) {d : BatteryData} {m : Num} (hb : BatteryOf st a.id d) (hm : pyMaximum d.injection = .ok m)
    (hall : ∀ f ∈ batteryFiles st a.id d m, f ∈ files) {n : String} {f : Frame} (hf : (n ++ ".txt", f) ∈ batteryFiles st a.id d m) :
    AStudy.load disk files n = .ok f := by
  refine load_written (hall _ hf) fun g hg => ?_
  obtain ⟨d1, d2, d3⟩ := List.nodup_append.1 hd.files
  have hn : n ++ ".txt" ∈ batteryFileNames st a.id := by
    rw [← batteryFiles_names st a.id d m]
    exact List.mem_map_of_mem hf
  rcases files_from hp hk h _ hg with ⟨a', t', ho', id', hid', he, p', hp'⟩ | ⟨a', ha', hn', -, hc⟩
  · have he : n ++ ".txt" = thermalFile st t' id' := he
    have hm' : thermalFile st t' id' ∈ (AObject.thermal a' t').files st := by
      rw [thermal_files]
      exact List.mem_map_of_mem (List.mem_append_left _ hid')
    rw [← he] at hm'
    exact absurd rfl (d3 _ (List.mem_flatMap.2 ⟨_, ho', hm'⟩) _ (List.mem_flatMap.2 ⟨a, ha, hn⟩))
  · have := nodup_flatMap_unique d2 ha ha' hn hn'
    subst this
    have hg' := hc d m hb hm
    have hnd := nodup_of_flatMap d2 ha
    rw [← batteryFiles_names st a.id d m] at hnd
    have := List.inj_on_of_nodup_map hnd hg' hf rfl
    exact (Prod.mk.inj this).2

end
end Verif
