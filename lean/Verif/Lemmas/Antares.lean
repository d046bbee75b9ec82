import Verif.Spec.Antares
import Verif.Lemmas.Basic
import Verif.Lemmas.Dict

/-! Lemmas on the conversion of Antares studies: replacement of patterns, and the objects of the study. -/

namespace Verif

/-! ## Patterns -/

theorem battery_pattern : areaPattern batteryTemplate = "${area}" := rfl

theorem replace_inj (x : String) : pyReplace "${area}.${area}_batteries_inj" "${area}" x = x ++ "." ++ x ++ "_batteries_inj" := by
  apply String.toList_inj.1
  simp [pyReplace, replaceGo, List.isPrefixOf]

theorem replace_one (x : String) :
    pyReplace "z_batteries.z_batteries_batteries_${area}_1" "${area}" x = "z_batteries" ++ "." ++ ("z_batteries_batteries_" ++ x ++ "_1") := by
  apply String.toList_inj.1
  simp [pyReplace, replaceGo, List.isPrefixOf]

theorem replace_two (x : String) :
    pyReplace "z_batteries.z_batteries_batteries_${area}_2" "${area}" x = "z_batteries" ++ "." ++ ("z_batteries_batteries_" ++ x ++ "_2") := by
  apply String.toList_inj.1
  simp [pyReplace, replaceGo, List.isPrefixOf]

theorem replace_link (x : String) : pyReplace "${area}%z_batteries" "${area}" x = x ++ "%" ++ "z_batteries" := by
  apply String.toList_inj.1
  simp [pyReplace, replaceGo, List.isPrefixOf]

/-! ## Names with a separator -/

theorem list_split_unique {c : Char} : ∀ {a b t u : List Char}, c ∉ a → c ∉ b → a ++ c :: t = b ++ c :: u → a = b ∧ t = u
  | [], [], _, _, _, _, h => by simpa using h
  | [], y :: b, _, _, _, hb, h => by
    simp only [List.nil_append, List.cons_append, List.cons.injEq] at h
    exact absurd (h.1 ▸ List.mem_cons_self) hb
  | x :: a, [], _, _, ha, _, h => by
    simp only [List.nil_append, List.cons_append, List.cons.injEq] at h
    exact absurd (h.1 ▸ List.mem_cons_self) ha
  | x :: a, y :: b, _, _, ha, hb, h => by
    simp only [List.cons_append, List.cons.injEq] at h
    have := list_split_unique (fun h => ha (List.mem_cons_of_mem _ h)) (fun h => hb (List.mem_cons_of_mem _ h)) h.2
    exact ⟨by rw [h.1, this.1], this.2⟩

theorem dot_unique {a b t u : String} (ha : '.' ∉ a.toList) (hb : '.' ∉ b.toList) : a ++ "." ++ t = b ++ "." ++ u ↔ a = b ∧ t = u := by
  constructor
  · intro h
    have := congrArg String.toList h
    simp only [String.toList_append] at this
    have h2 : a.toList ++ '.' :: t.toList = b.toList ++ '.' :: u.toList := by simpa using this
    have h3 := list_split_unique ha hb h2
    exact ⟨String.toList_inj.1 h3.1, String.toList_inj.1 h3.2⟩
  · rintro ⟨rfl, rfl⟩; rfl

theorem percent_unique {a b t u : String} (ha : '%' ∉ a.toList) (hb : '%' ∉ b.toList) : a ++ "%" ++ t = b ++ "%" ++ u ↔ a = b ∧ t = u := by
  constructor
  · intro h
    have := congrArg String.toList h
    simp only [String.toList_append] at this
    have h2 : a.toList ++ '%' :: t.toList = b.toList ++ '%' :: u.toList := by simpa using this
    have h3 := list_split_unique ha hb h2
    exact ⟨String.toList_inj.1 h3.1, String.toList_inj.1 h3.2⟩
  · rintro ⟨rfl, rfl⟩; rfl

theorem literal_append (a b : String) (s : String) : s ++ a ++ b = s ++ (a ++ b) := String.append_assoc

/-- names of areas have no `.` and no `%` (Antares does not allow them) -/
def PlainAreas (st : AStudy) : Prop :=
  (∀ a ∈ st.areas.values, '.' ∉ a.id.toList ∧ '%' ∉ a.id.toList) ∧ ∀ l ∈ st.links.values, '%' ∉ l.areaFrom.toList

theorem cluster_excluded {st : AStudy} (hp : PlainAreas st) {a : AArea} (ha : a ∈ st.areas.values) (t : String) :
    a.id ++ "." ++ t ∈ legacyToExclude st "${area}" batteryTemplate.thermals ↔ IsBatteryCluster st a.id t := by
  have hz : '.' ∉ "z_batteries".toList := by decide
  unfold legacyToExclude IsBatteryCluster
  simp only [List.mem_flatMap, batteryTemplate, List.map_cons, List.map_nil, List.mem_cons, List.not_mem_nil, or_false, replace_inj,
    replace_one, replace_two]
  constructor
  · rintro ⟨b, hb, h | h | h⟩
    · rw [literal_append b.id "_batteries_inj" (b.id ++ "."), dot_unique (hp.1 a ha).1 (hp.1 b hb).1] at h
      exact ⟨b, hb, .inl h⟩
    · rw [dot_unique (hp.1 a ha).1 hz] at h
      exact ⟨b, hb, .inr ⟨h.1, .inl h.2⟩⟩
    · rw [dot_unique (hp.1 a ha).1 hz] at h
      exact ⟨b, hb, .inr ⟨h.1, .inr h.2⟩⟩
  · rintro ⟨b, hb, h | ⟨h1, h2 | h2⟩⟩
    · exact ⟨b, hb, .inl (by rw [h.1, h.2, literal_append b.id "_batteries_inj" (b.id ++ ".")])⟩
    · exact ⟨b, hb, .inr (.inl (by rw [h1, h2]))⟩
    · exact ⟨b, hb, .inr (.inr (by rw [h1, h2]))⟩

theorem link_excluded {st : AStudy} (hp : PlainAreas st) {l : ALink} (hl : l ∈ st.links.values) :
    l.areaFrom ++ "%" ++ l.areaTo ∈ legacyToExclude st "${area}" batteryTemplate.links ↔ IsBatteryLink st l := by
  unfold legacyToExclude IsBatteryLink
  simp only [List.mem_flatMap, batteryTemplate, List.map_cons, List.map_nil, List.mem_cons, List.not_mem_nil, or_false, replace_link]
  constructor
  · rintro ⟨b, hb, h⟩
    rw [percent_unique (hp.2 l hl) (hp.1 b hb).2] at h
    exact ⟨h.2, b, hb, h.1.symm⟩
  · rintro ⟨h1, b, hb, h2⟩
    exact ⟨b, hb, by rw [h1, h2]⟩

/-! ## Parts of the study -/

/-- `x` is what the objects `os` give -/
structure PartOf (st : AStudy) (x : Converted) (os : List AObject) : Prop where
  components : List.Forall₂ (IsAntaresComponent st) os x.components
  connections : x.connections = os.flatMap AObject.connections

theorem PartOf.nil (st : AStudy) : PartOf st {} [] := ⟨.nil, rfl⟩

theorem PartOf.append {st : AStudy} {x y : Converted} {os ps : List AObject} (hx : PartOf st x os) (hy : PartOf st y ps) :
    PartOf st (x.append y) (os ++ ps) := by
  refine ⟨List.rel_append hx.components hy.components, ?_⟩
  rw [List.flatMap_append, ← hx.connections, ← hy.connections]
  rfl

theorem PartOf.concat {st : AStudy} {xs : List Converted} {oss : List (List AObject)} (h : List.Forall₂ (PartOf st) xs oss) :
    PartOf st (.concat xs) oss.flatten := by
  induction h with
  | nil => exact .nil st
  | cons h _ ih => exact h.append ih

theorem concat_append (xs ys : List Converted) : Converted.concat (xs ++ ys) = (Converted.concat xs).append (.concat ys) := by
  induction xs with
  | nil => rfl
  | cons x xs ih =>
    show x.append (Converted.concat (xs ++ ys)) = (x.append (Converted.concat xs)).append (Converted.concat ys)
    rw [ih]
    simp [Converted.append]

theorem partOf_concat_map {st : AStudy} {α} {l : List α} {f : α → Converted} {g : α → List AObject} (h : ∀ x ∈ l, PartOf st (f x) (g x)) :
    PartOf st (.concat (l.map f)) (l.flatMap g) := by
  induction l with
  | nil => exact .nil st
  | cons x l ih => exact (h x (by simp)).append (ih fun y hy => h y (by simp [hy]))

theorem partOf_concat_single {st : AStudy} {α} {l : List α} {f : α → Converted} {g : α → AObject} (h : ∀ x ∈ l, PartOf st (f x) [g x]) :
    PartOf st (.concat (l.map f)) (l.map g) := by
  induction l with
  | nil => exact .nil st
  | cons x l ih => exact (h x (by simp)).append (ih fun y hy => h y (by simp [hy]))

theorem partOf_concat_flatMap {st : AStudy} {α} {l : List α} {f : α → List Converted} {g : α → List AObject}
    (h : ∀ x ∈ l, PartOf st (.concat (f x)) (g x)) : PartOf st (.concat (l.flatMap f)) (l.flatMap g) := by
  induction l with
  | nil => exact .nil st
  | cons x l ih =>
    rw [List.flatMap_cons, concat_append]
    exact (h x (by simp)).append (ih fun y hy => h y (by simp [hy]))

theorem constParam_is (st : AStudy) (id : String) (v : Num) : IsAntaresParam st (id, .inl v) (constParam id v) := ⟨rfl, rfl, rfl, rfl, rfl⟩

theorem seriesParam_is {st : AStudy} {id f path : String} (h : path = st.path ++ "/input/" ++ f) :
    IsAntaresParam st (id, .inr f) (seriesParam id path) := ⟨rfl, rfl, rfl, rfl, by rw [h]; rfl⟩

theorem renewables_part (st : AStudy) :
    PartOf st (convertRenewables st) (st.areas.values.flatMap fun a => a.renewables.values.map (.renewable a)) := by
  refine partOf_concat_flatMap fun a _ => ?_
  refine partOf_concat_single fun r _ => ⟨.cons ⟨rfl, rfl, rfl, ?_⟩ .nil, rfl⟩
  refine .cons (constParam_is _ _ _) (.cons (constParam_is _ _ _) (.cons (seriesParam_is ?_) .nil))
  apply String.toList_inj.1
  simp

theorem storages_part (st : AStudy) :
    PartOf st (convertStorages st) (st.areas.values.flatMap fun a => a.storages.values.map (.storage a)) := by
  refine partOf_concat_flatMap fun a _ => ?_
  refine partOf_concat_single fun r _ => ⟨.cons ⟨rfl, rfl, rfl, ?_⟩ .nil, rfl⟩
  iterate 6 refine .cons (constParam_is _ _ _) ?_
  iterate 5 refine .cons (seriesParam_is (by apply String.toList_inj.1; simp)) ?_
  exact .nil

theorem eqb_zero_iff (v : Num) : v.eqb 0 = true ↔ v = 0 := by
  cases v <;> simp [Num.eqb, Num.zero_def]

theorem frameValid_iff (f : Frame) : frameValid f = true ↔ HasData (some f) := by
  unfold frameValid HasData
  by_cases hw : f.width = 0
  · simp [hw]
  · have h1 : (decide (f.width = 0)) = false := by simpa using hw
    simp only [h1, Bool.false_or]
    constructor
    · intro h
      have h2 : ¬ ((f.rows.isEmpty || f.rows.all fun r => r.all fun v => v.eqb 0) = true) := by
        intro hc; rw [if_pos hc] at h; cases h
      refine ⟨f, rfl, hw, ?_⟩
      by_contra hc
      push Not at hc
      refine h2 ?_
      rw [Bool.or_eq_true]
      refine .inr ?_
      simp only [List.all_eq_true, eqb_zero_iff]
      exact hc
    · rintro ⟨t, ht, -, r, hr, v, hv, h3⟩
      cases ht
      rw [if_neg]
      intro hc
      rw [Bool.or_eq_true] at hc
      rcases hc with hc | hc
      · rw [List.isEmpty_iff.1 hc] at hr
        cases hr
      · simp only [List.all_eq_true, eqb_zero_iff] at hc
        exact h3 (hc r hr v hv)

theorem misc_part {st : AStudy} {kind id name areaId : String} {o : AObject} {s : Option Frame} (h1 : o.name = id)
    (h2 : o.model = "antares-historic" ++ "." ++ kind) (h3 : o.params = [(kind, .inr (kind ++ "/series/" ++ kind ++ "_" ++ areaId))])
    (h4 : o.connections = [⟨name, "balance_port", areaId, "balance_port"⟩]) [Decidable (HasData s)] :
    PartOf st (convertMisc st kind id name areaId s) (if HasData s then [o] else []) := by
  unfold convertMisc
  cases s with
  | none =>
    rw [if_neg (by rintro ⟨t, ht, _⟩; cases ht)]
    exact .nil st
  | some f =>
    by_cases h : HasData (some f)
    · rw [if_pos h]
      dsimp only
      rw [if_pos ((frameValid_iff f).2 h)]
      refine ⟨.cons ⟨h1.symm, h2.symm, rfl, ?_⟩ .nil, ?_⟩
      · rw [h3]
        refine .cons (seriesParam_is ?_) .nil
        apply String.toList_inj.1
        simp
      · simp [h4]
    · rw [if_neg h]
      dsimp only
      rw [if_neg (mt (frameValid_iff f).1 h)]
      exact .nil st

theorem flatMap_ite {α β} (l : List α) (p : α → Prop) [DecidablePred p] (f : α → β) :
    (l.flatMap fun x => if p x then [f x] else []) = (l.filter fun x => p x).map f := by
  induction l with
  | nil => rfl
  | cons x l ih =>
    rw [List.flatMap_cons, ih]
    by_cases h : p x
    · simp [h]
    · simp [h]

open Classical in
theorem loads_part (st : AStudy) : PartOf st (convertLoads st) ((st.areas.values.filter fun a => HasData a.load).map .load) := by
  rw [← flatMap_ite]
  exact partOf_concat_map fun a _ => misc_part (o := .load a) rfl rfl rfl rfl

open Classical in
theorem wind_part (st : AStudy) : PartOf st (convertWind st) ((st.areas.values.filter fun a => HasData a.wind).map .wind) := by
  rw [← flatMap_ite]
  exact partOf_concat_map fun a _ => misc_part (o := .wind a) rfl rfl rfl rfl

open Classical in
theorem solar_part (st : AStudy) : PartOf st (convertSolar st) ((st.areas.values.filter fun a => HasData a.solar).map .solar) := by
  rw [← flatMap_ite]
  exact partOf_concat_map fun a _ => misc_part (o := .solar a) rfl rfl rfl rfl

open Classical in
theorem links_part {st : AStudy} (hp : PlainAreas st) :
    PartOf st (convertLinks st batteryTemplate "${area}") ((st.links.values.filter fun l => ¬ IsBatteryLink st l).map .link) := by
  have hk : keptLinks st batteryTemplate "${area}" = st.links.values.filter fun l => ¬ IsBatteryLink st l := by
    unfold keptLinks
    refine List.filter_congr fun l hl => ?_
    by_cases h : IsBatteryLink st l
    · simp [h, (link_excluded hp hl).2 h]
    · simp [h, mt (link_excluded hp hl).1 h]
  unfold convertLinks
  rw [hk]
  refine partOf_concat_single fun l _ => ⟨.cons ⟨rfl, rfl, rfl, ?_⟩ .nil, rfl⟩
  iterate 2 refine .cons (seriesParam_is (by apply String.toList_inj.1; simp)) ?_
  exact .nil

theorem generate_ok {c : ThermalCluster} {pid : String} {period : Int} {x : InputParam × String × Frame}
    (h : generateParameter c pid period = .ok x) :
    x.1 = { id := pid, timeDependent := true, scenarioDependent := true, value := .name (c.seriesPath ++ "/" ++ pid) } := by
  unfold generateParameter at h
  split at h
  · cases h
  · obtain ⟨f, -, h⟩ := bind_ok_iff.1 h
    cases h
    rfl

theorem generate_is {st : AStudy} {c : ThermalCluster} {pid f : String} {period : Int} {x : InputParam × String × Frame}
    (h : generateParameter c pid period = .ok x) (hf : c.seriesPath ++ "/" ++ pid = st.path ++ "/input/" ++ f) :
    IsAntaresParam st (pid, .inr f) x.1 := by
  rw [generate_ok h]
  exact ⟨rfl, rfl, rfl, rfl, by rw [hf]⟩

/-- the five files of a cluster -/
structure ThermalFiles (st : AStudy) (period : Int) (t : AThermal) (files : List (String × Frame)) : Prop where
  all : ∃ x1 x2 x3 x4 x5, generateParameter (t.cluster st) "p_min_cluster" = .ok x1 ∧ generateParameter (t.cluster st) "nb_units_min" = .ok x2 ∧
    generateParameter (t.cluster st) "nb_units_max" = .ok x3 ∧
    generateParameter (t.cluster st) "nb_units_max_variation_forward" period = .ok x4 ∧
    generateParameter (t.cluster st) "nb_units_max_variation_backward" period = .ok x5 ∧ files = [x1.2, x2.2, x3.2, x4.2, x5.2]

theorem thermal_part {st : AStudy} {period : Int} {a : AArea} {t : AThermal} {x : Converted} (h : convertThermal st period a.id t = .ok x) :
    PartOf st x [.thermal a t] ∧ ThermalFiles st period t x.files := by
  unfold convertThermal at h
  obtain ⟨x1, h1, h⟩ := bind_ok_iff.1 h
  obtain ⟨x2, h2, h⟩ := bind_ok_iff.1 h
  obtain ⟨x3, h3, h⟩ := bind_ok_iff.1 h
  obtain ⟨x4, h4, h⟩ := bind_ok_iff.1 h
  obtain ⟨x5, h5, h⟩ := bind_ok_iff.1 h
  cases h
  refine ⟨⟨.cons ⟨rfl, rfl, rfl, ?_⟩ .nil, rfl⟩, ⟨x1, x2, x3, x4, x5, h1, h2, h3, h4, h5, rfl⟩⟩
  refine .cons (generate_is h1 ?_) (.cons (generate_is h2 ?_) (.cons (generate_is h3 ?_) (.cons (generate_is h4 ?_)
    (.cons (generate_is h5 ?_) ?_))))
  iterate 5 exact String.toList_inj.1 (by simp [AThermal.cluster])
  iterate 9 refine .cons (constParam_is _ _ _) ?_
  exact .cons (seriesParam_is (String.toList_inj.1 (by simp [AThermal.cluster]))) .nil

open Classical in
/-- the clusters to convert -/
noncomputable def keptSpec (st : AStudy) : List (AArea × AThermal) :=
  st.areas.values.flatMap fun a => (a.thermals.values.filter fun t => ¬ IsBatteryCluster st a.id t.id).map fun t => (a, t)

theorem keptThermals_eq {st : AStudy} (hp : PlainAreas st) :
    keptThermals st batteryTemplate "${area}" = (keptSpec st).map fun x => (x.1.id, x.2) := by
  unfold keptThermals keptSpec
  rw [List.map_flatMap]
  refine List.flatMap_congr fun a ha => ?_
  rw [List.map_map]
  refine congrArg₂ _ rfl (List.filter_congr fun t _ => ?_)
  by_cases h : IsBatteryCluster st a.id t.id
  · simp [h, (cluster_excluded hp ha t.id).2 h]
  · simp [h, mt (cluster_excluded hp ha t.id).1 h]

theorem thermals_parts {st : AStudy} {period : Int} {l : List (AArea × AThermal)} {cs : List Converted}
    (h : List.Forall₂ (fun x c => convertThermal st period x.1.id x.2 = .ok c) l cs) :
    PartOf st (.concat cs) (l.map fun x => .thermal x.1 x.2) ∧
    ∃ fss, (Converted.concat cs).files = fss.flatten ∧ List.Forall₂ (fun y fs => ThermalFiles st period y.2 fs) l fss := by
  induction h with
  | nil => exact ⟨.nil st, [], rfl, .nil⟩
  | @cons y c l cs h _ ih =>
    obtain ⟨p1, p2⟩ := thermal_part h
    obtain ⟨q1, fss, q2, q3⟩ := ih
    refine ⟨p1.append q1, c.files :: fss, ?_, .cons p2 q3⟩
    rw [List.flatten_cons, ← q2]
    rfl

theorem thermals_part {st : AStudy} (hp : PlainAreas st) {period : Int} {x : Converted}
    (h : convertThermals st batteryTemplate "${area}" period = .ok x) :
    PartOf st x ((keptSpec st).map fun x => .thermal x.1 x.2) ∧
    ∃ fss, x.files = fss.flatten ∧ List.Forall₂ (fun y fs => ThermalFiles st period y.2 fs) (keptSpec st) fss := by
  unfold convertThermals at h
  rw [keptThermals_eq hp, appendAll_map] at h
  obtain ⟨cs, h1, h⟩ := bind_ok_iff.1 h
  cases h
  exact thermals_parts (appendAll_ok_iff.1 h1)

/-! ## The whole study -/

theorem forall₂_mem_left {α β} {r : α → β → Prop} {l : List α} {m : List β} (h : List.Forall₂ r l m) {x : α} (hx : x ∈ l) :
    ∃ y ∈ m, r x y := by
  induction h with
  | nil => cases hx
  | cons h _ ih =>
    rcases List.mem_cons.1 hx with rfl | hx
    · exact ⟨_, by simp, h⟩
    · obtain ⟨y, hy, hr⟩ := ih hx
      exact ⟨y, by simp [hy], hr⟩


theorem convertStudy_ok_iff {st : AStudy} {tpl : Template} {period : Option Int} {pre : Dict String Num}
    {r : InputSystem × List (String × Frame)} :
    convertStudy st tpl period pre = .ok r ↔ ∃ t b, convertThermals st tpl (areaPattern tpl) (periodOf period) = .ok t ∧
      convertBatteries st tpl (areaPattern tpl) pre = .ok b ∧
      r.1.nodes = convertAreas st tpl ∧
      r.1.components = (convertRenewables st).components ++ (t.components ++ ((convertStorages st).components ++
        ((convertLoads st).components ++ ((convertWind st).components ++ ((convertSolar st).components ++
        ((convertLinks st tpl (areaPattern tpl)).components ++ b.components)))))) ∧
      r.1.connections = (convertRenewables st).connections ++ (t.connections ++ ((convertStorages st).connections ++
        ((convertLoads st).connections ++ ((convertWind st).connections ++ ((convertSolar st).connections ++
        ((convertLinks st tpl (areaPattern tpl)).connections ++ b.connections)))))) ∧
      r.2 = (convertRenewables st).files ++ (t.files ++ ((convertStorages st).files ++ ((convertLoads st).files ++
        ((convertWind st).files ++ ((convertSolar st).files ++ ((convertLinks st tpl (areaPattern tpl)).files ++ b.files)))))) := by
  unfold convertStudy
  simp only [bind_ok_iff, Except.ok.injEq]
  constructor
  · rintro ⟨t, ht, b, hb, rfl⟩
    refine ⟨t, b, ht, hb, rfl, ?_, ?_, ?_⟩ <;> simp [Converted.concat, Converted.append]
  · rintro ⟨t, b, ht, hb, h1, h2, h3, h4⟩
    refine ⟨t, ht, b, hb, ?_⟩
    obtain ⟨⟨n, c, x⟩, f⟩ := r
    simp only at h1 h2 h3 h4
    rw [h1, h2, h3, h4]
    simp [Converted.concat, Converted.append]

theorem areas_nodes (st : AStudy) :
    List.Forall₂ IsAntaresNode (st.areas.values.filter fun a => a.id ≠ "z_batteries") (convertAreas st batteryTemplate) := by
  unfold convertAreas
  have : (st.areas.values.filter fun a => !batteryTemplate.nodes.contains a.id) = st.areas.values.filter fun a => a.id ≠ "z_batteries" := by
    refine List.filter_congr fun a _ => ?_
    simp [batteryTemplate]
  rw [this]
  generalize st.areas.values.filter (fun a => a.id ≠ "z_batteries") = l
  induction l with
  | nil => exact .nil
  | cons a l ih => exact .cons ⟨rfl, rfl, rfl, rfl⟩ ih

open Classical in
theorem objects_eq (st : AStudy) : st.objects =
    (st.areas.values.flatMap fun a => a.renewables.values.map (.renewable a)) ++
    (((keptSpec st).map fun x => .thermal x.1 x.2) ++ ((st.areas.values.flatMap fun a => a.storages.values.map (.storage a)) ++
    ((st.areas.values.filter fun a => HasData a.load).map .load ++ ((st.areas.values.filter fun a => HasData a.wind).map .wind ++
    ((st.areas.values.filter fun a => HasData a.solar).map .solar ++
    (st.links.values.filter fun l => ¬ IsBatteryLink st l).map .link))))) := by
  unfold AStudy.objects keptSpec
  simp only [List.map_flatMap, List.map_map, List.append_assoc]
  rfl

theorem study_part {st : AStudy} (hp : PlainAreas st) {period : Option Int} {pre : Dict String Num} {sys : InputSystem}
    {files : List (String × Frame)} (h : convertStudy st batteryTemplate period pre = .ok (sys, files)) :
    ∃ b cs, convertBatteries st batteryTemplate "${area}" pre = .ok b ∧ sys.components = cs ++ b.components ∧
      List.Forall₂ (IsAntaresComponent st) st.objects cs ∧
      sys.connections = st.objects.flatMap AObject.connections ++ b.connections ∧ (∀ f ∈ b.files, f ∈ files) ∧
      ∀ y ∈ keptSpec st, ∃ fs, ThermalFiles st (periodOf period) y.2 fs ∧ ∀ f ∈ fs, f ∈ files := by
  obtain ⟨t, b, ht, hb, -, h2, h3, h4⟩ := convertStudy_ok_iff.1 h
  rw [battery_pattern] at ht hb h2 h3 h4
  obtain ⟨p2, fss, hf1, hf2⟩ := thermals_part hp ht
  have hall := (renewables_part st).append (p2.append ((storages_part st).append ((loads_part st).append ((wind_part st).append
    ((solar_part st).append (links_part hp))))))
  have this := hall
  rw [← objects_eq] at this
  refine ⟨b, _, hb, ?_, this.components, ?_, ?_, ?_⟩
  · simp only at h2
    rw [h2]
    simp [Converted.append]
  · simp only at h3
    rw [← this.connections, h3]
    simp [Converted.append]
  · intro f hf
    simp only at h4
    rw [h4]
    simp [hf]
  · intro y hy
    obtain ⟨fs, hfs, hy'⟩ := forall₂_mem_left hf2 hy
    refine ⟨fs, hy', fun f hf => ?_⟩
    simp only at h4
    rw [h4, hf1]
    simp only [List.mem_append, List.mem_flatten]
    exact .inr (.inl ⟨fs, hfs, hf⟩)

end Verif
