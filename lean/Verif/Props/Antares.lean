import Verif.Lemmas.Battery
import Verif.Lemmas.PypsaAccept
import Verif.Props.Thermal
import Verif.Props.System

/-!
# Conversion of Antares studies (C56) and of their batteries (C57)

The specification is in `Spec/Antares.lean`: `AStudy.objects` are the objects to convert, `IsAntaresComponent` says which component an
object gives and `AObject.connections` which connections; `BatteryOf` says which data describe the battery of an area, `IsBattery` and
`batteryFiles` what they give.
-/

namespace Verif.Props

open Verif

/-! ## C56 -/

/-- **C56.** Each area is a node with its costs, except `z_batteries`, which only stands for batteries. -/
theorem c56_nodes {st : AStudy} {period : Option Int} {pre : Dict String Num} {sys : InputSystem} {files : List (String × Frame)}
    (h : convertStudy st batteryTemplate period pre = .ok (sys, files)) :
    List.Forall₂ IsAntaresNode (st.areas.values.filter fun a => a.id ≠ "z_batteries") sys.nodes := by
  obtain ⟨t, b, -, -, h1, -⟩ := convertStudy_ok_iff.1 h
  simp only at h1
  rw [h1]
  exact areas_nodes st

theorem batteries_ok {st : AStudy} (hk : KeysAreIds st) {pre : Dict String Num} {b : Converted}
    (h : convertBatteries st batteryTemplate "${area}" pre = .ok b) :
    ∃ done rest, (st.areas.values.filter fun a => a.id ≠ "z_batteries" ∧ a.id ≠ "z_batteries_pcomp") = done ++ rest ∧
      List.Forall₂ (fun a x => ∃ d m, BatteryOf st a.id d ∧ pyMaximum d.injection = .ok m ∧ IsBattery st a.id d m x ∧
        ∀ f ∈ batteryFiles st a.id d m, f ∈ b.files) done b.components ∧
      b.connections = done.map (fun a => ⟨"battery_" ++ a.id, "injection_port", a.id, "balance_port"⟩) ∧
      ∀ a, rest.head? = some a → ¬ ∃ d, BatteryOf st a.id d := by
  unfold convertBatteries at h
  obtain ⟨⟨s, c⟩, h1, h⟩ := bind_ok_iff.1 h
  cases h
  rw [validAreas_eq hk] at h1
  obtain ⟨done, rest, e1, -, e2, e3, e4⟩ := convertTemplates_ok hk _ h1
  exact ⟨done, rest, e1, e2, e3, e4⟩

/-- **C56.** Each object of the study gives one component, in order, with the numbers and files of the study, and the connections to its
areas; then come the batteries (C57).  Objects that stand for batteries give nothing else. -/
theorem c56_components {st : AStudy} (hp : PlainAreas st) (hk : KeysAreIds st) {period : Option Int} {pre : Dict String Num}
    {sys : InputSystem} {files : List (String × Frame)} (h : convertStudy st batteryTemplate period pre = .ok (sys, files)) :
    ∃ cs bs xs, sys.components = cs ++ bs ∧ List.Forall₂ (IsAntaresComponent st) st.objects cs ∧
      sys.connections = st.objects.flatMap AObject.connections ++ xs ∧
      List.Forall₂ (fun c x => c.model = "andromede-v1-models.battery" ∧ c.id = "battery_" ++ x.component2 ∧
        x.component1 = c.id ∧ x.port1 = "injection_port" ∧ x.port2 = "balance_port") bs xs := by
  obtain ⟨b, cs, hb, h1, h2, h3, -⟩ := study_part hp h
  obtain ⟨done, rest, -, e2, e3, -⟩ := batteries_ok hk hb
  refine ⟨cs, b.components, b.connections, h1, h2, h3, ?_⟩
  rw [e3]
  clear e3 h1 h3
  generalize b.components = bs at e2
  induction e2 with
  | nil => exact .nil
  | cons hd _ ih =>
    obtain ⟨d, m, -, -, hi, -⟩ := hd
    exact .cons ⟨hi.2.1, hi.1, hi.1.symm, rfl, rfl⟩ ih

/-- **C56.** Files are written for each thermal cluster that is converted: those of C44 for the five parameters that are computed, for
periods of a week unless another number of hours is given. -/
theorem c56_thermal_files {st : AStudy} (hp : PlainAreas st) {period : Option Int} {pre : Dict String Num} {sys : InputSystem}
    {files : List (String × Frame)} (h : convertStudy st batteryTemplate period pre = .ok (sys, files)) {a : AArea} {t : AThermal}
    (ho : .thermal a t ∈ st.objects) :
    ∀ id ∈ thermalParameters, ∃ p f, generateParameter (t.cluster st) id (if period = none ∨ period = some 0 then 168 else period.getD 0) =
      .ok (p, st.path ++ "/input/thermal/series/" ++ t.areaId ++ "/" ++ t.id ++ "/" ++ id ++ ".txt", f) ∧
      (st.path ++ "/input/thermal/series/" ++ t.areaId ++ "/" ++ t.id ++ "/" ++ id ++ ".txt", f) ∈ files := by
  have hper : (if period = none ∨ period = some 0 then 168 else period.getD 0) = periodOf period := by
    cases period with
    | none => rfl
    | some q => simp [periodOf]
  rw [hper]
  obtain ⟨b, cs, -, -, -, -, -, hf⟩ := study_part hp h
  have hm : (a, t) ∈ keptSpec st := by
    rw [objects_eq] at ho
    simp only [List.mem_append, List.mem_flatMap, List.mem_map, reduceCtorEq, and_false, exists_false, false_or, or_false] at ho
    obtain ⟨⟨a', t'⟩, hm, he⟩ := ho
    cases he
    exact hm
  obtain ⟨fs, ⟨x1, x2, x3, x4, x5, h1, h2, h3, h4, h5, hfs⟩, hmem⟩ := hf _ hm
  have hconst : ∀ id ∈ ["p_min_cluster", "nb_units_min", "nb_units_max"], ∀ q, generateParameter (t.cluster st) id q =
      generateParameter (t.cluster st) id := by
    intro id hid q
    simp only [List.mem_cons, List.not_mem_nil, or_false] at hid
    rcases hid with rfl | rfl | rfl <;> rfl
  have hpath : ∀ {id q x}, generateParameter (t.cluster st) id q = .ok x →
      x.2.1 = st.path ++ "/input/thermal/series/" ++ t.areaId ++ "/" ++ t.id ++ "/" ++ id ++ ".txt" := by
    intro id q x hx
    have := ((c44_file (t.cluster st) id q).1 x.1 x.2.1 x.2.2 hx).2.2.1
    rw [this]
    rfl
  have key : ∀ {id q x}, generateParameter (t.cluster st) id q = .ok x → x.2 ∈ fs →
      ∃ p f, generateParameter (t.cluster st) id q =
        .ok (p, st.path ++ "/input/thermal/series/" ++ t.areaId ++ "/" ++ t.id ++ "/" ++ id ++ ".txt", f) ∧
        (st.path ++ "/input/thermal/series/" ++ t.areaId ++ "/" ++ t.id ++ "/" ++ id ++ ".txt", f) ∈ files := by
    intro id q x hx hxm
    have := hpath hx
    refine ⟨x.1, x.2.2, ?_, ?_⟩
    · rw [hx, ← this]
    · rw [← this]
      exact hmem _ hxm
  intro id hid
  simp only [thermalParameters, List.mem_cons, List.not_mem_nil, or_false] at hid
  rcases hid with rfl | rfl | rfl | rfl | rfl
  · rw [hconst _ (by simp)]; exact key h1 (by simp [hfs])
  · rw [hconst _ (by simp)]; exact key h2 (by simp [hfs])
  · rw [hconst _ (by simp)]; exact key h3 (by simp [hfs])
  · exact key h4 (by simp [hfs])
  · exact key h5 (by simp [hfs])

theorem variation_width {c : ThermalCluster} {d : Direction} {q : Int} {f : Frame} (h : nbUnitsMaxVariation c d q = .ok f) :
    c.series.width ≠ 0 := by
  intro hw
  unfold nbUnitsMaxVariation at h
  obtain ⟨rows, -, h⟩ := bind_ok_iff.1 h
  have : (nbUnitsMax c).width = 0 := hw
  rw [if_pos this] at h
  cases h

theorem variation_total {c : ThermalCluster} (d : Direction) {p : Nat} (hp : 0 < p) (hw : c.series.width ≠ 0) :
    ∃ f, nbUnitsMaxVariation c d p = .ok f := by
  unfold nbUnitsMaxVariation
  have hr := variationRows_ok d hp (nbUnitsMax c).rows (List.range (nbUnitsMax c).rows.length) (by simp)
  have : (nbUnitsMax c).width ≠ 0 := hw
  simp only [hr, ok_bind, this, if_false]
  exact ⟨_, rfl⟩

theorem periodOf_pos {period : Option Int} (h : ∀ p, period = some p → 0 ≤ p) : ∃ p : Nat, 0 < p ∧ periodOf period = p := by
  cases period with
  | none => exact ⟨168, by norm_num, rfl⟩
  | some q =>
    have := h q rfl
    by_cases h0 : q = 0
    · exact ⟨168, by norm_num, by simp [periodOf, h0]⟩
    · exact ⟨q.toNat, by omega, by simp only [periodOf, h0, if_false]; omega⟩

/-- **C56.** When series can be read (or their files do not exist), a study is converted exactly when the series of each thermal cluster to
convert have a column. -/
theorem c56_accepts {st : AStudy} (hp : PlainAreas st) (hs : SeriesReadable st) {period : Option Int} (hper : ∀ p, period = some p → 0 ≤ p)
    (pre : Dict String Num) :
    (∃ r, convertStudy st batteryTemplate period pre = .ok r) ↔ ∀ a t, .thermal a t ∈ st.objects → t.series.width ≠ 0 := by
  have hmem : ∀ a t, .thermal a t ∈ st.objects ↔ (a, t) ∈ keptSpec st := by
    intro a t
    rw [objects_eq]
    simp only [List.mem_append, List.mem_flatMap, List.mem_map, reduceCtorEq, and_false, exists_false, false_or, or_false]
    constructor
    · rintro ⟨⟨a', t'⟩, hm, he⟩
      cases he
      exact hm
    · exact fun h => ⟨_, h, rfl⟩
  constructor
  · rintro ⟨⟨sys, files⟩, h⟩ a t ho
    obtain ⟨p, f, h1, -⟩ := c56_thermal_files hp h ho "nb_units_max_variation_forward" (by decide)
    unfold generateParameter at h1
    have hpre : ∀ q, preproFrame (t.cluster st) "nb_units_max_variation_forward" q =
      some (nbUnitsMaxVariation (t.cluster st) .forward q) := fun q => rfl
    rw [hpre] at h1
    obtain ⟨g, hg, -⟩ := bind_ok_iff.1 h1
    exact variation_width hg
  · intro hw
    obtain ⟨p, hp0, hpp⟩ := periodOf_pos hper
    obtain ⟨rb, hb⟩ := convertTemplates_total hs (validAreas st batteryTemplate) { pre := pre }
    have hth : ∃ t, convertThermals st batteryTemplate "${area}" (periodOf period) = .ok t := by
      unfold convertThermals
      rw [keptThermals_eq hp, appendAll_map]
      have : ∃ cs, appendAll (fun x : AArea × AThermal => convertThermal st (periodOf period) x.1.id x.2) (keptSpec st) = .ok cs := by
        have hall : ∀ x ∈ keptSpec st, ∃ c, convertThermal st (periodOf period) x.1.id x.2 = .ok c := by
          rintro ⟨a, t⟩ hx
          have hw' : (t.cluster st).series.width ≠ 0 := hw a t ((hmem a t).2 hx)
          obtain ⟨f, hf⟩ := variation_total .forward hp0 hw'
          obtain ⟨g, hg⟩ := variation_total .backward hp0 hw'
          rw [← hpp] at hf hg
          have h4 : ∃ x, generateParameter (t.cluster st) "nb_units_max_variation_forward" (periodOf period) = .ok x := by
            have hpre : preproFrame (t.cluster st) "nb_units_max_variation_forward" (periodOf period) =
              some (nbUnitsMaxVariation (t.cluster st) .forward (periodOf period)) := rfl
            simp only [generateParameter, hpre, hf, ok_bind]
            exact ⟨_, rfl⟩
          have h5 : ∃ x, generateParameter (t.cluster st) "nb_units_max_variation_backward" (periodOf period) = .ok x := by
            have hpre : preproFrame (t.cluster st) "nb_units_max_variation_backward" (periodOf period) =
              some (nbUnitsMaxVariation (t.cluster st) .backward (periodOf period)) := rfl
            simp only [generateParameter, hpre, hg, ok_bind]
            exact ⟨_, rfl⟩
          obtain ⟨x4, h4⟩ := h4
          obtain ⟨x5, h5⟩ := h5
          have h1 : generateParameter (t.cluster st) "p_min_cluster" = .ok _ := rfl
          have h2 : generateParameter (t.cluster st) "nb_units_min" = .ok _ := rfl
          have h3 : generateParameter (t.cluster st) "nb_units_max" = .ok _ := rfl
          unfold convertThermal
          simp only [h1, h2, h3, h4, h5, ok_bind]
          exact ⟨_, rfl⟩
        generalize keptSpec st = l at hall
        induction l with
        | nil => exact ⟨[], rfl⟩
        | cons x l ih =>
          obtain ⟨c, hc⟩ := hall x (by simp)
          obtain ⟨cs, hcs⟩ := ih fun y hy => hall y (by simp [hy])
          exact ⟨c :: cs, by rw [appendAll_cons, hc, hcs]; rfl⟩
      obtain ⟨cs, hcs⟩ := this
      rw [hcs]
      exact ⟨_, rfl⟩
    obtain ⟨t, ht⟩ := hth
    refine ⟨(⟨_, _, _⟩, _), convertStudy_ok_iff.2 ⟨t, { rb.2 with files := rb.1.files }, ?_, ?_, rfl, rfl, rfl, rfl⟩⟩
    · rw [battery_pattern]; exact ht
    · rw [battery_pattern, convertBatteries, hb]
      rfl

/-- What the conversion needs so that components can be connected: areas are known, `z_batteries` has only what stands for batteries, and
there is no wind or solar power given for whole areas. -/
structure Connectable (st : AStudy) : Prop where
  renewables : ∀ a ∈ st.areas.values, ∀ r ∈ a.renewables.values, r.areaId = a.id
  links : ∀ l ∈ st.links.values, (∃ a ∈ st.areas.values, a.id = l.areaFrom) ∧ ∃ a ∈ st.areas.values, a.id = l.areaTo
  noWind : ∀ a ∈ st.areas.values, ¬ HasData a.wind ∧ ¬ HasData a.solar
  batteries : ∀ a ∈ st.areas.values, a.id = "z_batteries" → a.renewables.values = [] ∧ a.storages.values = [] ∧ ¬ HasData a.load ∧
    ∀ t ∈ a.thermals.values, IsBatteryCluster st a.id t.id
  batteryLinks : ∀ l ∈ st.links.values, l.areaFrom ≠ "z_batteries"

/-- **C56 (partial: without wind and solar power of areas).** Each connection goes from a component of the study to the balance of a node. -/
theorem c56_connected_partial {st : AStudy} (hp : PlainAreas st) (hk : KeysAreIds st) (hc : Connectable st) {period : Option Int}
    {pre : Dict String Num} {sys : InputSystem} {files : List (String × Frame)}
    (h : convertStudy st batteryTemplate period pre = .ok (sys, files)) :
    ∀ x ∈ sys.connections, (∃ c ∈ sys.components, c.id = x.component1) ∧ (∃ c ∈ sys.nodes, c.id = x.component2) ∧ x.port2 = "balance_port" := by
  obtain ⟨b, cs, hb, h1, h2, h3, -⟩ := study_part hp h
  have hn := c56_nodes h
  have hnode : ∀ a ∈ st.areas.values, a.id ≠ "z_batteries" → ∃ c ∈ sys.nodes, c.id = a.id := by
    intro a ha hz
    obtain ⟨c, hcm, hc⟩ := forall₂_left hn (List.mem_filter.2 ⟨ha, by simpa using hz⟩)
    exact ⟨c, hcm, hc.1⟩
  intro x hx
  rw [h3] at hx
  rcases List.mem_append.1 hx with hx | hx
  · obtain ⟨o, ho, hx⟩ := List.mem_flatMap.1 hx
    obtain ⟨c, hcm, hco⟩ := forall₂_left h2 ho
    have hcm' : c ∈ sys.components := by rw [h1]; exact List.mem_append_left _ hcm
    rw [objects_eq] at ho
    simp only [List.mem_append, List.mem_flatMap, List.mem_map, List.mem_filter] at ho
    rcases ho with ⟨a, ha, r, hr, rfl⟩ | ⟨⟨a, t⟩, hat, rfl⟩ | ⟨a, ha, s, hs, rfl⟩ | ⟨a, ⟨ha, hd⟩, rfl⟩ | ⟨a, ⟨ha, hd⟩, rfl⟩ | ⟨a, ⟨ha, hd⟩, rfl⟩ |
      ⟨l, ⟨hl, hd⟩, rfl⟩
    · simp only [AObject.connections, List.mem_singleton] at hx
      subst hx
      refine ⟨⟨c, hcm', hco.1⟩, ?_, rfl⟩
      rw [hc.renewables a ha r hr]
      refine hnode a ha fun hz => ?_
      rw [(hc.batteries a ha hz).1] at hr
      cases hr
    · simp only [AObject.connections, List.mem_singleton] at hx
      subst hx
      refine ⟨⟨c, hcm', hco.1⟩, ?_, rfl⟩
      unfold keptSpec at hat
      simp only [List.mem_flatMap, List.mem_map, List.mem_filter] at hat
      obtain ⟨a', ha, t', ⟨ht, hne⟩, he⟩ := hat
      cases he
      refine hnode a ha fun hz => ?_
      simp only [decide_eq_true_eq] at hne
      exact hne ((hc.batteries a ha hz).2.2.2 t ht)
    · simp only [AObject.connections, List.mem_singleton] at hx
      subst hx
      refine ⟨⟨c, hcm', hco.1⟩, ?_, rfl⟩
      refine hnode a ha fun hz => ?_
      rw [(hc.batteries a ha hz).2.1] at hs
      cases hs
    · simp only [AObject.connections, List.mem_singleton] at hx
      subst hx
      refine ⟨⟨c, hcm', hco.1⟩, ?_, rfl⟩
      refine hnode a ha fun hz => ?_
      simp only [decide_eq_true_eq] at hd
      exact (hc.batteries a ha hz).2.2.1 hd
    · simp only [decide_eq_true_eq] at hd
      exact absurd hd (hc.noWind a ha).1
    · simp only [decide_eq_true_eq] at hd
      exact absurd hd (hc.noWind a ha).2
    · simp only [decide_eq_true_eq] at hd
      obtain ⟨⟨a1, ha1, e1⟩, a2, ha2, e2⟩ := hc.links l hl
      simp only [AObject.connections, List.mem_cons, List.not_mem_nil, or_false] at hx
      rcases hx with rfl | rfl
      · refine ⟨⟨c, hcm', hco.1⟩, ?_, rfl⟩
        have := hnode a1 ha1 (by rw [e1]; exact hc.batteryLinks l hl)
        rwa [e1] at this
      · refine ⟨⟨c, hcm', hco.1⟩, ?_, rfl⟩
        have := hnode a2 ha2 (by rw [e2]; exact fun hz => hd ⟨hz, a1, ha1, e1⟩)
        rwa [e2] at this
  · obtain ⟨done, rest, e1, e2, e3, -⟩ := batteries_ok hk hb
    rw [e3] at hx
    obtain ⟨a, ha, rfl⟩ := List.mem_map.1 hx
    obtain ⟨c, hcm, d, m, -, -, hi, -⟩ := forall₂_left e2 ha
    refine ⟨⟨c, by rw [h1]; exact List.mem_append_right _ hcm, hi.1⟩, ?_, rfl⟩
    have hm : a ∈ done ++ rest := List.mem_append_left _ ha
    rw [← e1] at hm
    obtain ⟨hm1, hm2⟩ := List.mem_filter.1 hm
    exact hnode a hm1 (by simpa using (of_decide_eq_true hm2).1)

/-- **C56** is violated for wind and solar power of areas: the connection of such a component uses the name `wind` or `solar`, which no
component needs to have, and then no libraries can make a system of the converted study. -/
theorem c56_wind_dangling {st : AStudy} (hp : PlainAreas st) {period : Option Int} {pre : Dict String Num}
    {sys : InputSystem} {files : List (String × Frame)} (h : convertStudy st batteryTemplate period pre = .ok (sys, files)) {a : AArea}
    (ha : a ∈ st.areas.values) (hd : HasData a.wind ∧ (∀ c ∈ sys.components ++ sys.nodes, c.id ≠ "wind") ∨
      HasData a.solar ∧ ∀ c ∈ sys.components ++ sys.nodes, c.id ≠ "solar") (libs : Dict String Library) (s : System) :
    resolveSystem sys libs ≠ .ok s := by
  obtain ⟨b, cs, hb, h1, h2, h3, -⟩ := study_part hp h
  refine (c46_unknown_rejected libs sys s).2 ?_
  rcases hd with ⟨hd, hn⟩ | ⟨hd, hn⟩
  · refine ⟨⟨"wind", "balance_port", a.id, "balance_port"⟩, ?_, ?_⟩
    · rw [h3]
      refine List.mem_append_left _ (List.mem_flatMap.2 ⟨.wind a, ?_, by simp [AObject.connections]⟩)
      rw [objects_eq]
      simp only [List.mem_append, List.mem_map, List.mem_filter]
      exact .inr (.inr (.inr (.inr (.inl ⟨a, ⟨ha, by simpa using hd⟩, rfl⟩))))
    · rintro ⟨hm, -⟩
      obtain ⟨c, hc, he⟩ := List.mem_map.1 hm
      exact hn c hc he
  · refine ⟨⟨"solar", "balance_port", a.id, "balance_port"⟩, ?_, ?_⟩
    · rw [h3]
      refine List.mem_append_left _ (List.mem_flatMap.2 ⟨.solar a, ?_, by simp [AObject.connections]⟩)
      rw [objects_eq]
      simp only [List.mem_append, List.mem_map, List.mem_filter]
      exact .inr (.inr (.inr (.inr (.inr (.inl ⟨a, ⟨ha, by simpa using hd⟩, rfl⟩)))))
    · rintro ⟨hm, -⟩
      obtain ⟨c, hc, he⟩ := List.mem_map.1 hm
      exact hn c hc he

/-- **C56** is violated: when two areas have loads, both components have the id `load`, so the network has only one of them, and both
connections start at it. -/
theorem c56_loads_merged {st : AStudy} (hp : PlainAreas st) {period : Option Int} {pre : Dict String Num}
    {sys : InputSystem} {files : List (String × Frame)} (h : convertStudy st batteryTemplate period pre = .ok (sys, files))
    {x y : AArea} (hx : x ∈ st.areas.values) (hy : y ∈ st.areas.values) (hxy : x.id ≠ y.id) (hxl : HasData x.load) (hyl : HasData y.load) :
    ¬ (sys.components.map (·.id)).Nodup := by
  obtain ⟨b, cs, hb, h1, hc, -⟩ := study_part hp h
  rw [objects_eq] at hc
  have hcs : ∀ {os : List AObject} {cs : List InputComponent}, List.Forall₂ (IsAntaresComponent st) os cs →
      cs.map (·.id) = os.map AObject.name := by
    intro os cs h
    induction h with
    | nil => rfl
    | cons h _ ih => simp [h.1, ih]
  rw [h1, List.map_append, hcs hc]
  intro hnd
  have hl : ∀ (l : List AArea), (List.map AObject.name (l.map AObject.load)) = List.replicate l.length "load" := by
    intro l
    induction l with
    | nil => rfl
    | cons a l ih => simp [AObject.name, List.replicate_succ, List.map_map] at ih ⊢; exact ih
  simp only [List.map_append, hl] at hnd
  have hr := ((List.nodup_append.1 (List.nodup_append.1 (List.nodup_append.1 (List.nodup_append.1
    (List.nodup_append.1 hnd).1).2.1).2.1).2.1).1)
  have hlen := List.nodup_replicate.1 hr
  generalize hf : st.areas.values.filter _ = l at hlen
  have hx' : x ∈ l := by rw [← hf]; exact List.mem_filter.2 ⟨hx, by simpa using hxl⟩
  have hy' : y ∈ l := by rw [← hf]; exact List.mem_filter.2 ⟨hy, by simpa using hyl⟩
  match l, hlen with
  | [], _ => cases hx'
  | [z], _ =>
    rw [List.mem_singleton.1 hx', List.mem_singleton.1 hy'] at hxy
    exact hxy rfl

/-! ## C57 -/

theorem pyMaximum_isMaximum {l : List Num} {m : Num} (hn : .nan ∉ l) (h : pyMaximum l = .ok m) : IsMaximum l m := by
  have hle : ∀ a : Num, a ≠ .nan → a.le a = true := by
    intro a ha
    cases a <;> first | rfl | exact absurd rfl ha | simp [Num.le]
  have htr : ∀ a b c : Num, a.le b = true → b.le c = true → a.le c = true := by
    intro a b c h1 h2
    cases a <;> cases b <;> cases c <;> simp_all [Num.le]
    exact le_trans h1 h2
  have htot : ∀ a b : Num, a ≠ .nan → b ≠ .nan → a.lt b = false → b.le a = true := by
    intro a b ha hb h
    cases a <;> cases b <;> simp_all [Num.le, Num.lt, Num.eqb]
    rename_i x y _
    rcases le_total x y with hxy | hxy
    · exact (h hxy).ge
    · exact hxy
  cases l with
  | nil => cases h
  | cons v vs =>
    simp only [pyMaximum, Except.ok.injEq] at h
    have key : ∀ (vs : List Num) (v : Num), v ≠ .nan → .nan ∉ vs →
        IsMaximum (v :: vs) (vs.foldl (fun a b => if a.lt b then b else a) v) := by
      intro vs
      induction vs with
      | nil => intro v hv _; exact ⟨by simp, by simpa using hle v hv⟩
      | cons w vs ih =>
        intro v hv hvs
        have hw : w ≠ .nan := fun e => hvs (by simp [e])
        have hvs' : .nan ∉ vs := fun e => hvs (by simp [e])
        rw [List.foldl_cons]
        cases hlt : v.lt w with
        | true =>
          simp only [if_true]
          obtain ⟨i1, i2⟩ := ih w hw hvs'
          refine ⟨List.mem_cons_of_mem _ i1, ?_⟩
          intro u hu
          rcases List.mem_cons.1 hu with rfl | hu
          · have : u.le w = true := by simp [Num.lt] at hlt; exact hlt.1
            exact htr _ _ _ this (i2 w (by simp))
          · exact i2 u hu
        | false =>
          simp only [Bool.false_eq_true, if_false]
          obtain ⟨i1, i2⟩ := ih v hv hvs'
          refine ⟨?_, ?_⟩
          · rcases List.mem_cons.1 i1 with i1 | i1
            · rw [i1]; simp
            · simp [i1]
          · intro u hu
            rcases List.mem_cons.1 hu with rfl | hu
            · exact i2 u (by simp)
            · rcases List.mem_cons.1 hu with rfl | hu
              · exact htr _ _ _ (htot _ _ hv hw hlt) (i2 v (by simp))
              · exact i2 u (by simp [hu])
    rw [← h]
    exact key vs v (fun e => hn (by simp [e])) fun e => hn (by simp [e])

/-- **C57 (partial: areas up to the first one without a battery).** The areas are visited in order, until one has no battery.  Each area
visited before gives a battery with the capacities, weights and series of its artefacts, the files relative to the capacities, and one
connection to the area.  The largest injection is the injection capacity. -/
theorem c57_batteries_partial {st : AStudy} (hp : PlainAreas st) (hk : KeysAreIds st) {period : Option Int} {pre : Dict String Num}
    {sys : InputSystem} {files : List (String × Frame)} (h : convertStudy st batteryTemplate period pre = .ok (sys, files)) :
    ∃ done rest cs bs, (st.areas.values.filter fun a => a.id ≠ "z_batteries" ∧ a.id ≠ "z_batteries_pcomp") = done ++ rest ∧
      sys.components = cs ++ bs ∧ cs.length = st.objects.length ∧
      List.Forall₂ (fun a x => ∃ d m, BatteryOf st a.id d ∧ (.nan ∉ d.injection → IsMaximum d.injection m) ∧ IsBattery st a.id d m x ∧
        ∀ f ∈ batteryFiles st a.id d m, f ∈ files) done bs ∧
      sys.connections = st.objects.flatMap AObject.connections ++
        done.map (fun a => ⟨"battery_" ++ a.id, "injection_port", a.id, "balance_port"⟩) ∧
      ∀ a, rest.head? = some a → ¬ ∃ d, BatteryOf st a.id d := by
  obtain ⟨b, cs, hb, h1, h2, h3, h4, -⟩ := study_part hp h
  obtain ⟨done, rest, e1, e2, e3, e4⟩ := batteries_ok hk hb
  refine ⟨done, rest, cs, b.components, e1, h1, h2.length_eq.symm, ?_, by rw [h3, e3], e4⟩
  refine e2.imp ?_
  rintro a x ⟨d, m, i1, i2, i3, i4⟩
  exact ⟨d, m, i1, fun hn => pyMaximum_isMaximum hn i2, i3, fun f hf => h4 f (i4 f hf)⟩

/-- **C57.** What was converted before in the same process does not matter: the values that are kept for the whole class never reach another
study. -/
theorem c57_history (st : AStudy) (period : Option Int) (pre pre' : Dict String Num) :
    convertStudy st batteryTemplate period pre = convertStudy st batteryTemplate period pre' := by
  unfold convertStudy
  rw [battery_pattern]
  simp only [convertBatteries_history st pre pre']

/-- **C57, any template**: a parameter that names a field of a cluster has the value of this field.  Other names are refused. -/
theorem c57_field {st : AStudy} {s : BState} {pid a c f : String} {col : Option Nat} {op : Option Operation} {r : ParamValue × BState} :
    convertValue st s pid (.thermal a c col (some f) op none) = .ok r ↔
      ∃ area t v, st.areas.get? a = some area ∧ area.thermals.get? c = some t ∧ ClusterField t f v ∧
        r = (.number v, { s with pre := s.pre.set pid v }) := by
  have hf : ∀ t v, thermalField t (some f) = .ok v ↔ ClusterField t f v := by
    intro t v
    constructor
    · intro h
      unfold thermalField at h
      split at h
      · rename_i e; cases e; cases h; exact .capacity
      · rename_i e; cases e; cases h; exact .stable
      · rename_i e; cases e; cases h; exact .up
      · rename_i e; cases e; cases h; exact .down
      · cases h
    · intro h
      cases h <;> rfl
  unfold convertValue
  simp only [bind_ok_iff, get_ok_iff, hf, Except.ok.injEq]
  constructor
  · rintro ⟨ar, h1, t, h2, v, h3, rfl⟩
    exact ⟨ar, t, v, h1, h2, h3, rfl⟩
  · rintro ⟨ar, t, v, h1, h2, h3, rfl⟩
    exact ⟨ar, h1, t, h2, v, h3, rfl⟩

/-- **C57 is violated for operations on fields**: they are ignored. -/
theorem c57_operation_ignored (st : AStudy) (s : BState) (pid a c f : String) (col : Option Nat) (op : Operation) :
    convertValue st s pid (.thermal a c col (some f) (some op) none) = convertValue st s pid (.thermal a c col (some f) none none) := rfl

/-- **C57 is violated for weights**: a weight cannot be multiplied by a parameter that is known, or be divided by it. -/
theorem c57_weight_by_parameter (st : AStudy) (s : BState) (pid i f k : String) (o : Operation) (ht : o.type = none)
    (ho : o.multiplyBy = some (.key k) ∨ o.multiplyBy = none ∧ o.divideBy = some (.key k)) (r : ParamValue × BState) :
    convertValue st s pid (.binding i f (some o)) ≠ .ok r := by
  unfold convertValue
  simp only [ne_eq, bind_ok_iff, not_exists, not_and]
  intro terms _ w _ v hv
  unfold Operation.onNum at hv
  rw [ht, if_neg (by simp)] at hv
  rcases ho with ho | ⟨h1, h2⟩
  · rw [ho] at hv
    simp [Operand.resolve, bind_ok_iff] at hv
  · rw [h1, h2] at hv
    simp [Operand.resolve, bind_ok_iff] at hv

/-- **C57** is violated: after an area without a battery, the batteries of all later areas are lost, although the clusters and links that
stood for them are not converted either. -/
theorem c57_later_lost {st : AStudy} (hp : PlainAreas st) (hk : KeysAreIds st) {period : Option Int} {pre : Dict String Num}
    {sys : InputSystem} {files : List (String × Frame)} (h : convertStudy st batteryTemplate period pre = .ok (sys, files))
    {a : AArea} (ha : (st.areas.values.filter fun a => a.id ≠ "z_batteries" ∧ a.id ≠ "z_batteries_pcomp").head? = some a)
    (hno : ¬ ∃ d, BatteryOf st a.id d) :
    (∀ c ∈ sys.components, c.model ≠ "andromede-v1-models.battery") ∧
    ∀ b ∈ st.areas.values, ∀ t, t.id = b.id ++ "_batteries_inj" → .thermal b t ∉ st.objects := by
  obtain ⟨b, cs, hb, h1, h2, -⟩ := study_part hp h
  obtain ⟨done, rest, e1, e2, -, -⟩ := batteries_ok hk hb
  have hd : done = [] := by
    cases done with
    | nil => rfl
    | cons x done =>
      rw [e1] at ha
      simp only [List.cons_append, List.head?_cons, Option.some.injEq] at ha
      subst ha
      obtain ⟨_, -, d, -, hd, -⟩ := forall₂_left e2 (List.mem_cons_self ..)
      exact absurd ⟨d, hd⟩ hno
  subst hd
  have hbc : b.components = [] := by
    generalize b.components = l at e2
    cases e2
    rfl
  rw [hbc, List.append_nil] at h1
  constructor
  · intro c hc
    rw [h1] at hc
    obtain ⟨o, ho, hoc⟩ := forall₂_right h2 hc
    rw [hoc.2.1]
    cases o <;> simp [AObject.model]
  · intro b' hb' t ht ho
    rw [objects_eq] at ho
    simp only [List.mem_append, List.mem_flatMap, List.mem_map, reduceCtorEq, and_false, exists_false, false_or, or_false] at ho
    obtain ⟨⟨a', t'⟩, hm, he⟩ := ho
    cases he
    unfold keptSpec at hm
    simp only [List.mem_flatMap, List.mem_map, List.mem_filter] at hm
    obtain ⟨a', ha', t', ⟨-, hne⟩, he⟩ := hm
    cases he
    simp only [decide_eq_true_eq] at hne
    exact hne ⟨_, hb', .inl ⟨rfl, ht⟩⟩

/-! ## A study -/

/-- a cluster without anything special -/
def demoCluster (area id : String) (cap : Num) : AThermal :=
  { id := id, areaId := area, modulation := [1, 1], series := ⟨1, [[.fin 100], [.fin 80]]⟩, unitCount := 2, nominalCapacity := cap }

/-- `fr` has a battery, a gas plant and a load; `de` has nothing but a load -/
def demoFr : AArea :=
  { id := "fr", energyCostUnsupplied := .fin 1000, energyCostSpilled := .fin 10, load := some ⟨1, [[.fin 50], [.fin 60]]⟩,
    thermals := [("gas", demoCluster "fr" "gas" (.fin 50)), ("fr_batteries_inj", demoCluster "fr" "fr_batteries_inj" (.fin 20))] }

/-- see `demoFr` -/
def demoDe : AArea := { id := "de", energyCostUnsupplied := .fin 1000, energyCostSpilled := .fin 10 }

/-- the area of the artefacts -/
def demoZ : AArea :=
  { id := "z_batteries", energyCostUnsupplied := 0, energyCostSpilled := 0,
    thermals := [("z_batteries_batteries_fr_1", demoCluster "z_batteries" "z_batteries_batteries_fr_1" (.fin 200)),
      ("z_batteries_batteries_fr_2", demoCluster "z_batteries" "z_batteries_batteries_fr_2" (.fin 200))] }

/-- a study with the given areas -/
def demoStudy (areas : List AArea) : AStudy :=
  { path := "/study", areas := areas.map fun a => (a.id, a),
    links := [("fr / de", ⟨"fr / de", "fr", "de"⟩), ("fr / z_batteries", ⟨"fr / z_batteries", "fr", "z_batteries"⟩)],
    bindings := [("batteries_fr", [("fr%z_batteries", .fin (-9 / 10)), ("fr.fr_batteries_inj", 1)])],
    readSeries := fun _ _ _ _ => .ok ⟨2, [[.fin 5, 0], [.fin 10, 0]]⟩,
    seriesDir := fun f a c s => "/study/input/" ++ f ++ "/" ++ a ++ "/" ++ c.getD "" ++ s.getD "" }

/-- The battery of `fr` is converted when `fr` comes first, … -/
theorem demo_first : ∃ sys files, convertStudy (demoStudy [demoFr, demoDe, demoZ]) batteryTemplate none [] = .ok (sys, files) ∧
    sys.nodes.map (·.id) = ["fr", "de"] ∧ sys.components.map (·.id) = ["gas", "load", "fr / de", "battery_fr"] :=
  ⟨_, _, rfl, by decide +kernel, by decide +kernel⟩

/-- … but not after `de`. -/
theorem demo_second : ∃ sys files, convertStudy (demoStudy [demoDe, demoFr, demoZ]) batteryTemplate none [] = .ok (sys, files) ∧
    sys.components.map (·.id) = ["gas", "load", "fr / de"] :=
  ⟨_, _, rfl, by decide +kernel⟩

theorem demo_plain {as : List AArea} (h : ∀ a ∈ as, a = demoFr ∨ a = demoDe ∨ a = demoZ) : PlainAreas (demoStudy as) := by
  constructor
  · intro a ha
    have : a ∈ as := by simpa [demoStudy, Dict.values] using ha
    rcases h a this with rfl | rfl | rfl <;> decide
  · intro l hl
    simp only [demoStudy, Dict.values, List.map_cons, List.map_nil, List.mem_cons, List.not_mem_nil, or_false] at hl
    rcases hl with rfl | rfl <;> decide

theorem demo_keys (as : List AArea) : KeysAreIds (demoStudy as) := by
  intro k a h
  simp only [demoStudy, List.mem_map, Prod.mk.injEq] at h
  obtain ⟨b, -, rfl, rfl⟩ := h
  rfl

theorem demo_readable (as : List AArea) : SeriesReadable (demoStudy as) := fun _ _ _ _ => .inl ⟨_, rfl, by decide, by decide⟩

theorem demo_connectable : Connectable (demoStudy [demoFr, demoDe, demoZ]) := by
  have hv : (demoStudy [demoFr, demoDe, demoZ]).areas.values = [demoFr, demoDe, demoZ] := rfl
  have hl : (demoStudy [demoFr, demoDe, demoZ]).links.values = [⟨"fr / de", "fr", "de"⟩, ⟨"fr / z_batteries", "fr", "z_batteries"⟩] := rfl
  constructor
  · rw [hv]
    intro a ha r hr
    simp only [List.mem_cons, List.not_mem_nil, or_false] at ha
    rcases ha with rfl | rfl | rfl <;> cases hr
  · rw [hv, hl]
    intro l h
    simp only [List.mem_cons, List.not_mem_nil, or_false] at h
    rcases h with rfl | rfl
    · exact ⟨⟨demoFr, by simp, rfl⟩, demoDe, by simp, rfl⟩
    · exact ⟨⟨demoFr, by simp, rfl⟩, demoZ, by simp, rfl⟩
  · rw [hv]
    intro a ha
    simp only [List.mem_cons, List.not_mem_nil, or_false] at ha
    rcases ha with rfl | rfl | rfl <;> exact ⟨fun ⟨_, h, _⟩ => (by cases h), fun ⟨_, h, _⟩ => (by cases h)⟩
  · rw [hv]
    intro a ha hz
    simp only [List.mem_cons, List.not_mem_nil, or_false] at ha
    rcases ha with rfl | rfl | rfl
    · exact absurd hz (by decide)
    · exact absurd hz (by decide)
    · refine ⟨rfl, rfl, fun ⟨_, h, _⟩ => (by cases h), ?_⟩
      intro t ht
      refine ⟨demoFr, by rw [hv]; simp, .inr ⟨rfl, ?_⟩⟩
      simp only [demoZ, Dict.values, List.map_cons, List.map_nil, List.mem_cons, List.not_mem_nil, or_false] at ht
      rcases ht with rfl | rfl
      · exact .inl (by decide)
      · exact .inr (by decide)
  · rw [hl]
    intro l h
    simp only [List.mem_cons, List.not_mem_nil, or_false] at h
    rcases h with rfl | rfl <;> decide

theorem demo_no_battery (as : List AArea) : ¬ ∃ d, BatteryOf (demoStudy as) demoDe.id d := by
  rintro ⟨d, hd⟩
  obtain ⟨b, h1, -⟩ := hd.linkWeight
  revert h1
  show Dict.get? (demoStudy []).bindings "batteries_de" = some b → False
  rw [show Dict.get? (demoStudy []).bindings "batteries_de" = none from by decide +kernel]
  exact fun h => by cases h

/-- `c56_components`, `c56_connected_partial`, `c57_batteries_partial` are about studies like this one -/
example : ∃ sys files, convertStudy (demoStudy [demoFr, demoDe, demoZ]) batteryTemplate none [] = .ok (sys, files) ∧
    PlainAreas (demoStudy [demoFr, demoDe, demoZ]) ∧ KeysAreIds (demoStudy [demoFr, demoDe, demoZ]) ∧
    Connectable (demoStudy [demoFr, demoDe, demoZ]) :=
  let ⟨sys, files, h, _⟩ := demo_first
  ⟨sys, files, h, demo_plain (by simp), demo_keys _, demo_connectable⟩

/-- `c56_thermal_files` -/
example : .thermal demoFr (demoCluster "fr" "gas" (.fin 50)) ∈ (demoStudy [demoFr, demoDe, demoZ]).objects := by
  rw [objects_eq]
  simp only [List.mem_append, List.mem_map]
  refine .inr (.inl ⟨(demoFr, demoCluster "fr" "gas" (.fin 50)), ?_, rfl⟩)
  unfold keptSpec
  simp only [List.mem_flatMap, List.mem_map, List.mem_filter]
  refine ⟨demoFr, by simp [demoStudy, Dict.values], _, ⟨by simp [demoFr, Dict.values], ?_⟩, rfl⟩
  simp only [decide_eq_true_eq]
  rintro ⟨b, hb, ⟨h1, h2⟩ | ⟨h1, -⟩⟩
  · have h2' : "gas" = b.id ++ "_batteries_inj" := h2
    rw [← h1] at h2'
    exact absurd h2' (by decide)
  · exact absurd h1 (by decide)

/-- `c57_field` -/
example (s : BState) : ∃ s', convertValue (demoStudy [demoFr, demoDe, demoZ]) s "p" (.thermal "fr" "gas" none (some "nominalcapacity") none none) =
    .ok (.number (.fin 50), s') :=
  ⟨_, c57_field.2 ⟨demoFr, _, _, rfl, rfl, .capacity, rfl⟩⟩

/-- `c57_operation_ignored`: the capacity, not twice the capacity -/
example (s : BState) : ∃ s', convertValue (demoStudy [demoFr, demoDe, demoZ]) s "p" (.thermal "fr" "gas" none (some "nominalcapacity")
    (some { multiplyBy := some (.num (.fin 2)) }) none) = .ok (.number (.fin 50), s') :=
  ⟨_, (c57_operation_ignored ..).trans (c57_field.2 ⟨demoFr, _, _, rfl, rfl, .capacity, rfl⟩)⟩

/-- `c57_weight_by_parameter`: the weight is there, and the parameter is known -/
example : ∃ w, WeightIs (demoStudy [demoFr, demoDe, demoZ]) "batteries_fr" "fr.fr_batteries_inj" w ∧
    (∃ s, convertValue (demoStudy [demoFr, demoDe, demoZ]) ⟨[("x", .fin 2)], []⟩ "p" (.binding "batteries_fr" "fr.fr_batteries_inj" none) =
      .ok (.number w, s)) ∧
    ∀ r, convertValue (demoStudy [demoFr, demoDe, demoZ]) ⟨[("x", .fin 2)], []⟩ "p"
      (.binding "batteries_fr" "fr.fr_batteries_inj" (some { divideBy := some (.key "x") })) ≠ .ok r :=
  ⟨_, ⟨_, rfl, rfl⟩, ⟨_, rfl⟩, fun r => c57_weight_by_parameter _ _ _ _ _ "x" _ rfl (.inr ⟨rfl, rfl⟩) r⟩

/-- `c57_later_lost`: `de` comes first and has no battery, `fr` has one -/
example : (∃ sys files, convertStudy (demoStudy [demoDe, demoFr, demoZ]) batteryTemplate none [] = .ok (sys, files)) ∧
    ((demoStudy [demoDe, demoFr, demoZ]).areas.values.filter fun a => a.id ≠ "z_batteries" ∧ a.id ≠ "z_batteries_pcomp").head? = some demoDe ∧
    (¬ ∃ d, BatteryOf (demoStudy [demoDe, demoFr, demoZ]) demoDe.id d) ∧ ∃ d, BatteryOf (demoStudy [demoDe, demoFr, demoZ]) demoFr.id d := by
  obtain ⟨sys, files, h, -⟩ := demo_second
  refine ⟨⟨sys, files, h⟩, rfl, demo_no_battery _, ?_⟩
  refine ⟨⟨.fin 200, [.fin 5, .fin 10], .fin 20, .fin (-9 / 10), 1, [.fin 5, .fin 10], [.fin 5, .fin 10], [.fin 5, .fin 10]⟩, ?_⟩
  constructor
  · exact ⟨demoFr, rfl⟩
  · exact ⟨demoZ, _, rfl, rfl, rfl⟩
  · exact ⟨_, rfl, by decide, rfl⟩
  · exact ⟨demoFr, _, rfl, rfl, rfl⟩
  · exact ⟨_, rfl, rfl⟩
  · exact ⟨_, rfl, rfl⟩
  · exact ⟨_, rfl, by decide, rfl⟩
  · exact ⟨_, rfl, by decide, rfl⟩
  · exact ⟨_, rfl, by decide, rfl⟩

/-- areas with wind power and with two loads -/
def demoWind (id : String) : AArea :=
  { id := id, energyCostUnsupplied := .fin 1000, energyCostSpilled := .fin 10, load := some ⟨1, [[.fin 50]]⟩, wind := some ⟨1, [[.fin 5]]⟩ }

/-- a study with two areas, each with load and wind power -/
def demoWindStudy : AStudy :=
  { path := "/study", areas := [("fr", demoWind "fr"), ("de", demoWind "de")],
    readSeries := fun _ _ _ _ => .error (.exception "FileNotFoundError"), seriesDir := fun _ _ _ _ => "" }

/-- `c56_wind_dangling` and `c56_loads_merged`: this study is converted, and the result is of no use -/
theorem demo_wind_useless : ∃ sys files, convertStudy demoWindStudy batteryTemplate none [] = .ok (sys, files) ∧
    (∀ libs s, resolveSystem sys libs ≠ .ok s) ∧ ¬ (sys.components.map (·.id)).Nodup := by
  have hp : PlainAreas demoWindStudy := by
    constructor
    · intro a ha
      have : a = demoWind "fr" ∨ a = demoWind "de" := by simpa [demoWindStudy, Dict.values] using ha
      rcases this with rfl | rfl <;> decide
    · intro l hl
      cases hl
  have hd : ∀ id, HasData (demoWind id).wind := fun id => ⟨_, rfl, by decide, _, List.mem_singleton.2 rfl, _, List.mem_singleton.2 rfl, by decide⟩
  have hl : ∀ id, HasData (demoWind id).load := fun id => ⟨_, rfl, by decide, _, List.mem_singleton.2 rfl, _, List.mem_singleton.2 rfl, by decide⟩
  have h : convertStudy demoWindStudy batteryTemplate none [] = .ok (_, _) := rfl
  refine ⟨_, _, h, fun libs s => ?_, ?_⟩
  · refine c56_wind_dangling hp h (a := demoWind "fr") (by simp [demoWindStudy, Dict.values]) (.inl ⟨hd _, ?_⟩) libs s
    have : ∀ i ∈ (((["load", "load", "fr", "de"] : List String) ++ ["fr", "de"])), i ≠ "wind" := by decide
    intro c hc
    exact this c.id (List.mem_map.2 ⟨c, hc, rfl⟩ |> fun h => h)
  · exact c56_loads_merged hp h (x := demoWind "fr") (y := demoWind "de") (by simp [demoWindStudy, Dict.values])
      (by simp [demoWindStudy, Dict.values]) (by decide) (hl _) (hl _)

end Verif.Props
