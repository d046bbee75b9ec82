import Verif.Lemmas.AntaresThermal

/-!
# The study that an Antares study is converted to
-/

namespace Verif
open Verif.Props

/-- the largest injection of a battery, as the converter computes it -/
def BatteryData.top (d : BatteryData) : Num :=
  match pyMaximum d.injection with
  | .ok m => m
  | .error _ => .nan

/-- the item of an area -/
def areaItem (a : AArea) : StudyItem :=
  ⟨a.id, "antares-historic.area", [("ens_cost", .num a.energyCostUnsupplied), ("spillage_cost", .num a.energyCostSpilled)]⟩

/-- a parameter of an object -/
def objectParam (st : AStudy) (x : String × (Num ⊕ String)) : String × ItemParam :=
  (x.1, match x.2 with
    | .inl v => .num v
    | .inr f => .file (st.path ++ "/input/" ++ f) true)

/-- the item of an object -/
def objectItem (st : AStudy) (o : AObject) : StudyItem := ⟨o.name, o.model, o.params.map (objectParam st)⟩

/-- the item of a battery -/
def batteryItem (st : AStudy) (e : AArea × BatteryData) : StudyItem :=
  ⟨e.1.battery, "andromede-v1-models.battery", [
    ("reservoir_capacity", .num e.2.reservoir), ("injection_nominal_capacity", .num e.2.top),
    ("withdrawal_nominal_capacity", .num e.2.withdrawal), ("efficiency_injection", .num (e.2.linkWeight * (-1))),
    ("efficiency_withdrawal", .num e.2.clusterWeight), ("lower_rule_curve", .num 0),
    ("upper_rule_curve", .file (levelDir st e.1.id ++ "/upper_rule_curve_z_batteries") false),
    ("p_max_injection_modulation", .file (capacityDir st e.1.id ++ "/p_max_injection_modulation_" ++ e.1.id) false),
    ("p_max_withdrawal_modulation", .file (productionDir st e.1.id ++ "/p_max_withdrawal_modulation_" ++ e.1.id) false),
    ("marginal_cost", .file (costDir st e.1.id ++ "/marginal_cost_" ++ e.1.id) false)]⟩

/-- all items of a study -/
noncomputable def antaresItems (st : AStudy) (B : List (AArea × BatteryData)) : List StudyItem :=
  st.balanced.map areaItem ++ (st.objects.map (objectItem st) ++ B.map (batteryItem st))

/-- the hypotheses on a study and its conversion -/
structure AConverted (st : AStudy) (period : Option Int) (pre : Dict String Num) (disk : String → R Frame) (B : List (AArea × BatteryData))
    (T S : Nat) (sys : InputSystem) (files : List (String × Frame)) : Prop where
  plain : PlainAreas st
  keys : KeysAreIds st
  connectable : Connectable st
  noRenewables : ∀ a ∈ st.areas.values, a.renewables.values = []
  batteries : st.Batteries B
  distinct : st.Distinct B
  data : st.SoundData disk B T S
  per : ∀ p, period = some p → 0 ≤ p
  ok : convertStudy st batteryTemplate period pre = .ok (sys, files)

theorem split_unique {α} {P : α → Prop} : ∀ {l1 r1 l2 r2 : List α}, l1 ++ r1 = l2 ++ r2 → (∀ a ∈ l1, P a) → (∀ a, r1.head? = some a → ¬ P a) →
    (∀ a ∈ l2, P a) → (∀ a ∈ r2, ¬ P a) → l1 = l2 ∧ r1 = r2 := by
  intro l1
  induction l1 with
  | nil =>
    intro r1 l2 r2 h _ h2 h3 _
    cases l2 with
    | nil => exact ⟨rfl, h⟩
    | cons b l2 =>
      rw [List.nil_append] at h
      exact absurd (h3 b List.mem_cons_self) (h2 b (by rw [h]; rfl))
  | cons a l1 ih =>
    intro r1 l2 r2 h h1 h2 h3 h4
    cases l2 with
    | nil =>
      rw [List.nil_append] at h
      exact absurd (h1 a List.mem_cons_self) (h4 a (by rw [← h]; exact List.mem_cons_self))
    | cons b l2 =>
      rw [List.cons_append, List.cons_append, List.cons.injEq] at h
      obtain ⟨rfl, h⟩ := h
      obtain ⟨e1, e2⟩ := ih h (fun x hx => h1 x (List.mem_cons_of_mem _ hx)) h2 (fun x hx => h3 x (List.mem_cons_of_mem _ hx)) h4
      exact ⟨by rw [e1], e2⟩

theorem columnOf_rectangular (l : List Num) : (columnOf l).Rectangular := by
  intro row hr
  obtain ⟨v, -, rfl⟩ := List.mem_map.1 hr
  rfl

namespace AConverted
variable {st : AStudy} {period : Option Int} {pre : Dict String Num} {disk : String → R Frame} {B : List (AArea × BatteryData)}
    {T S : Nat} {sys : InputSystem} {files : List (String × Frame)}

/-- how the battery of an area was converted -/
structure Done (st : AStudy) (files : List (String × Frame)) (e : AArea × BatteryData) (x : InputComponent) : Prop where
  top : pyMaximum e.2.injection = .ok e.2.top
  is : IsBattery st e.1.id e.2 e.2.top x
  files : ∀ f ∈ batteryFiles st e.1.id e.2 e.2.top, f ∈ files

theorem parts (h : AConverted st period pre disk B T S sys files) : ∃ cs bs, sys.components = cs ++ bs ∧
    List.Forall₂ (IsAntaresComponent st) st.objects cs ∧ List.Forall₂ (Done st files) B bs ∧
    sys.connections = st.objects.flatMap AObject.connections ++
      B.map (fun e => ⟨e.1.battery, "injection_port", e.1.id, "balance_port"⟩) := by
  obtain ⟨b, cs, hb, h1, h2, h3, h4, -⟩ := study_part h.plain h.ok
  obtain ⟨done, rest, e1, e2, e3, e4⟩ := batteries_ok h.keys hb
  obtain ⟨rest', f1, f2⟩ := h.batteries.first
  have hd : ∀ a ∈ done, ∃ d, BatteryOf st a.id d := by
    intro a ha
    obtain ⟨x, -, d, m, hd, -⟩ := forall₂_left e2 ha
    exact ⟨d, hd⟩
  have hB : ∀ a ∈ B.map (·.1), ∃ d, BatteryOf st a.id d := by
    intro a ha
    obtain ⟨x, hx, rfl⟩ := List.mem_map.1 ha
    exact ⟨_, h.batteries.data x hx⟩
  obtain ⟨e5, -⟩ := split_unique (e1.symm.trans f1) hd e4 hB f2
  subst e5
  refine ⟨cs, b.components, h1, h2, ?_, ?_⟩
  · rw [List.forall₂_map_left_iff] at e2
    have key : ∀ {l : List (AArea × BatteryData)} {bs : List InputComponent}, (∀ x ∈ l, BatteryOf st x.1.id x.2) →
        List.Forall₂ (fun (e : AArea × BatteryData) x => ∃ d m, BatteryOf st e.1.id d ∧ pyMaximum d.injection = .ok m ∧ IsBattery st e.1.id d m x ∧
          ∀ f ∈ batteryFiles st e.1.id d m, f ∈ b.files) l bs → List.Forall₂ (Done st files) l bs := by
      intro l bs hl hf
      induction hf with
      | nil => exact .nil
      | @cons e x l bs hx _ ih =>
        refine .cons ?_ (ih fun x hx => hl x (List.mem_cons_of_mem _ hx))
        obtain ⟨d, m, i1, i2, i3, i4⟩ := hx
        have hd := battery_unique i1 (hl e List.mem_cons_self)
        subst hd
        have ht : e.2.top = m := by unfold BatteryData.top; rw [i2]
        exact ⟨by rw [ht]; exact i2, by rw [ht]; exact i3, fun f hf => h4 f (i4 f (by rw [ht] at hf; exact hf))⟩
    exact key h.batteries.data e2
  · rw [h3, e3, List.map_map]
    rfl

/-! ## What is among the objects -/

theorem object_cases (h : AConverted st period pre disk B T S sys files) {o : AObject} (ho : o ∈ st.objects) :
    (∃ a c, o = .thermal a c) ∨ (∃ a u, o = .storage a u) ∨ (∃ a, o = .load a) ∨ ∃ l, o = .link l := by
  unfold AStudy.objects at ho
  simp only [List.mem_append, List.mem_flatMap, List.mem_map, List.mem_filter] at ho
  rcases ho with (((((⟨a, ha, r, hr, rfl⟩ | ⟨a, ha, r, hr, rfl⟩) | ⟨a, ha, r, hr, rfl⟩) | ⟨a, ha, rfl⟩) | ⟨a, ⟨ha, hd⟩, rfl⟩) |
    ⟨a, ⟨ha, hd⟩, rfl⟩) | ⟨a, ha, rfl⟩
  · rw [h.noRenewables a ha] at hr
    cases hr
  · exact .inl ⟨_, _, rfl⟩
  · exact .inr (.inl ⟨_, _, rfl⟩)
  · exact .inr (.inr (.inl ⟨_, rfl⟩))
  · exact absurd (by simpa using hd) (h.connectable.noWind a ha).1
  · exact absurd (by simpa using hd) (h.connectable.noWind a ha).2
  · exact .inr (.inr (.inr ⟨_, rfl⟩))

theorem objectParam_is {x : String × (Num ⊕ String)} {p : InputParam} (hp : IsAntaresParam st x p) : IsItemParam (objectParam st x) p := by
  obtain ⟨h1, -, h2⟩ := hp
  refine ⟨h1, ?_⟩
  unfold objectParam
  cases hx : x.2 with
  | inl v => rw [hx] at h2; exact h2
  | inr f => rw [hx] at h2; exact h2

theorem declared (h : AConverted st period pre disk B T S sys files) :
    List.Forall₂ IsItem (antaresItems st B) (AStudy.input disk sys files T S).declared := by
  obtain ⟨cs, bs, h1, h2, h3, -⟩ := h.parts
  show List.Forall₂ IsItem _ (sys.nodes ++ sys.components)
  rw [h1]
  unfold antaresItems
  refine List.rel_append ?_ (List.rel_append ?_ ?_)
  · rw [List.forall₂_map_left_iff]
    refine (c56_nodes h.ok).imp fun a c hc => ⟨hc.1, hc.2.1, ?_⟩
    rw [hc.2.2.2]
    exact .cons ⟨rfl, rfl, rfl, rfl⟩ (.cons ⟨rfl, rfl, rfl, rfl⟩ .nil)
  · rw [List.forall₂_map_left_iff]
    refine h2.imp fun o c hc => ⟨hc.1, hc.2.1, ?_⟩
    unfold objectItem
    rw [List.forall₂_map_left_iff]
    exact hc.2.2.2.imp fun _ _ hp => objectParam_is hp
  · rw [List.forall₂_map_left_iff]
    refine h3.imp fun e c hc => ⟨hc.is.1, hc.is.2.1, ?_⟩
    rw [hc.is.2.2.2]
    exact .cons ⟨rfl, rfl, rfl, rfl⟩ (.cons ⟨rfl, rfl, rfl, rfl⟩ (.cons ⟨rfl, rfl, rfl, rfl⟩ (.cons ⟨rfl, rfl, rfl, rfl⟩
      (.cons ⟨rfl, rfl, rfl, rfl⟩ (.cons ⟨rfl, rfl, rfl, rfl⟩ (.cons ⟨rfl, rfl, rfl, rfl⟩ (.cons ⟨rfl, rfl, rfl, rfl⟩
      (.cons ⟨rfl, rfl, rfl, rfl⟩ (.cons ⟨rfl, rfl, rfl, rfl⟩ .nil)))))))))

theorem mem_items {it : StudyItem} : it ∈ antaresItems st B ↔ (∃ a ∈ st.balanced, it = areaItem a) ∨ (∃ o ∈ st.objects, it = objectItem st o) ∨
    ∃ e ∈ B, it = batteryItem st e := by
  unfold antaresItems
  simp only [List.mem_append, List.mem_map]
  constructor
  · rintro (⟨a, ha, rfl⟩ | ⟨a, ha, rfl⟩ | ⟨a, ha, rfl⟩)
    · exact .inl ⟨a, ha, rfl⟩
    · exact .inr (.inl ⟨a, ha, rfl⟩)
    · exact .inr (.inr ⟨a, ha, rfl⟩)
  · rintro (⟨a, ha, rfl⟩ | ⟨a, ha, rfl⟩ | ⟨a, ha, rfl⟩)
    · exact .inl ⟨a, ha, rfl⟩
    · exact .inr (.inl ⟨a, ha, rfl⟩)
    · exact .inr (.inr ⟨a, ha, rfl⟩)

/-! ## Tables -/

theorem load_object (h : AConverted st period pre disk B T S sys files) {o : AObject} (ho : o ∈ st.objects) {id f : String}
    (hf : (id, .inr f) ∈ o.params) (hn : ∀ a t, o = .thermal a t → id ∉ thermalParameters) :
    AStudy.load disk files (st.path ++ "/input/" ++ f) = disk (st.fileOf f) :=
  load_other h.plain h.keys h.ok h.distinct disk ho hf hn

theorem load_prepared (h : AConverted st period pre disk B T S sys files) {a : AArea} {c : AThermal} (ho : .thermal a c ∈ st.objects)
    {id : String} (hid : id ∈ thermalParameters) :
    ∃ f, AStudy.load disk files (st.path ++ "/input/" ++ ("thermal/series/" ++ c.areaId ++ "/" ++ c.id ++ "/" ++ id)) = .ok f ∧
      AThermal.IsColumn f c.series.rows.length (c.prepared period id) := by
  obtain ⟨p, f, h1, h2⟩ := load_thermal (disk := disk) h.plain h.keys h.ok h.distinct ho hid
  have hs : c.Sound T := (h.data.objects _ ho).1
  exact ⟨f, h2, hs.generated h.per h1⟩

theorem mem_candidates (h : AConverted st period pre disk B T S sys files) {e : AArea × BatteryData} (he : e ∈ B) : e.1 ∈ st.candidates := by
  obtain ⟨rest, f1, -⟩ := h.batteries.first
  unfold AStudy.candidates
  rw [f1]
  exact List.mem_append_left _ (List.mem_map_of_mem he)

theorem load_curve (h : AConverted st period pre disk B T S sys files) {e : AArea × BatteryData} (he : e ∈ B) {n : String} {f : Frame}
    (hf : (n ++ ".txt", f) ∈ batteryFiles st e.1.id e.2 e.2.top) : AStudy.load disk files n = .ok f := by
  obtain ⟨cs, bs, -, -, h3, -⟩ := h.parts
  obtain ⟨x, -, hx⟩ := forall₂_left h3 he
  exact load_battery (disk := disk) h.plain h.keys h.ok h.distinct (h.mem_candidates he) (h.batteries.data e he) hx.top hx.files hf

theorem tables (h : AConverted st period pre disk B T S sys files) (n : String) (f : Frame) (hf : AStudy.load disk files n = .ok f) :
    f.Rectangular := by
  unfold AStudy.load at hf
  split at hf
  · next g hg =>
    cases hf
    have hm := List.mem_reverse.1 (List.mem_of_find?_eq_some hg)
    rcases files_from h.plain h.keys h.ok _ hm with ⟨a, t, ho, id, hid, -, p, hp⟩ | ⟨-, -, -, ⟨l, hl⟩, -⟩
    · have hs : t.Sound T := (h.data.objects _ ho).1
      exact fun row hr => ((hs.generated h.per hp).finite row hr).1
    · rw [hl]
      exact columnOf_rectangular l
  · exact h.data.tables _ _ hf

/-! ## Values -/

theorem fin_of {v : Num} (h : Fin' v) : ∃ q : ℚ, v = .fin q ∧ v.toQ = q := by
  cases v with
  | fin q => exact ⟨q, rfl, rfl⟩
  | _ => cases h

theorem top_eq (h : AConverted st period pre disk B T S sys files) {e : AArea × BatteryData} (he : e ∈ B) : ∃ q : ℚ, e.2.top = .fin q ∧ q ≠ 0 := by
  obtain ⟨cs, bs, -, -, h3, -⟩ := h.parts
  obtain ⟨x, -, hx⟩ := forall₂_left h3 he
  have hs := (h.data.batteries e he).injection
  have hnan : Num.nan ∉ e.2.injection := by
    intro hm
    have := hs.1.1 _ hm
    cases this
  have hmax := pyMaximum_isMaximum hnan hx.top
  obtain ⟨q, hq, h0⟩ := hs.2
  have h1 := hmax.2 _ hq.1
  have h2 := hq.2 _ hmax.1
  obtain ⟨q', hq', -⟩ := fin_of (hs.1.1 _ hmax.1)
  rw [hq'] at h1 h2
  rw [Num.le_fin] at h1 h2
  exact ⟨q', hq', by rw [le_antisymm h2 h1]; exact h0⟩

theorem columnOf_finite {l : List Num} (h : ∀ v ∈ l, Fin' v) : (columnOf l).Finite := by
  intro row hr
  obtain ⟨v, hv, rfl⟩ := List.mem_map.1 hr
  refine ⟨rfl, fun w hw => ?_⟩
  rw [List.mem_singleton.1 hw]
  obtain ⟨q, hq, -⟩ := fin_of (h v hv)
  exact ⟨q, hq⟩

theorem columnOf_at {l : List Num} {t : Nat} (ht : t < l.length) : cellAt (columnOf l) t 0 = (l.getD t .nan).toQ := by
  unfold cellAt Frame.at columnOf
  simp [ht]

theorem quotient_fin' {l : List Num} {q : ℚ} (h : ∀ v ∈ l, Fin' v) (hq : q ≠ 0) : ∀ v ∈ l.map (fun v => quotient v (.fin q)), Fin' v := by
  intro v hv
  obtain ⟨w, hw, rfl⟩ := List.mem_map.1 hv
  obtain ⟨x, rfl, -⟩ := fin_of (h w hw)
  rw [quotient_fin hq]
  rfl

theorem good_object (h : AConverted st period pre disk B T S sys files) {o : AObject} (ho : o ∈ st.objects) :
    ∀ x ∈ (objectItem st o).params, x.2.Good (AStudy.load disk files) T S := by
  have hs := h.data.objects o ho
  have file : ∀ {id f : String} {g : Frame}, (id, .inr f) ∈ o.params → (∀ a t, o = .thermal a t → id ∉ thermalParameters) →
      disk (st.fileOf f) = .ok g → g.Covers T S → (ItemParam.file (st.path ++ "/input/" ++ f) true).Good (AStudy.load disk files) T S := by
    intro id f g hf hn hd hc
    refine ⟨g, by rw [h.load_object ho hf hn]; exact hd, hc.finite, hc.hours, ?_⟩
    rw [if_pos rfl]
    exact hc.scenarios
  intro x hx
  obtain ⟨y, hy, rfl⟩ := List.mem_map.1 hx
  rcases h.object_cases ho with ⟨a, c, rfl⟩ | ⟨a, u, rfl⟩ | ⟨a, rfl⟩ | ⟨l, rfl⟩
  · obtain ⟨hc, rfl, hd⟩ := hs
    obtain ⟨cap, hcap, -⟩ := hc.capacity
    obtain ⟨n1, n2, n3, n4, n5⟩ := hc.numbers
    obtain ⟨⟨up, hup⟩, down, hdown⟩ := hc.durations
    have hgen : ∀ {id n : String}, id ∈ thermalParameters → "/" ++ id = n → (ItemParam.file (st.path ++ "/input/" ++
        ("thermal/series/" ++ c.areaId ++ "/" ++ c.id ++ n)) true).Good (AStudy.load disk files) T 1 := by
      intro id n hid hn
      subst hn
      obtain ⟨f, h1, h2⟩ := h.load_prepared ho hid
      rw [String.append_assoc (s₁ := "thermal/series/" ++ c.areaId ++ "/" ++ c.id)] at h1
      refine ⟨f, h1, h2.finite, by rw [h2.rows]; exact hc.series.hours, ?_⟩
      rw [if_pos rfl, h2.width]
    have hser : (ItemParam.file (st.path ++ "/input/" ++ ("thermal/series/" ++ c.areaId ++ "/" ++ c.id ++ "/series")) true).Good
        (AStudy.load disk files) T 1 :=
      file (id := "p_max_cluster") (by simp [AObject.params]) (fun _ _ _ => by decide) hd hc.series
    simp only [AObject.params, List.mem_cons, List.not_mem_nil, or_false] at hy
    rcases hy with rfl | rfl | rfl | rfl | rfl | rfl | rfl | rfl | rfl | rfl | rfl | rfl | rfl | rfl | rfl
    · exact hgen (id := "p_min_cluster") (by decide) rfl
    · exact hgen (id := "nb_units_min") (by decide) rfl
    · exact hgen (id := "nb_units_max") (by decide) rfl
    · exact hgen (id := "nb_units_max_variation_forward") (by decide) rfl
    · exact hgen (id := "nb_units_max_variation_backward") (by decide) rfl
    · exact rfl
    · exact n1
    · exact n2
    · show Fin' c.nominalCapacity
      rw [hcap]
      rfl
    · exact n3
    · exact n4
    · exact n5
    · show Fin' c.minUpTime
      rw [hup]
      rfl
    · show Fin' c.minDownTime
      rw [hdown]
      rfl
    · exact hser
  · obtain ⟨n1, n2, n3, n4, n5, hf, -⟩ := hs
    have hg : ∀ {id n m : String}, n ∈ ["inflows", "lower-rule-curve", "upper-rule-curve", "PMAX-injection", "PMAX-withdrawal"] → "/" ++ n = m →
        (id, .inr ("st-storage/series/" ++ u.areaId ++ "/" ++ u.id ++ m)) ∈ (AObject.storage a u).params →
        (ItemParam.file (st.path ++ "/input/" ++ ("st-storage/series/" ++ u.areaId ++ "/" ++ u.id ++ m)) true).Good (AStudy.load disk files) T S := by
      intro id n m hn he hm
      subst he
      obtain ⟨g, h1, h2⟩ := hf n hn
      unfold AStorage.seriesName at h1
      rw [String.append_assoc (s₁ := "st-storage/series/" ++ u.areaId ++ "/" ++ u.id)] at h1
      exact file hm (fun _ _ he => by cases he) h1 h2
    simp only [AObject.params, List.mem_cons, List.not_mem_nil, or_false] at hy
    rcases hy with rfl | rfl | rfl | rfl | rfl | rfl | rfl | rfl | rfl | rfl | rfl
    · exact n1
    · exact rfl
    · exact n2
    · exact n3
    · exact n4
    · exact n5
    · exact hg (id := "inflows") (n := "inflows") (by decide) rfl (by simp [AObject.params])
    · exact hg (id := "lower_rule_curve") (n := "lower-rule-curve") (by decide) rfl (by simp [AObject.params])
    · exact hg (id := "upper_rule_curve") (n := "upper-rule-curve") (by decide) rfl (by simp [AObject.params])
    · exact hg (id := "p_max_injection_modulation") (n := "PMAX-injection") (by decide) rfl (by simp [AObject.params])
    · exact hg (id := "p_max_withdrawal_modulation") (n := "PMAX-withdrawal") (by decide) rfl (by simp [AObject.params])
  · obtain ⟨f, -, h1, h2⟩ := hs
    have he := List.mem_singleton.1 hy
    subst he
    exact file (id := "load") (by simp [AObject.params]) (fun _ _ he => by cases he) h2 h1
  · obtain ⟨hf, -⟩ := hs
    have hg : ∀ {id n : String}, n ∈ ["_direct", "_indirect"] → (id, .inr (l.capacityName n)) ∈ (AObject.link l).params →
        (ItemParam.file (st.path ++ "/input/" ++ l.capacityName n) true).Good (AStudy.load disk files) T S := by
      intro id n hn hm
      obtain ⟨g, h1, h2⟩ := hf n hn
      exact file hm (fun _ _ he => by cases he) h1 h2
    simp only [AObject.params, List.mem_cons, List.not_mem_nil, or_false] at hy
    rcases hy with rfl | rfl
    · exact hg (id := "capacity_direct") (n := "_direct") (by decide) (by simp [AObject.params, ALink.capacityName])
    · exact hg (id := "capacity_indirect") (n := "_indirect") (by decide) (by simp [AObject.params, ALink.capacityName])

theorem good_battery (h : AConverted st period pre disk B T S sys files) {e : AArea × BatteryData} (he : e ∈ B) :
    ∀ x ∈ (batteryItem st e).params, x.2.Good (AStudy.load disk files) T S := by
  have hs := h.data.batteries e he
  obtain ⟨r, hr, r0⟩ := hs.reservoir
  obtain ⟨w, hw, w0⟩ := hs.withdrawal
  obtain ⟨m, hm, m0⟩ := h.top_eq he
  obtain ⟨k1, k2⟩ := hs.weights
  obtain ⟨s1, s2, s3⟩ := hs.series
  have hg : ∀ {n : String} {l : List Num}, (n ++ ".txt", columnOf l) ∈ batteryFiles st e.1.id e.2 e.2.top → (∀ v ∈ l, Fin' v) → T ≤ l.length →
      (ItemParam.file n false).Good (AStudy.load disk files) T S := by
    intro n l hn hl hT
    refine ⟨_, h.load_curve he hn, columnOf_finite hl, ?_, ?_⟩
    · unfold columnOf
      rw [List.length_map]
      exact hT
    · rw [if_neg (by decide)]
      rfl
  intro x hx
  simp only [batteryItem, List.mem_cons, List.not_mem_nil, or_false] at hx
  rcases hx with rfl | rfl | rfl | rfl | rfl | rfl | rfl | rfl | rfl | rfl
  · show Fin' e.2.reservoir
    rw [hr]
    rfl
  · show Fin' e.2.top
    rw [hm]
    rfl
  · show Fin' e.2.withdrawal
    rw [hw]
    rfl
  · obtain ⟨q, hq, -⟩ := fin_of k1
    show Fin' (e.2.linkWeight * (-1))
    rw [hq]
    rfl
  · exact k2
  · rfl
  · exact hg (l := e.2.level.map fun v => quotient v e.2.reservoir) (by simp [batteryFiles, String.append_assoc]) (by rw [hr]; exact quotient_fin' s1.1 r0)
      (by rw [List.length_map]; exact s1.2)
  · exact hg (l := e.2.injection.map fun v => quotient v e.2.top) (by simp [batteryFiles, String.append_assoc])
      (by rw [hm]; exact quotient_fin' hs.injection.1.1 m0) (by rw [List.length_map]; exact hs.injection.1.2)
  · exact hg (l := e.2.production.map fun v => quotient v e.2.withdrawal) (by simp [batteryFiles, String.append_assoc])
      (by rw [hw]; exact quotient_fin' s2.1 w0) (by rw [List.length_map]; exact s2.2)
  · exact hg (l := e.2.cost) (by simp [batteryFiles, String.append_assoc]) s3.1 s3.2

/-- the rules of an object -/
def rulesOf : AObject → Rules
  | .renewable .. => Rules.renewable
  | .thermal .. => Rules.thermal
  | .storage .. => Rules.shortTermStorage
  | .load _ => Rules.load
  | .link _ => Rules.link
  | _ => Rules.area

theorem named (h : AConverted st period pre disk B T S sys files) {o : AObject} (ho : o ∈ st.objects) :
    Rules.named o.model = some (rulesOf o) := by
  rcases h.object_cases ho with ⟨a, c, rfl⟩ | ⟨a, u, rfl⟩ | ⟨a, rfl⟩ | ⟨l, rfl⟩ <;> rfl

theorem params_nodup (it : StudyItem) (hi : it ∈ antaresItems st B) : (it.params.map (·.1)).Nodup := by
  rcases mem_items.1 hi with ⟨a, -, rfl⟩ | ⟨o, -, rfl⟩ | ⟨e, -, rfl⟩
  · show (["ens_cost", "spillage_cost"] : List String).Nodup
    decide
  · have : (objectItem st o).params.map (·.1) = o.params.map (·.1) := by
      unfold objectItem
      rw [List.map_map]
      rfl
    rw [this]
    cases o <;> simp [AObject.params]
  · unfold batteryItem
    simp

theorem items (h : AConverted st period pre disk B T S sys files) : Items (AStudy.input disk sys files T S) T S (antaresItems st B) where
  declared := h.declared
  ids := by
    have := h.distinct.names
    unfold antaresItems
    rw [List.map_append, List.map_append, List.map_map, List.map_map, List.map_map]
    exact this
  params := fun it hi => params_nodup it hi
  steps := rfl
  scenarios := rfl
  hours := h.data.hours
  some_scenario := h.data.scenarios
  tables := h.tables
  good := by
    intro it hi
    rcases mem_items.1 hi with ⟨a, ha, rfl⟩ | ⟨o, ho, rfl⟩ | ⟨e, he, rfl⟩
    · intro x hx
      simp only [areaItem, List.mem_cons, List.not_mem_nil, or_false] at hx
      rcases hx with rfl | rfl
      · exact (h.data.areas a ha).1
      · exact (h.data.areas a ha).2
    · exact h.good_object ho
    · exact h.good_battery he
  rules := by
    intro it hi
    rcases mem_items.1 hi with ⟨a, ha, rfl⟩ | ⟨o, ho, rfl⟩ | ⟨e, he, rfl⟩
    · refine ⟨Rules.area, rfl, ?_⟩
      intro q _ x hx _ n b hf
      simp only [areaItem, List.mem_cons, List.not_mem_nil, or_false] at hx
      rcases hx with rfl | rfl <;> cases hf
    · refine ⟨rulesOf o, h.named ho, ?_⟩
      intro q hq x hx hxq n b hf
      obtain ⟨y, hy, rfl⟩ := List.mem_map.1 hx
      have hy1 : y.1 = q.1 := hxq
      rcases h.object_cases ho with ⟨a, c, rfl⟩ | ⟨a, u, rfl⟩ | ⟨a, rfl⟩ | ⟨l, rfl⟩
      · have hx : ∃ f, y.2 = .inr f := by
          cases hy2 : y.2 with
          | inl v => simp [objectParam, hy2] at hf
          | inr f => exact ⟨f, rfl⟩
        obtain ⟨f, hf⟩ := hx
        have hin : y.1 ∈ ["p_min_cluster", "nb_units_min", "nb_units_max", "nb_units_max_variation_forward", "nb_units_max_variation_backward",
            "p_max_cluster"] := by
          simp only [AObject.params, List.mem_cons, List.not_mem_nil, or_false] at hy
          rcases hy with rfl | rfl | rfl | rfl | rfl | rfl | rfl | rfl | rfl | rfl | rfl | rfl | rfl | rfl | rfl <;> first | (cases hf; done) | simp
        have : ∀ n ∈ ["p_min_cluster", "nb_units_min", "nb_units_max", "nb_units_max_variation_forward", "nb_units_max_variation_backward",
            "p_max_cluster"], ∀ q ∈ Rules.thermal.parameters, n = q.1 → q.2.1 = true ∧ (b = true → q.2.2 = true) := by
          cases b <;> decide
        exact this _ hin q hq hy1
      · have hx : ∃ f, y.2 = .inr f := by
          cases hy2 : y.2 with
          | inl v => simp [objectParam, hy2] at hf
          | inr f => exact ⟨f, rfl⟩
        obtain ⟨f, hf⟩ := hx
        have hin : y.1 ∈ ["inflows", "lower_rule_curve", "upper_rule_curve", "p_max_injection_modulation", "p_max_withdrawal_modulation"] := by
          simp only [AObject.params, List.mem_cons, List.not_mem_nil, or_false] at hy
          rcases hy with rfl | rfl | rfl | rfl | rfl | rfl | rfl | rfl | rfl | rfl | rfl <;> first | (cases hf; done) | simp
        have : ∀ n ∈ ["inflows", "lower_rule_curve", "upper_rule_curve", "p_max_injection_modulation", "p_max_withdrawal_modulation"],
            ∀ q ∈ Rules.shortTermStorage.parameters, n = q.1 → q.2.1 = true ∧ (b = true → q.2.2 = true) := by
          cases b <;> decide
        exact this _ hin q hq hy1
      · have : ∀ q ∈ Rules.load.parameters, q.2.1 = true ∧ (b = true → q.2.2 = true) := by cases b <;> decide
        exact this q hq
      · have : ∀ q ∈ Rules.link.parameters, q.2.1 = true ∧ (b = true → q.2.2 = true) := by cases b <;> decide
        exact this q hq
    · refine ⟨Rules.battery, rfl, ?_⟩
      intro q hq x hx hxq n b hf
      have hin : x.1 ∈ ["upper_rule_curve", "p_max_injection_modulation", "p_max_withdrawal_modulation", "marginal_cost"] ∧ b = false := by
        simp only [batteryItem, List.mem_cons, List.not_mem_nil, or_false] at hx
        rcases hx with rfl | rfl | rfl | rfl | rfl | rfl | rfl | rfl | rfl | rfl <;> first | (cases hf; done) | (cases hf; simp)
      obtain ⟨hin, rfl⟩ := hin
      have : ∀ n ∈ ["upper_rule_curve", "p_max_injection_modulation", "p_max_withdrawal_modulation", "marginal_cost"],
          ∀ q ∈ Rules.battery.parameters, n = q.1 → q.2.1 = true ∧ (false = true → q.2.2 = true) := by decide
      exact this _ hin q hq hxq

end AConverted
end Verif
