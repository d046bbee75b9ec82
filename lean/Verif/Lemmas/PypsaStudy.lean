import Verif.Lemmas.Pypsa

/-!
# The whole conversion of a PyPSA network
-/

namespace Verif

theorem forall₂_imp_mem {α β} {P Q : α → β → Prop} {a : List α} {b : List β} (h : List.Forall₂ P a b)
    (hi : ∀ x ∈ a, ∀ y, P x y → Q x y) : List.Forall₂ Q a b := by
  induction h with
  | nil => exact .nil
  | cons hx _ ih => exact .cons (hi _ (by simp) _ hx) (ih fun x hx => hi x (by simp [hx]))

theorem forall₂_comp {α β γ} {P : α → β → Prop} {Q : β → γ → Prop} {S : α → γ → Prop} {a : List α} {b : List β} {c : List γ}
    (h1 : List.Forall₂ P a b) (h2 : List.Forall₂ Q b c) (h : ∀ x ∈ a, ∀ y z, P x y → Q y z → S x z) : List.Forall₂ S a c := by
  induction h1 generalizing c with
  | nil => cases h2; exact .nil
  | cons hx _ ih =>
    cases h2 with
    | cons hy ht => exact .cons (h _ (by simp) _ _ hx hy) (ih ht fun x hx => h x (by simp [hx]))

/-- suffix of each type -/
def suffixOf : PType → String
  | .generators => "_generator"
  | .loads => "_load"
  | .buses => ""
  | .links => ""
  | .storageUnits => "_storage"
  | .stores => "_store"

theorem rename_empty (t : PTable) : t.rename "" = t := by
  obtain ⟨c, r⟩ := t
  simp [PTable.rename]

theorem renameSeries_empty (s : PSeries) : renameSeries s "" = s := by
  simp [renameSeries]

theorem preprocess_table (n : PNetwork) (ty : PType) : (pypsaPreprocess n).table ty = (n.table ty).rename (suffixOf ty) := by
  cases ty <;> simp [pypsaPreprocess, PNetwork.rename, suffixOf, rename_empty, Function.update_apply]

theorem preprocess_series (n : PNetwork) (ty : PType) : (pypsaPreprocess n).series ty = renameSeries (n.series ty) (suffixOf ty) := by
  cases ty <;> simp [pypsaPreprocess, PNetwork.rename, suffixOf, renameSeries_empty, Function.update_apply]

theorem preprocess_carriers (n : PNetwork) : (pypsaPreprocess n).carriers = addCarrierColumn (addNullCarrier n.carriers) := rfl

theorem preprocess_rest (n : PNetwork) : (pypsaPreprocess n).name = n.name ∧ (pypsaPreprocess n).globalConstraints = n.globalConstraints :=
  ⟨rfl, rfl⟩

theorem rename_frame {t : PTable} (h : t.Frame) (s : String) : (t.rename s).Frame := by
  intro r hr col
  unfold PTable.rename at hr
  obtain ⟨x, hx, rfl⟩ := List.mem_map.1 hr
  exact h x hx col

theorem found_emissions {n : PNetwork} (h : "co2_emissions" ∈ n.carriers.columns) (c : String) :
    foundEmissions (addCarrierColumn (addNullCarrier n.carriers)) c = emissionsOf n c := by
  have h1 : ∀ t : PTable, foundEmissions (addCarrierColumn t) c = foundEmissions t c := by
    intro t
    unfold foundEmissions addCarrierColumn
    have := Dict.get?_map t.rows (fun id row => row.set "carrier" (.str id)) c
    rw [show Dict.get? (t.rows.map fun (x : String × Dict String Cell) => (x.1, x.2.set "carrier" (.str x.1))) c = _ from this]
    cases Dict.get? t.rows c with
    | none => rfl
    | some row =>
      simp only [Option.map_some, Option.getD_some]
      rw [Dict.get?_set_ne _ _ (by decide)]
  rw [h1]
  unfold emissionsOf foundEmissions addNullCarrier
  by_cases hn : nullCarrier ∈ n.carriers.rows.map (·.1)
  · rw [if_pos hn]
    cases hg : Dict.get? n.carriers.rows c with
    | some row => rfl
    | none =>
      have hc : c ≠ "null" := by
        rintro rfl
        exact (Dict.get?_eq_none_iff.1 hg) hn
      simp only [hc, if_false]
      rfl
  · rw [if_neg hn]
    dsimp only
    rw [show ∀ x, Dict.get? (n.carriers.rows ++ x) c = (Dict.get? n.carriers.rows c).orElse fun _ => Dict.get? x c from
      fun x => Dict.get?_append _ _ _]
    cases hg : Dict.get? n.carriers.rows c with
    | some row => rfl
    | none =>
      by_cases hc : c = "null"
      · subst hc
        simp only [Option.orElse, Dict.get?, nullCarrier, if_true, Option.getD_some]
        rw [Dict.get?_mapKey _ (fun x => x) _ _ "co2_emissions" h rfl fun y _ hy => hy]
        rfl
      · have : ¬ nullCarrier = c := fun h => hc h.symm
        simp [Dict.get?, this, hc]

/-- the attributes that are read -/
def PKind.attrs (k : PKind) : List String := k.params.map (·.1) ++ k.buses.map (·.1)

/-- a table before and after the preprocessing -/
def Prepared (n : PNetwork) (k : PKind) (rows' : List (String × Dict String Cell)) : Prop :=
  List.Forall₂ (fun r r' => r'.1 = r.1 ++ k.suffix ∧ (∀ a ∈ k.attrs, r'.2.get? a = sourceCell n k.capacity r.2 a) ∧
    (k.capacity ≠ none → ∃ s, carrierOf r.2 = some s ∧ r'.2.get? "carrier" = some (.str s))) (n.table k.ty).rows rows'

theorem prepared_none {n : PNetwork} {k : PKind} (hc : k.capacity = none) (hs : suffixOf k.ty = k.suffix) :
    Prepared n k ((pypsaPreprocess n).table k.ty).rows := by
  rw [preprocess_table]
  unfold Prepared PTable.rename
  rw [hc, hs]
  simp only [ne_eq, not_true_eq_false, false_implies, and_true]
  generalize (n.table k.ty).rows = l
  induction l with
  | nil => exact .nil
  | cons x l ih => exact .cons ⟨rfl, fun a _ => rfl⟩ ih

theorem prepared_some {n m : PNetwork} (ht : n.Tables) {k : PKind} (hk : k ∈ pypsaKinds) {capa : String} (hc : k.capacity = some capa)
    (hs : suffixOf k.ty = k.suffix)
    (hl : Lines (fun row row' => (∃ s, row.get? "carrier" = some (.str s)) ∧
      ∀ attr, attr ∈ ((pypsaPreprocess n).table k.ty).columns ∨ attr = "co2_emissions" →
        row'.get? attr = preparedCell (pypsaPreprocess n).carriers capa row attr)
      ((pypsaPreprocess n).table k.ty).rows (m.table k.ty).rows) : Prepared n k (m.table k.ty).rows := by
  have hcar : ∀ a ∈ k.attrs, a ≠ "carrier" := by
    clear hl hc hs
    revert k
    decide
  rw [preprocess_table] at hl
  unfold Prepared Lines PTable.rename at *
  rw [List.forall₂_map_left_iff, hs] at hl
  refine hl.imp ?_
  rintro r r' ⟨h1, ⟨s, hs'⟩, h2⟩
  have hco : carrierOf r.2 = some (if s = "" then "null" else s) := by unfold carrierOf; rw [hs']
  refine ⟨h1, ?_, fun _ => ⟨_, hco, ?_⟩⟩
  · intro a ha
    rw [h2 a (by
      by_cases he : a = "co2_emissions"
      · exact .inr he
      · exact .inl (ht.attributes k hk a ha he))]
    unfold preparedCell sourceCell
    rw [hc, if_neg (hcar a ha)]
    by_cases he : a = "co2_emissions"
    · simp only [he, if_true]
      rw [preprocess_carriers]
      congr 1
      funext c
      exact found_emissions ht.emissions c
    · simp only [he, if_false]
  · rw [h2 _ (.inl (ht.capacities k hk capa hc).2.2)]
    unfold preparedCell
    rw [if_pos rfl, hco]
    rfl

/-- what the converter registers for a type -/
structure DataFor (n : PNetwork) (k : PKind) (d : PComponentData) : Prop where
  model : d.gemsModel = k.model
  params : d.params = k.params
  connections : d.connections = k.buses.map fun b => (b.1, b.2, "p_balance_port")
  series : d.timeData = renameSeries (n.series k.ty) k.suffix
  rows : Prepared n k d.constantData.rows
  columns : ∀ a ∈ k.attrs, a ∈ d.constantData.columns

theorem get?_renameSeries (s : PSeries) (suf attr : String) :
    (renameSeries s suf).get? attr = (s.get? attr).map fun cols => cols.map fun x => (x.1 ++ suf, x.2) :=
  Dict.get?_map s (fun _ (cols : List (String × List Num)) => cols.map fun (x : String × List Num) => (x.1 ++ suf, x.2)) attr

theorem mem_writeSeries {n : PNetwork} {k : PKind} {d : PComponentData} (hd : DataFor n k d) {c a name : String} {vs : List Num} :
    ((c, a), name, vs) ∈ writeSeries n.name d ↔
      a ∈ k.params.map (·.1) ∧ name = seriesName n.name c a ∧ ∃ id, HasSeries n k.ty a id vs ∧ c = id ++ k.suffix := by
  unfold writeSeries
  rw [List.mem_flatMap, hd.params, hd.series]
  constructor
  · rintro ⟨p, hp, h⟩
    rw [get?_renameSeries] at h
    cases hg : (n.series k.ty).get? p with
    | none => rw [hg] at h; cases h
    | some cols =>
      rw [hg] at h
      simp only [Option.map_some, List.map_map, List.mem_map, Function.comp] at h
      obtain ⟨⟨id, vs'⟩, hx, h⟩ := h
      cases h
      exact ⟨hp, rfl, id, ⟨cols, hg, hx⟩, rfl⟩
  · rintro ⟨hp, rfl, id, ⟨cols, hg, hx⟩, rfl⟩
    refine ⟨a, hp, ?_⟩
    rw [get?_renameSeries, hg]
    simp only [Option.map_some, List.map_map, List.mem_map, Function.comp]
    exact ⟨(id, vs), hx, rfl⟩

theorem ofItems_get?_mem {α β} [DecidableEq α] {l : List (α × β)} {k : α} {v : β} (h : (Dict.ofItems l).get? k = some v) : (k, v) ∈ l := by
  rw [Dict.get?_ofItems] at h
  obtain ⟨x, hx, rfl⟩ := Option.map_eq_some_iff.1 h
  have h1 := List.mem_of_find?_eq_some hx
  have h2 : x.1 = k := by simpa using List.find?_some hx
  subst h2
  simpa using h1

theorem ofItems_get?_none {α β} [DecidableEq α] {l : List (α × β)} {k : α} (h : (Dict.ofItems l).get? k = none) (v : β) : (k, v) ∉ l := by
  rw [Dict.get?_ofItems, Option.map_eq_none_iff, List.find?_eq_none] at h
  intro hm
  exact h (k, v) (by simpa using hm) (by simp)

theorem append_suffix_inj {a b s : String} (h : a ++ s = b ++ s) : a = b := by
  have := congrArg String.toList h
  rw [String.toList_append, String.toList_append] at this
  exact String.toList_inj.1 (List.append_cancel_right this)

theorem gemsComponents_ok {pf : String → Option Num} {n : PNetwork} {k : PKind} {d : PComponentData} (hd : DataFor n k d)
    {cs : List InputComponent} (h : gemsComponents pf (Dict.ofItems (writeSeries n.name d)) d = .ok cs) :
    List.Forall₂ (IsPypsaComponent pf n k) (n.table k.ty).rows cs := by
  refine forall₂_comp hd.rows (appendAll_ok_iff.1 h) ?_
  rintro r - r' comp ⟨hid, hcells, -⟩ hy
  obtain ⟨ps, h1, h2⟩ := bind_ok_iff.1 hy
  cases h2
  refine ⟨hid, by rw [hd.model]; rfl, rfl, ?_⟩
  rw [hd.params] at h1
  refine forall₂_imp_mem (appendAll_ok_iff.1 h1) ?_
  intro a ha p hp
  unfold gemsParameter at hp
  have hw : ∀ name vs, ((r'.1, a.1), name, vs) ∈ writeSeries n.name d ↔
      name = seriesName n.name r'.1 a.1 ∧ HasSeries n k.ty a.1 r.1 vs := by
    intro name vs
    rw [mem_writeSeries hd]
    constructor
    · rintro ⟨-, h1, id, h2, h3⟩
      rw [hid] at h3
      rw [append_suffix_inj h3]
      exact ⟨h1, h2⟩
    · rintro ⟨h1, h2⟩
      exact ⟨List.mem_map.2 ⟨a, ha, rfl⟩, h1, r.1, h2, hid⟩
  cases hg : (Dict.ofItems (writeSeries n.name d)).get? (r'.1, a.1) with
  | some x =>
    obtain ⟨name, vs⟩ := x
    rw [hg] at hp
    cases hp
    obtain ⟨h1, h2⟩ := (hw _ _).1 (ofItems_get?_mem hg)
    refine ⟨rfl, rfl, rfl, .inl ⟨⟨vs, h2⟩, rfl, ?_⟩⟩
    rw [h1, hid]
    rfl
  | none =>
    rw [hg] at hp
    obtain ⟨c, h1, hp⟩ := bind_ok_iff.1 hp
    obtain ⟨v, h2, hp⟩ := bind_ok_iff.1 hp
    cases hp
    obtain ⟨v', h3, rfl⟩ := anyToFloat_ok_iff.1 h2
    refine ⟨rfl, rfl, rfl, .inr ⟨?_, rfl, c, v', ?_, h3, rfl⟩⟩
    · rintro ⟨vs, h⟩
      exact ofItems_get?_none hg _ ((hw _ vs).2 ⟨rfl, h⟩)
    · rw [← hcells a.1 (by unfold PKind.attrs; exact List.mem_append_left _ (List.mem_map.2 ⟨a, ha, rfl⟩))]
      exact rowCell_ok_iff.1 h1

theorem gemsConnections_ok {n : PNetwork} {k : PKind} (hk : k ∈ pypsaKinds) {d : PComponentData} (hd : DataFor n k d)
    {xs : List InputConnection} (h : gemsConnections d = .ok xs) :
    ∃ parts, xs = parts.flatten ∧
      List.Forall₂ (fun b ys => List.Forall₂ (IsBusConnection k b) (n.table k.ty).rows ys) k.buses parts := by
  unfold gemsConnections at h
  obtain ⟨parts, h1, h⟩ := bind_ok_iff.1 h
  cases h
  refine ⟨parts, rfl, ?_⟩
  rw [hd.connections, appendAll_map] at h1
  have hplain : ∀ b ∈ k.buses, ∀ row, sourceCell n k.capacity row b.1 = row.get? b.1 := by
    have : ∀ k ∈ pypsaKinds, ∀ b ∈ k.buses, ∀ capa, k.capacity = some capa → b.1 ≠ "co2_emissions" ∧ b.1 ≠ capa ++ "_min" ∧
        b.1 ≠ capa ++ "_max" ∧ b.1 ≠ "capital_cost" := by
      intro k hk b hb capa hc
      have : ∀ k ∈ pypsaKinds, ∀ b ∈ k.buses, ∀ capa ∈ k.capacity, b.1 ≠ "co2_emissions" ∧ b.1 ≠ capa ++ "_min" ∧
        b.1 ≠ capa ++ "_max" ∧ b.1 ≠ "capital_cost" := by decide
      exact this k hk b hb capa hc
    intro b hb row
    unfold sourceCell
    cases hc : k.capacity with
    | none => rfl
    | some capa =>
      obtain ⟨x1, x2, x3, x4⟩ := this k hk b hb capa hc
      simp [x1, x2, x3, x4]
  refine forall₂_imp_mem (appendAll_ok_iff.1 h1) ?_
  intro b hb ys hys
  refine forall₂_comp hd.rows (appendAll_ok_iff.1 hys) ?_
  rintro r - r' x ⟨hid, hcells, -⟩ hx
  unfold gemsConnection at hx
  obtain ⟨c, h2, hx⟩ := bind_ok_iff.1 hx
  rw [rowCell_ok_iff, hcells b.1 (by unfold PKind.attrs; exact List.mem_append_right _ (List.mem_map.2 ⟨b, hb, rfl⟩)), hplain b hb] at h2
  cases c with
  | str c => cases hx; exact ⟨h2, rfl, hid, rfl⟩
  | num v => cases hx
  | bool v => cases hx

theorem constraintData_ok {cs : List (String × String)} {rows : List (String × Dict String Cell)} {ds : List PConstraintData}
    (h : constraintData cs rows = .ok ds) :
    List.Forall₂ (fun r d => d.name = r.1 ∧ d.contributors = cs ∧ r.2.get? "constant" = some d.constant ∧
      ((r.2.get? "sense" = some (.str "<=") ∧ d.gemsModel = "global_constraint_co2_max") ∨
       (r.2.get? "sense" = some (.str "==") ∧ d.gemsModel = "global_constraint_co2_eq"))) rows ds := by
  have heq : ∀ (c : Cell) (s : String), c.eqStr s = true → c = .str s := by
    intro c s h
    cases c <;> simp_all [Cell.eqStr]
  refine (appendAll_ok_iff.1 h).imp ?_
  rintro ⟨id, row⟩ d h3
  unfold constraintOf at h3
  obtain ⟨sense, h1, h3⟩ := bind_ok_iff.1 h3
  obtain ⟨attr, h2, h3⟩ := bind_ok_iff.1 h3
  rw [rowCell_ok_iff] at h1
  by_cases hA : attr.eqStr "co2_emissions" && sense.eqStr "<="
  · rw [if_pos hA] at h3
    obtain ⟨k, h5, h3⟩ := bind_ok_iff.1 h3
    cases h3
    rw [Bool.and_eq_true] at hA
    exact ⟨rfl, rfl, rowCell_ok_iff.1 h5, .inl ⟨by rw [← heq _ _ hA.2]; exact h1, rfl⟩⟩
  rw [if_neg hA] at h3
  by_cases hB : attr.eqStr "co2_emissions" && sense.eqStr "=="
  · rw [if_pos hB] at h3
    obtain ⟨k, h5, h3⟩ := bind_ok_iff.1 h3
    cases h3
    rw [Bool.and_eq_true] at hB
    exact ⟨rfl, rfl, rowCell_ok_iff.1 h5, .inr ⟨by rw [← heq _ _ hB.2]; exact h1, rfl⟩⟩
  rw [if_neg hB] at h3
  cases h3

theorem contributors_eq {n : PNetwork} {k : PKind} {t : PTable} (hc : k.capacity ≠ none) (hp : Prepared n k t.rows) :
    contributors t = (emitters n k.ty k.suffix).map fun e => (e, "emission_port") := by
  unfold contributors emitters
  unfold Prepared at hp
  generalize (n.table k.ty).rows = l at hp
  generalize t.rows = l' at hp
  induction hp with
  | nil => rfl
  | cons hx _ ih =>
    rename_i r r' _ _ _
    obtain ⟨hid, -, hcar⟩ := hx
    obtain ⟨s, h1, h2⟩ := hcar hc
    rw [List.filter_cons, List.filter_cons]
    simp only [h1, h2]
    by_cases hs : s = "null"
    · have : (Cell.str s).eqStr nullCarrier = true := by simp [Cell.eqStr, nullCarrier, hs]
      simp only [this, hs, ne_eq, not_true_eq_false, decide_false, Bool.not_true, Bool.false_eq_true, if_false]
      exact ih
    · have : (Cell.str s).eqStr nullCarrier = false := by simp [Cell.eqStr, nullCarrier, hs]
      simp only [this, hs, ne_eq, Option.some.injEq, not_false_eq_true, decide_true, Bool.not_false, if_true, List.map_cons, hid]
      rw [ih]

theorem init_ok {n n' : PNetwork} (ht : n.Tables) {ds : List PComponentData} {gs : List PConstraintData}
    (h : pypsaInit n = .ok (n', ds, gs)) :
    n'.name = n.name ∧ List.Forall₂ (DataFor n) pypsaKinds ds ∧
    constraintData ((allEmitters n).map fun e => (e, "emission_port")) n.globalConstraints.rows = .ok gs := by
  unfold pypsaInit at h
  obtain ⟨-, -, h⟩ := bind_ok_iff.1 h
  obtain ⟨n1, h1, h⟩ := bind_ok_iff.1 h
  obtain ⟨n2, h2, h⟩ := bind_ok_iff.1 h
  obtain ⟨n3, h3, h⟩ := bind_ok_iff.1 h
  obtain ⟨n4, h4, h⟩ := bind_ok_iff.1 h
  obtain ⟨gs', h5, h⟩ := bind_ok_iff.1 h
  cases h
  set n0 := pypsaPreprocess n with hn0
  have htab : ∀ ty, (n0.table ty).columns = (n.table ty).columns ∧ (n0.table ty).Frame := by
    intro ty
    rw [hn0, preprocess_table]
    exact ⟨rfl, rename_frame (ht.frames ty) _⟩
  have hem : "co2_emissions" ∈ n0.carriers.columns := by
    rw [hn0, preprocess_carriers]
    unfold addCarrierColumn addNullCarrier
    have := ht.emissions
    split_ifs <;> simp_all
  have hcap : ∀ k ∈ pypsaKinds, ∀ capa, k.capacity = some capa →
      capa ∈ (n0.table k.ty).columns ∧ capa ++ "_extendable" ∈ (n0.table k.ty).columns := by
    intro k hk capa hc
    rw [(htab k.ty).1]
    exact ⟨(ht.capacities k hk capa hc).1, (ht.capacities k hk capa hc).2.1⟩
  have k0 : pypsaKinds[0] ∈ pypsaKinds := List.getElem_mem _
  have k3 : pypsaKinds[3] ∈ pypsaKinds := List.getElem_mem _
  have k4 : pypsaKinds[4] ∈ pypsaKinds := List.getElem_mem _
  have k5 : pypsaKinds[5] ∈ pypsaKinds := List.getElem_mem _
  obtain ⟨a1, a2, a3, a4, a5, a7, a6⟩ := preprocessType_ok (ty := .generators) (.inl rfl) (htab _).2 (hcap _ k0 _ rfl) hem
    (by rw [(htab _).1]; exact ht.noEmissions _) h1
  have e2 : n1.table .stores = n0.table .stores := a5 _ (by decide)
  obtain ⟨b1, b2, b3, b4, b5, b7, b6⟩ := preprocessType_ok (ty := .stores) (.inr rfl) (by rw [e2]; exact (htab _).2)
    (by rw [e2]; exact hcap _ k5 _ rfl) (by rw [a2]; exact hem) (by rw [e2, (htab _).1]; exact ht.noEmissions _) h2
  have e3 : n2.table .storageUnits = n0.table .storageUnits := (b5 _ (by decide)).trans (a5 _ (by decide))
  obtain ⟨c1, c2, c3, c4, c5, c7, c6⟩ := preprocessType_ok (ty := .storageUnits) (.inl rfl) (by rw [e3]; exact (htab _).2)
    (by rw [e3]; exact hcap _ k4 _ rfl) (by rw [b2, a2]; exact hem) (by rw [e3, (htab _).1]; exact ht.noEmissions _) h3
  have e4 : n3.table .links = n0.table .links := (c5 _ (by decide)).trans ((b5 _ (by decide)).trans (a5 _ (by decide)))
  obtain ⟨d1, d2, d3, d4, d5, d7, d6⟩ := preprocessType_ok (ty := .links) (.inl rfl) (by rw [e4]; exact (htab _).2)
    (by rw [e4]; exact hcap _ k3 _ rfl) (by rw [c2, b2, a2]; exact hem) (by rw [e4, (htab _).1]; exact ht.noEmissions _) h4
  rw [e2, a2] at b6
  rw [e3, b2, a2] at c6
  rw [e4, c2, b2, a2] at d6
  rw [← (b5 .generators (by decide)), ← (c5 .generators (by decide)), ← (d5 .generators (by decide))] at a6
  rw [← (c5 .stores (by decide)), ← (d5 .stores (by decide))] at b6
  rw [← (d5 .storageUnits (by decide))] at c6
  have e5 : n'.table .loads = n0.table .loads :=
    (d5 _ (by decide)).trans ((c5 _ (by decide)).trans ((b5 _ (by decide)).trans (a5 _ (by decide))))
  have e6 : n'.table .buses = n0.table .buses :=
    (d5 _ (by decide)).trans ((c5 _ (by decide)).trans ((b5 _ (by decide)).trans (a5 _ (by decide))))
  have es : ∀ ty, n'.series ty = renameSeries (n.series ty) (suffixOf ty) := by
    intro ty
    rw [d4, c4, b4, a4, hn0, preprocess_series]
  have p0 := prepared_some (k := pypsaKinds[0]) ht k0 rfl rfl a6
  have p3 := prepared_some (k := pypsaKinds[3]) ht k3 rfl rfl d6
  have p4 := prepared_some (k := pypsaKinds[4]) ht k4 rfl rfl c6
  have p5 := prepared_some (k := pypsaKinds[5]) ht k5 rfl rfl b6
  have p1 : Prepared n pypsaKinds[1] (n'.table .loads).rows := by rw [e5]; exact prepared_none rfl rfl
  have p2 : Prepared n pypsaKinds[2] (n'.table .buses).rows := by rw [e6]; exact prepared_none rfl rfl
  rw [← (b5 .generators (by decide)), ← (c5 .generators (by decide)), ← (d5 .generators (by decide))] at a7
  rw [e2, ← (c5 .stores (by decide)), ← (d5 .stores (by decide))] at b7
  rw [e3, ← (d5 .storageUnits (by decide))] at c7
  rw [e4] at d7
  have hat : ∀ k ∈ pypsaKinds, ∀ a ∈ k.attrs, a ∈ (n0.table k.ty).columns ∨ a = "co2_emissions" := by
    intro k hk a ha
    rw [(htab k.ty).1]
    by_cases he : a = "co2_emissions"
    · exact .inr he
    · exact .inl (ht.attributes k hk a ha he)
  have q0 : ∀ a ∈ pypsaKinds[0].attrs, a ∈ (n'.table .generators).columns := fun a ha => a7 a (hat _ k0 a ha)
  have q3 : ∀ a ∈ pypsaKinds[3].attrs, a ∈ (n'.table .links).columns := fun a ha => d7 a (hat _ k3 a ha)
  have q4 : ∀ a ∈ pypsaKinds[4].attrs, a ∈ (n'.table .storageUnits).columns := fun a ha => c7 a (hat _ k4 a ha)
  have q5 : ∀ a ∈ pypsaKinds[5].attrs, a ∈ (n'.table .stores).columns := fun a ha => b7 a (hat _ k5 a ha)
  have q1 : ∀ a ∈ pypsaKinds[1].attrs, a ∈ (n'.table .loads).columns := fun a ha => by
    rw [e5, (htab _).1]
    exact ht.attributes pypsaKinds[1] (List.getElem_mem _) a ha (by rintro rfl; revert ha; decide)
  have q2 : ∀ a ∈ pypsaKinds[2].attrs, a ∈ (n'.table .buses).columns := fun a ha => by
    rw [e6, (htab _).1]
    exact ht.attributes pypsaKinds[2] (List.getElem_mem _) a ha (by rintro rfl; revert ha; decide)
  refine ⟨d1.trans (c1.trans (b1.trans a1)), ?_, ?_⟩
  · exact .cons ⟨rfl, rfl, rfl, es _, p0, q0⟩ (.cons ⟨rfl, rfl, rfl, es _, p1, q1⟩ (.cons ⟨rfl, rfl, rfl, es _, p2, q2⟩
      (.cons ⟨rfl, rfl, rfl, es _, p3, q3⟩ (.cons ⟨rfl, rfl, rfl, es _, p4, q4⟩ (.cons ⟨rfl, rfl, rfl, es _, p5, q5⟩ .nil)))))
  · unfold pypsaConstraintData at h5
    have r0 : contributors (n'.table .generators) = _ := contributors_eq (Option.some_ne_none _) p0
    have r5 : contributors (n'.table .stores) = _ := contributors_eq (Option.some_ne_none _) p5
    have r4 : contributors (n'.table .storageUnits) = _ := contributors_eq (Option.some_ne_none _) p4
    rw [r0, r5, r4, d3, c3, b3, a3] at h5
    unfold allEmitters
    rw [List.map_append, List.map_append]
    exact h5

/-- the registered data of the limits -/
def LimitData (cs : List (String × String)) (r : String × Dict String Cell) (d : PConstraintData) : Prop :=
  d.name = r.1 ∧ d.contributors = cs ∧ r.2.get? "constant" = some d.constant ∧
      ((r.2.get? "sense" = some (.str "<=") ∧ d.gemsModel = "global_constraint_co2_max") ∨
       (r.2.get? "sense" = some (.str "==") ∧ d.gemsModel = "global_constraint_co2_eq"))

theorem limits_ok {cs : List (String × String)} {rs : List (String × Dict String Cell)} {gs : List PConstraintData}
    (hg : List.Forall₂ (LimitData cs) rs gs) : List.Forall₂ IsEmissionLimit rs (gs.flatMap fun g => (convertConstraint g).1) := by
  induction hg with
  | nil => exact .nil
  | cons hx _ ih =>
    refine .cons ?_ ih
    obtain ⟨x1, x2, x3, x4⟩ := hx
    refine ⟨x1, rfl, ?_, ?_⟩
    · rcases x4 with ⟨h1, h2⟩ | ⟨h1, h2⟩
      · exact .inl ⟨h1, by show pypsaLib ++ "." ++ _ = _; rw [h2]; rfl⟩
      · exact .inr ⟨h1, by show pypsaLib ++ "." ++ _ = _; rw [h2]; rfl⟩
    · refine ⟨_, _, x3, rfl, ?_⟩
      intro q hq
      rw [hq]

theorem limit_connections {es : List String} {rs : List (String × Dict String Cell)} {gs : List PConstraintData}
    (hg : List.Forall₂ (LimitData (es.map fun e => (e, "emission_port"))) rs gs) :
    (gs.flatMap fun g => (convertConstraint g).2) =
      rs.flatMap fun r => es.map fun e => ⟨r.1, "emission_port", e, "emission_port"⟩ := by
  induction hg with
  | nil => rfl
  | cons hx _ ih =>
    obtain ⟨x1, x2, -⟩ := hx
    rw [List.flatMap_cons, List.flatMap_cons, ih]
    congr 1
    unfold convertConstraint
    rw [x2, x1, List.map_map]
    rfl

theorem split_parts {α β γ} {P : γ → List (List α) → Prop} {f : β → List α} {ks : List γ} {parts : List β}
    (h : List.Forall₂ (fun k p => ∃ xs, f p = xs.flatten ∧ P k xs) ks parts) :
    ∃ xs : List (List (List α)), parts.map f = xs.map List.flatten ∧ List.Forall₂ P ks xs := by
  induction h with
  | nil => exact ⟨[], rfl, .nil⟩
  | cons hx _ ih =>
    obtain ⟨xs, e1, e2⟩ := ih
    obtain ⟨ys, e3, e4⟩ := hx
    exact ⟨ys :: xs, by simp [e1, e3], .cons e4 e2⟩

theorem mem_flat_of {α β γ} {f : β → List α} {x : α} {Q : γ → Prop} {ks : List γ} {parts : List β}
    (h : List.Forall₂ (fun k p => x ∈ f p ↔ Q k) ks parts) : x ∈ parts.flatMap f ↔ ∃ k ∈ ks, Q k := by
  induction h with
  | nil => simp
  | cons hx _ ih =>
    rw [List.flatMap_cons, List.mem_append, hx, ih]
    simp

/-- the conversion of a network is the one of the specification -/
theorem convert_isStudy {pf : String → Option Num} {n : PNetwork} (ht : n.Tables) {s : PStudy} (h : pypsaConvert pf n = .ok s) :
    IsStudy pf n s := by
  unfold pypsaConvert at h
  obtain ⟨⟨n', ds, gs⟩, h1, h⟩ := bind_ok_iff.1 h
  obtain ⟨hname, hds, hgs⟩ := init_ok ht h1
  unfold toGemsStudy at h
  obtain ⟨parts, h2, h⟩ := bind_ok_iff.1 h
  cases h
  have hparts : List.Forall₂ (fun k p => List.Forall₂ (IsPypsaComponent pf n k) (n.table k.ty).rows p.1 ∧
      (∃ xs, p.2.1 = xs.flatten ∧
        List.Forall₂ (fun b ys => List.Forall₂ (IsBusConnection k b) (n.table k.ty).rows ys) k.buses xs) ∧
      ∀ name vs, (name, vs) ∈ p.2.2 ↔ ∃ attr ∈ k.params.map (·.1), ∃ id,
        HasSeries n k.ty attr id vs ∧ name = n.name ++ "_" ++ (id ++ k.suffix) ++ "_" ++ attr) pypsaKinds parts := by
    refine forall₂_comp hds (appendAll_ok_iff.1 h2) ?_
    intro k hk d p hd hp
    unfold convertComponents at hp
    obtain ⟨-, -, hp⟩ := bind_ok_iff.1 hp
    obtain ⟨cs, g1, hp⟩ := bind_ok_iff.1 hp
    obtain ⟨comps, g2, hp⟩ := bind_ok_iff.1 hp
    cases hp
    rw [hname] at g2 ⊢
    refine ⟨gemsComponents_ok hd g2, gemsConnections_ok hk hd g1, ?_⟩
    intro name vs
    rw [List.mem_map]
    constructor
    · rintro ⟨⟨⟨c, a⟩, x⟩, hx, rfl⟩
      obtain ⟨ha, hn, id, hs, rfl⟩ := (mem_writeSeries hd).1 hx
      exact ⟨a, ha, id, hs, hn⟩
    · rintro ⟨a, ha, id, hs, rfl⟩
      exact ⟨((id ++ k.suffix, a), _, vs), (mem_writeSeries hd).2 ⟨ha, rfl, id, hs, rfl⟩, rfl⟩
  have hg : List.Forall₂ (LimitData _) _ _ := constraintData_ok hgs
  refine ⟨rfl, ⟨parts.map (·.1), (gs.map convertConstraint).flatMap (·.1), ?_, ?_, ?_⟩, ?_, ?_⟩
  · rw [List.flatMap_def]
  · rw [List.forall₂_map_right_iff]
    exact hparts.imp fun _ _ h => h.1
  · rw [List.flatMap_map]
    exact limits_ok hg
  · obtain ⟨xs, e1, e2⟩ := split_parts (hparts.imp fun _ _ h => h.2.1)
    refine ⟨xs, ?_, e2⟩
    dsimp only
    rw [List.flatMap_def, e1, ← List.flatten_flatten, List.flatMap_map, limit_connections hg]
  · intro name vs
    exact mem_flat_of (hparts.imp fun _ _ h => h.2.2 name vs)

end Verif
