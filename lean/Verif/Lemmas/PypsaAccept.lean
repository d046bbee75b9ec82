import Verif.Lemmas.PypsaStudy
import Verif.Lemmas.CopyOk

/-!
# Which PyPSA networks are converted
-/

namespace Verif

theorem checkColumn_ok_iff {t : PTable} {col : String} {q : ℚ} : checkColumn t col q = .ok () ↔ t.AllEq col q := by
  unfold checkColumn PTable.AllEq
  by_cases hc : col ∈ t.columns
  · rw [if_neg (not_not.2 hc)]
    simp only [hc, true_and]
    constructor
    · intro h r hr
      split_ifs at h with ha
      have := List.all_eq_true.1 ha r hr
      cases hg : r.2.get? col with
      | none => rw [hg] at this; cases this
      | some c => rw [hg] at this; exact ⟨c, rfl, (c.is_iff q).2 this⟩
    · intro h
      rw [if_pos]
      rw [List.all_eq_true]
      intro r hr
      obtain ⟨c, h1, h2⟩ := h r hr
      rw [h1]
      exact (c.is_iff q).1 h2
  · rw [if_pos hc]
    simp [hc]

theorem unit_bind_iff {α} {m : R Unit} {f : R α} {x : α} : (m >>= fun _ => f) = .ok x ↔ m = .ok () ∧ f = .ok x := by
  cases m with
  | error e => simp
  | ok u => simp

theorem eqStr_iff {c : Cell} {s : String} : c.eqStr s = true ↔ c = .str s := by
  cases c <;> simp [Cell.eqStr]

theorem assertConstraints_ok_iff {rows : List (String × Dict String Cell)} : assertConstraints rows = .ok () ↔
    ∀ r ∈ rows, r.2.get? "type" = some (.str "primary_energy") ∧ r.2.get? "carrier_attribute" = some (.str "co2_emissions") := by
  induction rows with
  | nil => simp [assertConstraints]
  | cons x rows ih =>
    obtain ⟨id, row⟩ := x
    rw [List.forall_mem_cons, ← ih]
    rw [assertConstraints, bind_ok_iff]
    constructor
    · rintro ⟨ty, h1, h⟩
      rw [rowCell_ok_iff] at h1
      by_cases h2 : ty.eqStr "primary_energy" = true
      · rw [h2] at h
        simp only [Bool.not_true, Bool.false_eq_true, if_false] at h
        obtain ⟨at', h3, h⟩ := bind_ok_iff.1 h
        rw [rowCell_ok_iff] at h3
        by_cases h4 : at'.eqStr "co2_emissions" = true
        · rw [h4] at h
          simp only [Bool.not_true, Bool.false_eq_true, if_false] at h
          rw [eqStr_iff] at h2 h4
          subst h2 h4
          exact ⟨⟨h1, h3⟩, h⟩
        · simp [h4] at h
      · simp [h2] at h
    · rintro ⟨⟨h1, h2⟩, h⟩
      refine ⟨_, rowCell_ok_iff.2 h1, ?_⟩
      simp only [Cell.eqStr, decide_true, Bool.not_true, Bool.false_eq_true, if_false]
      rw [bind_ok_iff]
      refine ⟨_, rowCell_ok_iff.2 h2, ?_⟩
      simpa using h

/-- the checks accept exactly the supported networks -/
theorem assertions_ok_iff {n : PNetwork} : pypsaAssertions n = .ok () ↔ SupportedKind n := by
  unfold pypsaAssertions
  by_cases h1 : n.investmentPeriods = []
  swap
  · have : n.investmentPeriods.isEmpty = false := by simpa using h1
    rw [this]
    simp only [Bool.not_false, if_true, reduceCtorEq, false_iff]
    exact fun h => h1 h.periods
  by_cases h2 : (n.weightings.all fun w => w.eqb 1) = true
  swap
  · rw [h1]
    simp only [List.isEmpty_nil, Bool.not_true, Bool.false_eq_true, if_false, Bool.eq_false_iff.2 h2, Bool.not_false, if_true, reduceCtorEq,
      false_iff]
    exact fun h => h2 (List.all_eq_true.2 h.weights)
  rw [h1, h2]
  simp only [List.isEmpty_nil, Bool.not_true, Bool.false_eq_true, if_false, unit_bind_iff, checkColumn_ok_iff, assertConstraints_ok_iff]
  constructor
  · rintro ⟨a1, a2, a3, a4, a5, -, a7, a8, a9, -, a11, a12, a13, a14⟩
    refine ⟨h1, List.all_eq_true.1 h2, ?_, ?_, a3, ?_, ⟨a8, a12⟩, a14⟩ <;>
      simp only [List.mem_cons, List.not_mem_nil, or_false, forall_eq_or_imp, forall_eq]
    · exact ⟨a1, a9, a13⟩
    · exact ⟨a2, a4, a5⟩
    · exact ⟨a7, a11⟩
  · intro h
    have l := h.linear
    have a := h.active
    have s := h.signs
    simp only [List.mem_cons, List.not_mem_nil, or_false, forall_eq_or_imp, forall_eq] at l a s
    exact ⟨l.1, a.1, h.committable, a.2.1, a.2.2, a.2.2, s.1, h.cyclic.1, l.2.1, a.2.2, s.2, h.cyclic.2, l.2.2, h.limits⟩

/-- all lines have these columns -/
def HasCols (cols : List String) (rows : List (String × Dict String Cell)) : Prop := ∀ r ∈ rows, ∀ c ∈ cols, ∃ v, r.2.get? c = some v

theorem Lines.hasCols {p : Dict String Cell → Dict String Cell → Prop} {cols : List String} {a b : List (String × Dict String Cell)}
    (h : Lines p a b) (hp : ∀ x y, p x y → ∀ c ∈ cols, (∃ v, x.get? c = some v) → ∃ v, y.get? c = some v) (ha : HasCols cols a) :
    HasCols cols b := by
  induction h with
  | nil => intro r hr; cases hr
  | cons hx _ ih =>
    intro r hr
    rcases List.mem_cons.1 hr with rfl | hr
    · exact fun c hc => hp _ _ hx.2 c hc (ha _ (by simp) c hc)
    · exact ih (fun r hr => ha r (by simp [hr])) r hr

theorem set_some {row : Dict String Cell} {k c : String} {v : Cell} (h : ∃ v, row.get? c = some v) : ∃ v', (row.set k v).get? c = some v' := by
  rw [Dict.get?_set]
  split_ifs
  · exact ⟨_, rfl⟩
  · exact h

theorem fillCarriers_total {rows : List (String × Dict String Cell)} (h : ∀ r ∈ rows, ∃ s, r.2.get? "carrier" = some (.str s)) :
    ∃ rows', fillCarriers rows = .ok rows' := by
  induction rows with
  | nil => exact ⟨_, rfl⟩
  | cons x rows ih =>
    obtain ⟨id, row⟩ := x
    obtain ⟨s, hs⟩ := h _ List.mem_cons_self
    obtain ⟨rs, hr⟩ := ih fun r hr => h r (by simp [hr])
    have : ∃ row', fillCarrier row = .ok row' := by
      unfold fillCarrier
      rw [rowCell_ok_iff.2 hs]
      simp only [ok_bind]
      split_ifs
      · exact ⟨_, rfl⟩
      · exact ⟨_, rfl⟩
    obtain ⟨row', hr'⟩ := this
    refine ⟨(id, row') :: rs, ?_⟩
    unfold fillCarriers
    rw [hr', ok_bind, hr, ok_bind]

theorem setLoop_total {ext field : String} {val : Dict String Cell → R Cell} {rows : List (String × Dict String Cell)}
    (h : ∀ r ∈ rows, (∃ e, r.2.get? ext = some e) ∧ ∃ v, val r.2 = .ok v) : ∃ rows', setWhereFixed.loop ext field val rows = .ok rows' := by
  induction rows with
  | nil => exact ⟨_, rfl⟩
  | cons x rows ih =>
    obtain ⟨id, row⟩ := x
    obtain ⟨⟨e, he⟩, v, hv⟩ := h _ List.mem_cons_self
    obtain ⟨rs, hr⟩ := ih fun r hr => h r (by simp [hr])
    rw [setWhereFixed.loop, rowCell_ok_iff.2 he, ok_bind, hv, ok_bind, hr, ok_bind]
    exact ⟨_, rfl⟩

theorem setWhereFixed_total {t : PTable} {ext field : String} {val : Dict String Cell → R Cell} (hx : ext ∈ t.columns)
    (h : ∀ r ∈ t.rows, (∃ e, r.2.get? ext = some e) ∧ ∃ v, val r.2 = .ok v) : ∃ t', setWhereFixed t ext field val = .ok t' := by
  obtain ⟨rs, hr⟩ := setLoop_total (field := field) h
  unfold setWhereFixed
  rw [if_neg (not_not.2 hx), hr, ok_bind]
  exact ⟨_, rfl⟩

theorem setWhereFixed_hasCols {t t' : PTable} {ext field : String} {val : Dict String Cell → R Cell} {cols : List String}
    (h : setWhereFixed t ext field val = .ok t') (hc : HasCols cols t.rows) : HasCols cols t'.rows := by
  refine (setWhereFixed_ok h).hasCols ?_ hc
  rintro x y ⟨e, v, -, -, rfl⟩ c - hv
  split_ifs
  · exact set_some hv
  · exact hv
  · exact set_some hv

theorem preprocessType_total {n : PNetwork} {ty : PType} {capa : String} (hf : (n.table ty).Frame)
    (hcols : capa ∈ (n.table ty).columns ∧ capa ++ "_extendable" ∈ (n.table ty).columns ∧ "carrier" ∈ (n.table ty).columns)
    (hcar : ∀ r ∈ (n.table ty).rows, ∃ s, r.2.get? "carrier" = some (.str s)) : ∃ n', pypsaPreprocessType n ty capa = .ok n' := by
  obtain ⟨rows1, h1⟩ := fillCarriers_total hcar
  set cols := [capa, capa ++ "_extendable"] with hcs
  have hh0 : HasCols cols (n.table ty).rows := by
    intro r hr c hc
    refine (hf r hr c).2 ?_
    simp only [hcs, List.mem_cons, List.not_mem_nil, or_false] at hc
    rcases hc with rfl | rfl
    · exact hcols.1
    · exact hcols.2.1
  have hh1 : HasCols cols rows1 := by
    refine (fillCarriers_ok h1).hasCols ?_ hh0
    rintro x y ⟨s, -, rfl⟩ c - hv
    split_ifs
    · exact set_some hv
    · exact hv
  set t2 : PTable := {
    columns := (n.table ty).columns ++ n.carriers.columns.map (joinName (n.table ty).columns)
    rows := rows1.map fun (id, row) => (id, row ++ joinedCells (n.table ty).columns n.carriers row) } with ht2
  have h2 : joinCarriers { n.table ty with rows := rows1 } n.carriers = .ok t2 := by
    unfold joinCarriers
    rw [if_neg (not_not.2 hcols.2.2)]
  have hh2 : HasCols cols t2.rows := by
    intro r hr c hc
    obtain ⟨x, hx, rfl⟩ := List.mem_map.1 hr
    obtain ⟨v, hv⟩ := hh1 x hx c hc
    refine ⟨v, ?_⟩
    show Dict.get? (x.2 ++ _) c = some v
    rw [Dict.get?_append, hv]
    rfl
  have hext : capa ++ "_extendable" ∈ t2.columns := List.mem_append_left _ hcols.2.1
  have hcap : capa ∈ t2.columns := List.mem_append_left _ hcols.1
  have key : ∀ (t : PTable), capa ++ "_extendable" ∈ t.columns → HasCols cols t.rows → ∀ field,
      ∃ t', setWhereFixed t (capa ++ "_extendable") field (fun row => rowCell row capa) = .ok t' := by
    intro t ht hc field
    refine setWhereFixed_total ht fun r hr => ⟨hc r hr _ (by simp [hcs]), ?_⟩
    obtain ⟨v, hv⟩ := hc r hr capa (by simp [hcs])
    exact ⟨v, rowCell_ok_iff.2 hv⟩
  obtain ⟨t3, h3⟩ := key t2 hext hh2 (capa ++ "_min")
  have hh3 := setWhereFixed_hasCols h3 hh2
  have hext3 := setWhereFixed_columns h3 hext
  obtain ⟨t4, h4⟩ := key t3 hext3 hh3 (capa ++ "_max")
  have hh4 := setWhereFixed_hasCols h4 hh3
  have hext4 := setWhereFixed_columns h4 hext3
  obtain ⟨t5, h5⟩ : ∃ t', setWhereFixed t4 (capa ++ "_extendable") "capital_cost" (fun _ => .ok (.num 0)) = .ok t' :=
    setWhereFixed_total hext4 fun r hr => ⟨hh4 r hr _ (by simp [hcs]), _, rfl⟩
  unfold pypsaPreprocessType
  dsimp only
  rw [h1, ok_bind, h2, ok_bind, if_neg (not_not.2 hcap), h3, ok_bind, h4, ok_bind, h5, ok_bind]
  exact ⟨_, rfl⟩

theorem init_total {pf : String → Option Num} {n : PNetwork} (ht : n.Tables) (hs : SupportedKind n) (hc : Convertible pf n) :
    ∃ x, pypsaInit n = .ok x := by
  have h0 := assertions_ok_iff.2 hs
  set n0 := pypsaPreprocess n with hn0
  have htab : ∀ ty, (n0.table ty).columns = (n.table ty).columns ∧ (n0.table ty).Frame := by
    intro ty
    rw [hn0, preprocess_table]
    exact ⟨rfl, rename_frame (ht.frames ty) _⟩
  have hcarrier : ∀ k ∈ pypsaKinds, k.capacity ≠ none → ∀ r ∈ (n0.table k.ty).rows, ∃ s, r.2.get? "carrier" = some (.str s) := by
    intro k hk hne r hr
    rw [hn0, preprocess_table] at hr
    obtain ⟨x, hx, rfl⟩ := List.mem_map.1 hr
    exact hc.carriers k hk hne x hx
  have hcap : ∀ k ∈ pypsaKinds, ∀ capa, k.capacity = some capa →
      capa ∈ (n0.table k.ty).columns ∧ capa ++ "_extendable" ∈ (n0.table k.ty).columns ∧ "carrier" ∈ (n0.table k.ty).columns := by
    intro k hk capa hc
    rw [(htab k.ty).1]
    exact ht.capacities k hk capa hc
  have hem : "co2_emissions" ∈ n0.carriers.columns := by
    rw [hn0, preprocess_carriers]
    unfold addCarrierColumn addNullCarrier
    have := ht.emissions
    split_ifs <;> simp_all
  have k0 : pypsaKinds[0] ∈ pypsaKinds := List.getElem_mem _
  have k3 : pypsaKinds[3] ∈ pypsaKinds := List.getElem_mem _
  have k4 : pypsaKinds[4] ∈ pypsaKinds := List.getElem_mem _
  have k5 : pypsaKinds[5] ∈ pypsaKinds := List.getElem_mem _
  obtain ⟨n1, h1⟩ := preprocessType_total (n := n0) (ty := .generators) (capa := "p_nom") (htab _).2 (hcap _ k0 _ rfl)
    (hcarrier _ k0 (Option.some_ne_none _))
  have s1 : ∀ ty, ty ≠ .generators → n1.table ty = n0.table ty := by
    have h := h1
    unfold pypsaPreprocessType at h
    obtain ⟨_, -, h⟩ := bind_ok_iff.1 h
    obtain ⟨_, -, h⟩ := bind_ok_iff.1 h
    split_ifs at h
    obtain ⟨_, -, h⟩ := bind_ok_iff.1 h
    obtain ⟨_, -, h⟩ := bind_ok_iff.1 h
    obtain ⟨_, -, h⟩ := bind_ok_iff.1 h
    cases h
    intro ty hty
    simp [hty]
  have e2 : n1.table .stores = n0.table .stores := s1 _ (by decide)
  obtain ⟨n2, h2⟩ := preprocessType_total (n := n1) (ty := .stores) (capa := "e_nom") (by rw [e2]; exact (htab _).2)
    (by rw [e2]; exact hcap _ k5 _ rfl) (by rw [e2]; exact hcarrier _ k5 (Option.some_ne_none _))
  have s2 : ∀ ty, ty ≠ .stores → n2.table ty = n1.table ty := by
    have h := h2
    unfold pypsaPreprocessType at h
    obtain ⟨_, -, h⟩ := bind_ok_iff.1 h
    obtain ⟨_, -, h⟩ := bind_ok_iff.1 h
    split_ifs at h
    obtain ⟨_, -, h⟩ := bind_ok_iff.1 h
    obtain ⟨_, -, h⟩ := bind_ok_iff.1 h
    obtain ⟨_, -, h⟩ := bind_ok_iff.1 h
    cases h
    intro ty hty
    simp [hty]
  have e3 : n2.table .storageUnits = n0.table .storageUnits := (s2 _ (by decide)).trans (s1 _ (by decide))
  obtain ⟨n3, h3⟩ := preprocessType_total (n := n2) (ty := .storageUnits) (capa := "p_nom") (by rw [e3]; exact (htab _).2)
    (by rw [e3]; exact hcap _ k4 _ rfl) (by rw [e3]; exact hcarrier _ k4 (Option.some_ne_none _))
  have s3 : (∀ ty, ty ≠ .storageUnits → n3.table ty = n2.table ty) := by
    have h := h3
    unfold pypsaPreprocessType at h
    obtain ⟨_, -, h⟩ := bind_ok_iff.1 h
    obtain ⟨_, -, h⟩ := bind_ok_iff.1 h
    split_ifs at h
    obtain ⟨_, -, h⟩ := bind_ok_iff.1 h
    obtain ⟨_, -, h⟩ := bind_ok_iff.1 h
    obtain ⟨_, -, h⟩ := bind_ok_iff.1 h
    cases h
    intro ty hty
    simp [hty]
  have e4 : n3.table .links = n0.table .links := (s3 _ (by decide)).trans ((s2 _ (by decide)).trans (s1 _ (by decide)))
  obtain ⟨n4, h4⟩ := preprocessType_total (n := n3) (ty := .links) (capa := "p_nom") (by rw [e4]; exact (htab _).2)
    (by rw [e4]; exact hcap _ k3 _ rfl) (by rw [e4]; exact hcarrier _ k3 (Option.some_ne_none _))
  have g : ∀ {m m' : PNetwork} {ty capa}, pypsaPreprocessType m ty capa = .ok m' → m'.globalConstraints = m.globalConstraints := by
    intro m m' ty capa h
    unfold pypsaPreprocessType at h
    obtain ⟨_, -, h⟩ := bind_ok_iff.1 h
    obtain ⟨_, -, h⟩ := bind_ok_iff.1 h
    split_ifs at h
    obtain ⟨_, -, h⟩ := bind_ok_iff.1 h
    obtain ⟨_, -, h⟩ := bind_ok_iff.1 h
    obtain ⟨_, -, h⟩ := bind_ok_iff.1 h
    cases h
    rfl
  obtain ⟨gs, h5⟩ : ∃ gs, pypsaConstraintData n4 = .ok gs := by
    unfold pypsaConstraintData constraintData
    rw [g h4, g h3, g h2, g h1]
    refine appendAll_ok_of_all.2 ?_
    intro r hr
    obtain ⟨hsense, k, hk⟩ := hc.limits r hr
    obtain ⟨-, hattr⟩ := hs.limits r hr
    unfold constraintOf
    rcases hsense with h | h
    · rw [rowCell_ok_iff.2 h, ok_bind, rowCell_ok_iff.2 hattr, ok_bind, rowCell_ok_iff.2 hk]
      exact ⟨_, rfl⟩
    · rw [rowCell_ok_iff.2 h, ok_bind, rowCell_ok_iff.2 hattr, ok_bind, rowCell_ok_iff.2 hk]
      exact ⟨_, rfl⟩
  unfold pypsaInit
  rw [h0, ok_bind]
  dsimp only
  rw [h1, ok_bind, h2, ok_bind, h3, ok_bind, h4, ok_bind, h5, ok_bind]
  exact ⟨_, rfl⟩

theorem convertComponents_total {pf : String → Option Num} {n : PNetwork} (hc : Convertible pf n) {k : PKind} (hk : k ∈ pypsaKinds)
    {d : PComponentData} (hd : DataFor n k d) : ∃ x, convertComponents pf n.name d = .ok x := by
  have hmem : ∀ r' ∈ d.constantData.rows, ∃ r ∈ (n.table k.ty).rows, r'.1 = r.1 ++ k.suffix ∧
      ∀ a ∈ k.attrs, r'.2.get? a = sourceCell n k.capacity r.2 a := by
    have := hd.rows
    unfold Prepared at this
    intro r' hr'
    obtain ⟨i, hi, rfl⟩ := List.getElem_of_mem hr'
    have hl := this.length_eq
    have := this.get (i := i) (by omega) hi
    exact ⟨_, List.getElem_mem _, this.1, this.2.1⟩
  have h1 : checkParamsConsistency d = .ok () := by
    unfold checkParamsConsistency
    rw [if_pos]
    rw [List.all_eq_true]
    intro a ha
    simp only [List.contains_iff_mem]
    refine hd.columns a ?_
    rw [hd.params, hd.connections] at ha
    simpa [PKind.attrs, Function.comp_def] using ha
  have h2 : ∃ cs, gemsConnections d = .ok cs := by
    unfold gemsConnections
    have : ∃ cs, appendAll (fun (x : String × String × String) =>
      appendAll (fun (r : String × Dict String Cell) => gemsConnection x.1 x.2.1 x.2.2 r.1 r.2) d.constantData.rows) d.connections = .ok cs := by
      rw [hd.connections]
      refine appendAll_ok_of_all.2 ?_
      intro x hx
      obtain ⟨b, hb, rfl⟩ := List.mem_map.1 hx
      refine appendAll_ok_of_all.2 ?_
      intro r' hr'
      obtain ⟨r, hr, -, hcell⟩ := hmem r' hr'
      obtain ⟨s, hs⟩ := hc.buses k hk b hb r hr
      have hplain : sourceCell n k.capacity r.2 b.1 = r.2.get? b.1 := by
        have : ∀ k ∈ pypsaKinds, ∀ b ∈ k.buses, ∀ capa ∈ k.capacity, b.1 ≠ "co2_emissions" ∧ b.1 ≠ capa ++ "_min" ∧
          b.1 ≠ capa ++ "_max" ∧ b.1 ≠ "capital_cost" := by decide
        unfold sourceCell
        cases hcap : k.capacity with
        | none => rfl
        | some capa =>
          obtain ⟨x1, x2, x3, x4⟩ := this k hk b hb capa hcap
          simp [x1, x2, x3, x4]
      have : r'.2.get? b.1 = some (.str s) := by
        rw [hcell b.1 (by unfold PKind.attrs; exact List.mem_append_right _ (List.mem_map.2 ⟨b, hb, rfl⟩)), hplain, hs]
      unfold gemsConnection
      rw [rowCell_ok_iff.2 this]
      exact ⟨_, rfl⟩
    obtain ⟨cs, h⟩ := this
    exact ⟨cs.flatten, by rw [show appendAll _ d.connections = Except.ok cs from h]; rfl⟩
  obtain ⟨cs, h2⟩ := h2
  have h3 : ∃ comps, gemsComponents pf (Dict.ofItems (writeSeries n.name d)) d = .ok comps := by
    unfold gemsComponents
    refine appendAll_ok_of_all.2 ?_
    intro r' hr'
    obtain ⟨r, hr, hid, hcell⟩ := hmem r' hr'
    have : ∃ ps, appendAll (gemsParameter pf (Dict.ofItems (writeSeries n.name d)) r'.1 r'.2) d.params = .ok ps := by
      rw [hd.params]
      refine appendAll_ok_of_all.2 ?_
      intro a ha
      unfold gemsParameter
      cases hg : (Dict.ofItems (writeSeries n.name d)).get? (r'.1, a.1) with
      | some x => exact ⟨_, rfl⟩
      | none =>
        rcases hc.numbers k hk r hr a ha with ⟨vs, hv⟩ | ⟨c, v, h1, h2⟩
        · exact absurd ((mem_writeSeries hd).2 ⟨List.mem_map.2 ⟨a, ha, rfl⟩, rfl, r.1, hv, hid⟩) (ofItems_get?_none hg _)
        · have : r'.2.get? a.1 = some c := by
            rw [hcell a.1 (by unfold PKind.attrs; exact List.mem_append_left _ (List.mem_map.2 ⟨a, ha, rfl⟩)), h1]
          dsimp only
          rw [rowCell_ok_iff.2 this, ok_bind, anyToFloat_ok_iff.2 ⟨v, h2, rfl⟩]
          exact ⟨_, rfl⟩
    obtain ⟨ps, hps⟩ := this
    dsimp only
    rw [hps]
    exact ⟨_, rfl⟩
  obtain ⟨comps, h3⟩ := h3
  unfold convertComponents
  rw [h1, ok_bind]
  dsimp only
  rw [h2, ok_bind, h3, ok_bind]
  exact ⟨_, rfl⟩

/-- conversion succeeds on all supported networks -/
theorem convert_total {pf : String → Option Num} {n : PNetwork} (ht : n.Tables) (hs : SupportedKind n) (hc : Convertible pf n) :
    ∃ s, pypsaConvert pf n = .ok s := by
  obtain ⟨⟨n', ds, gs⟩, h⟩ := init_total ht hs hc
  obtain ⟨hname, hds, -⟩ := init_ok ht h
  unfold pypsaConvert
  rw [h, ok_bind]
  dsimp only
  unfold toGemsStudy
  have : ∃ parts, appendAll (convertComponents pf n'.name) ds = .ok parts := by
    refine appendAll_ok_of_all.2 ?_
    intro d hd
    obtain ⟨i, hi, rfl⟩ := List.getElem_of_mem hd
    have hl := hds.length_eq
    have := hds.get (i := i) (by omega) hi
    rw [hname]
    exact convertComponents_total hc (List.getElem_mem _) this
  obtain ⟨parts, hp⟩ := this
  rw [hp]
  exact ⟨_, rfl⟩

/-- and only on them -/
theorem convert_supported {pf : String → Option Num} {n : PNetwork} {s : PStudy} (h : pypsaConvert pf n = .ok s) : SupportedKind n := by
  unfold pypsaConvert pypsaInit at h
  obtain ⟨x, h1, -⟩ := bind_ok_iff.1 h
  exact assertions_ok_iff.1 (unit_bind_iff.1 h1).1

theorem lines_mem {p : Dict String Cell → Dict String Cell → Prop} {a b : List (String × Dict String Cell)} (h : Lines p a b)
    {r : String × Dict String Cell} (hr : r ∈ a) : ∃ y, p r.2 y := by
  induction h with
  | nil => cases hr
  | cons hx _ ih =>
    rcases List.mem_cons.1 hr with rfl | hr
    · exact ⟨_, hx.2⟩
    · exact ih hr

theorem preprocessType_carriers {n n' : PNetwork} {ty : PType} {capa : String} (h : pypsaPreprocessType n ty capa = .ok n') :
    (∀ r ∈ (n.table ty).rows, ∃ s, r.2.get? "carrier" = some (.str s)) ∧ ∀ ty', ty' ≠ ty → n'.table ty' = n.table ty' := by
  unfold pypsaPreprocessType at h
  obtain ⟨rows, h1, h⟩ := bind_ok_iff.1 h
  obtain ⟨_, -, h⟩ := bind_ok_iff.1 h
  split_ifs at h
  obtain ⟨_, -, h⟩ := bind_ok_iff.1 h
  obtain ⟨_, -, h⟩ := bind_ok_iff.1 h
  obtain ⟨_, -, h⟩ := bind_ok_iff.1 h
  cases h
  refine ⟨fun r hr => ?_, fun ty' hty => by simp [hty]⟩
  obtain ⟨y, s, hs, -⟩ := lines_mem (fillCarriers_ok h1) hr
  exact ⟨s, hs⟩

theorem init_carriers {n : PNetwork} {x} (h : pypsaInit n = .ok x) :
    ∀ k ∈ pypsaKinds, k.capacity ≠ none → ∀ r ∈ (n.table k.ty).rows, ∃ s, r.2.get? "carrier" = some (.str s) := by
  unfold pypsaInit at h
  obtain ⟨-, h⟩ := unit_bind_iff.1 h
  dsimp only at h
  obtain ⟨n1, h1, h⟩ := bind_ok_iff.1 h
  obtain ⟨n2, h2, h⟩ := bind_ok_iff.1 h
  obtain ⟨n3, h3, h⟩ := bind_ok_iff.1 h
  obtain ⟨n4, h4, -⟩ := bind_ok_iff.1 h
  have c1 := preprocessType_carriers h1
  have c2 := preprocessType_carriers h2
  have c3 := preprocessType_carriers h3
  have c4 := preprocessType_carriers h4
  rw [c1.2 _ (by decide)] at c2
  rw [c2.2 _ (by decide), c1.2 _ (by decide)] at c3
  rw [c3.2 _ (by decide), c2.2 _ (by decide), c1.2 _ (by decide)] at c4
  have back : ∀ ty, (∀ r ∈ ((pypsaPreprocess n).table ty).rows, ∃ s, r.2.get? "carrier" = some (.str s)) →
      ∀ r ∈ (n.table ty).rows, ∃ s, r.2.get? "carrier" = some (.str s) := by
    intro ty h r hr
    rw [preprocess_table] at h
    exact h (r.1 ++ suffixOf ty, r.2) (List.mem_map.2 ⟨r, hr, rfl⟩)
  intro k hk hne
  refine back k.ty ?_
  simp only [pypsaKinds, List.mem_cons, List.not_mem_nil, or_false] at hk
  rcases hk with rfl | rfl | rfl | rfl | rfl | rfl
  · exact c1.1
  · exact absurd rfl hne
  · exact absurd rfl hne
  · exact c4.1
  · exact c3.1
  · exact c2.1

theorem forall₂_left {α β} {P : α → β → Prop} {a : List α} {b : List β} (h : List.Forall₂ P a b) {x : α} (hx : x ∈ a) : ∃ y ∈ b, P x y := by
  induction h with
  | nil => cases hx
  | cons h _ ih =>
    rcases List.mem_cons.1 hx with rfl | hx
    · exact ⟨_, by simp, h⟩
    · obtain ⟨y, hy, hp⟩ := ih hx
      exact ⟨y, by simp [hy], hp⟩

theorem forall₂_right {α β} {P : α → β → Prop} {a : List α} {b : List β} (h : List.Forall₂ P a b) {y : β} (hy : y ∈ b) : ∃ x ∈ a, P x y := by
  induction h with
  | nil => cases hy
  | cons h _ ih =>
    rcases List.mem_cons.1 hy with rfl | hy
    · exact ⟨_, by simp, h⟩
    · obtain ⟨x, hx, hp⟩ := ih hy
      exact ⟨x, by simp [hx], hp⟩

theorem convert_convertible {pf : String → Option Num} {n : PNetwork} (ht : n.Tables) {s : PStudy} (h : pypsaConvert pf n = .ok s) :
    Convertible pf n := by
  have hs := convert_isStudy ht h
  obtain ⟨parts, limits, -, hparts, hlimits⟩ := hs.components
  obtain ⟨cparts, -, hcparts⟩ := hs.connections
  refine ⟨?_, ?_, ?_, ?_⟩
  · unfold pypsaConvert at h
    obtain ⟨x, h1, -⟩ := bind_ok_iff.1 h
    exact init_carriers h1
  · intro k hk b hb r hr
    obtain ⟨xs, -, hxs⟩ := forall₂_left hcparts hk
    obtain ⟨ys, -, hys⟩ := forall₂_left hxs hb
    obtain ⟨y, -, hy⟩ := forall₂_left hys hr
    exact ⟨_, hy.1⟩
  · intro k hk r hr a ha
    obtain ⟨cs, -, hcs⟩ := forall₂_left hparts hk
    obtain ⟨c, -, hc⟩ := forall₂_left hcs hr
    obtain ⟨p, -, hp⟩ := forall₂_left hc.2.2.2 ha
    rcases hp.2.2.2 with ⟨h, -⟩ | ⟨-, -, c, v, h1, h2, -⟩
    · exact .inl h
    · exact .inr ⟨c, v, h1, h2⟩
  · intro r hr
    obtain ⟨c, -, hc⟩ := forall₂_left hlimits hr
    obtain ⟨-, -, hsense, k, v, hk, -⟩ := hc
    refine ⟨?_, k, hk⟩
    rcases hsense with ⟨h, -⟩ | ⟨h, -⟩
    · exact .inl h
    · exact .inr h

end Verif
