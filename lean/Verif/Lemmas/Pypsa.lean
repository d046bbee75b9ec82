import Verif.Spec.Pypsa
import Verif.Lemmas.Basic
import Verif.Lemmas.Dict

/-!
# Lemmas on the conversion of PyPSA networks
-/

namespace Verif

theorem rowCell_ok_iff {row : Dict String Cell} {col : String} {c : Cell} : rowCell row col = .ok c ↔ row.get? col = some c := by
  unfold rowCell Dict.get
  cases row.get? col <;> simp

theorem Dict.get?_append {α β} [DecidableEq α] (d e : Dict α β) (k : α) : Dict.get? (d ++ e) k = (d.get? k).orElse fun _ => e.get? k := by
  induction d with
  | nil => rfl
  | cons x d ih =>
    obtain ⟨a, b⟩ := x
    show (if a = k then some b else Dict.get? (d ++ e) k) = (if a = k then some b else Dict.get? d k).orElse _
    split_ifs
    · rfl
    · exact ih

theorem Dict.get?_mapKey {γ : Type} (l : List String) (f : String → String) (g : String → γ) (k : String) (x : String)
    (hx : x ∈ l) (hf : f x = k) (hinj : ∀ y ∈ l, f y = k → y = x) : Dict.get? (l.map fun y => (f y, g y)) k = some (g x) := by
  induction l with
  | nil => cases hx
  | cons y l ih =>
    show (if f y = k then some (g y) else Dict.get? (l.map fun y => (f y, g y)) k) = _
    split_ifs with h
    · rw [hinj y (by simp) h]
    · refine ih ?_ fun z hz => hinj z (by simp [hz])
      rcases List.mem_cons.1 hx with rfl | h'
      · exact absurd hf h
      · exact h'

/-! ## The float conversion -/

theorem floatClamp (v : Num) : floatMax (floatMin v (.fin pypsaMax)) (.fin (-pypsaMax)) = clampNum v := by
  have hl : ∀ a b : ℚ, (Num.fin a).lt (.fin b) = decide (a < b) := by
    intro a b
    have : (Num.fin a).lt (.fin b) = true ↔ a < b := by simp [Num.lt, Num.le_fin, Num.eqb, lt_iff_le_and_ne]
    by_cases h : a < b
    · simp [this.2 h, h]
    · simp only [h, decide_false]; exact Bool.eq_false_iff.2 (mt this.1 h)
  have hp : (0 : ℚ) < pypsaMax := by unfold pypsaMax; positivity
  cases v with
  | fin q =>
    unfold floatMin floatMax clampNum
    rw [hl]
    have e : (10 : ℚ) ^ 20 = pypsaMax := rfl
    rw [e]
    by_cases h1 : pypsaMax < q
    · simp only [h1, decide_true, if_true, hl]
      rw [min_eq_right h1.le, max_eq_right (by linarith), if_neg (by simp; linarith)]
    · simp only [h1, decide_false, Bool.false_eq_true, if_false, hl]
      rw [min_eq_left (not_lt.1 h1)]
      by_cases h2 : q < -pypsaMax
      · rw [if_pos (by simpa using h2), max_eq_left h2.le]
      · rw [if_neg (by simpa using h2), max_eq_right (not_lt.1 h2)]
  | pinf => decide +kernel
  | ninf => decide +kernel
  | nan => decide +kernel

theorem Cell.toFloat_eq (pf : String → Option Num) (c : Cell) : c.toFloat pf = c.reads pf := by
  rcases c with v | s | ⟨_ | _⟩ <;> rfl

theorem Cell.is_iff (c : Cell) (q : ℚ) : c.Is q ↔ c.eqNum q = true := by
  rcases c with v | s | ⟨_ | _⟩
  · cases v <;> simp [Cell.Is, Cell.eqNum, Num.eqb]
  · simp [Cell.Is, Cell.eqNum]
  · simp [Cell.Is, Cell.eqNum, eq_comm]
  · simp [Cell.Is, Cell.eqNum, eq_comm]

theorem anyToFloat_ok_iff {pf : String → Option Num} {c : Cell} {r : Num} :
    anyToFloat pf c = .ok r ↔ ∃ v, c.reads pf = some v ∧ r = clampNum v := by
  unfold anyToFloat
  rw [Cell.toFloat_eq]
  cases c.reads pf with
  | none => simp
  | some v => simp [floatClamp, eq_comm]

/-! ## Preprocessing of the tables -/

/-- relation between the lines of two tables with the same labels -/
def Lines (p : Dict String Cell → Dict String Cell → Prop) (a b : List (String × Dict String Cell)) : Prop :=
  List.Forall₂ (fun x y => y.1 = x.1 ∧ p x.2 y.2) a b

theorem fillCarriers_ok {rows rows' : List (String × Dict String Cell)} (h : fillCarriers rows = .ok rows') :
    Lines (fun row row' => ∃ s, row.get? "carrier" = some (.str s) ∧ row' = if s = "" then row.set "carrier" (.str nullCarrier) else row)
      rows rows' := by
  induction rows generalizing rows' with
  | nil => cases h; exact .nil
  | cons x rows ih =>
    obtain ⟨id, row⟩ := x
    unfold fillCarriers at h
    obtain ⟨r, h1, h⟩ := bind_ok_iff.1 h
    obtain ⟨rs, h2, h⟩ := bind_ok_iff.1 h
    cases h
    refine .cons ⟨rfl, ?_⟩ (ih h2)
    unfold fillCarrier at h1
    obtain ⟨c, h3, h1⟩ := bind_ok_iff.1 h1
    rw [rowCell_ok_iff] at h3
    cases c with
    | str s =>
      refine ⟨s, h3, ?_⟩
      dsimp only at h1
      split_ifs at h1 ⊢ <;> cases h1 <;> rfl
    | num v => cases h1
    | bool b => cases h1

theorem setWhereFixed_loop_ok {ext field : String} {val : Dict String Cell → R Cell} {rows rows' : List (String × Dict String Cell)}
    (h : setWhereFixed.loop ext field val rows = .ok rows') :
    Lines (fun row row' => ∃ e v, row.get? ext = some e ∧ val row = .ok v ∧
      row' = if e.eqNum 0 then row.set field v else if row.contains field then row else row.set field (.num .nan)) rows rows' := by
  induction rows generalizing rows' with
  | nil => cases h; exact .nil
  | cons x rows ih =>
    obtain ⟨id, row⟩ := x
    unfold setWhereFixed.loop at h
    obtain ⟨e, h1, h⟩ := bind_ok_iff.1 h
    obtain ⟨v, h2, h⟩ := bind_ok_iff.1 h
    obtain ⟨rs, h3, h⟩ := bind_ok_iff.1 h
    cases h
    exact .cons ⟨rfl, e, v, rowCell_ok_iff.1 h1, h2, rfl⟩ (ih h3)

theorem setWhereFixed_ok {t t' : PTable} {ext field : String} {val : Dict String Cell → R Cell}
    (h : setWhereFixed t ext field val = .ok t') :
    Lines (fun row row' => ∃ e v, row.get? ext = some e ∧ val row = .ok v ∧
      row' = if e.eqNum 0 then row.set field v else if row.contains field then row else row.set field (.num .nan)) t.rows t'.rows := by
  unfold setWhereFixed at h
  by_cases hx : ext ∉ t.columns
  · rw [if_pos hx] at h; cases h
  rw [if_neg hx] at h
  obtain ⟨rs, h1, h⟩ := bind_ok_iff.1 h
  cases h
  exact setWhereFixed_loop_ok h1

theorem setWhereFixed_columns {t t' : PTable} {ext field : String} {val : Dict String Cell → R Cell}
    (h : setWhereFixed t ext field val = .ok t') {a : String} (ha : a ∈ t.columns) : a ∈ t'.columns := by
  unfold setWhereFixed at h
  by_cases hx : ext ∉ t.columns
  · rw [if_pos hx] at h; cases h
  rw [if_neg hx] at h
  obtain ⟨rs, h1, h⟩ := bind_ok_iff.1 h
  cases h
  dsimp only
  split_ifs
  · exact ha
  · exact List.mem_append_left _ ha

/-- one assignment, read back -/
theorem setStep {row row' : Dict String Cell} {e v : Cell} {f a : String}
    (h : row' = if e.eqNum 0 then row.set f v else if row.contains f then row else row.set f (.num .nan))
    (hp : a = f → ∃ c, row.get? a = some c) : row'.get? a = if e.eqNum 0 = true ∧ a = f then some v else row.get? a := by
  subst h
  by_cases ha : a = f
  · subst ha
    obtain ⟨c, hc⟩ := hp rfl
    have : row.contains a = true := by simp [Dict.contains, hc]
    by_cases he : e.eqNum 0 = true
    · simp [he, Dict.get?_set_self]
    · simp [he, this]
  · have hn : f ≠ a := fun h => ha h.symm
    by_cases he : e.eqNum 0 = true
    · simp [he, ha, Dict.get?_set_ne _ _ hn]
    · by_cases hc : row.contains f = true
      · simp [he, hc]
      · simp [he, hc, Dict.get?_set_ne _ _ hn]

theorem Lines.comp {p q r : Dict String Cell → Dict String Cell → Prop} {a b c : List (String × Dict String Cell)}
    (h1 : Lines p a b) (h2 : Lines q b c) (h : ∀ x y z, p x y → q y z → r x z) : Lines r a c := by
  induction h1 generalizing c with
  | nil => cases h2; exact .nil
  | cons hx _ ih =>
    cases h2 with
    | cons hy ht => exact .cons ⟨hy.1.trans hx.1, h _ _ _ hx.2 hy.2⟩ (ih ht)

theorem Lines.mono {p q : Dict String Cell → Dict String Cell → Prop} {a b : List (String × Dict String Cell)}
    (h1 : Lines p a b) (h : ∀ x ∈ a, ∀ y, p x.2 y → q x.2 y) : Lines q a b := by
  induction h1 with
  | nil => exact .nil
  | cons hx _ ih =>
    exact .cons ⟨hx.1, h _ (by simp) _ hx.2⟩ (ih fun x hx' => h x (by simp [hx']))

/-- the carrier line that is found for a name -/
def foundEmissions (carriers : PTable) (c : String) : Cell :=
  (((Dict.get? carriers.rows c).getD []).get? "co2_emissions").getD (.num .nan)

open Classical in
/-- cells of the table after the preprocessing -/
noncomputable def preparedCell (carriers : PTable) (capa : String) (row : Dict String Cell) (attr : String) : Option Cell :=
  if attr = "carrier" then (carrierOf row).map .str
  else if attr = "co2_emissions" then (carrierOf row).map (foundEmissions carriers)
  else if Fixed capa row ∧ (attr = capa ++ "_min" ∨ attr = capa ++ "_max") then row.get? capa
  else if Fixed capa row ∧ attr = "capital_cost" then some (.num 0)
  else row.get? attr

theorem joinName_emissions {left : List String} {y : String} (h : joinName left y = "co2_emissions") : y = "co2_emissions" := by
  unfold joinName at h
  split_ifs at h
  · exfalso
    have h' := congrArg String.toList h
    rw [String.toList_append] at h'
    have := congrArg (fun l => l.getLast?) h'
    rw [List.getLast?_append] at this
    have e : ("_carrier".toList.getLast?).or y.toList.getLast? = some 'r' := rfl
    rw [e] at this
    exact absurd this (by decide)
  · exact h

/-- lines of the table before and after `_preprocess_pypsa_components` -/
theorem preprocessType_ok {n n' : PNetwork} {ty : PType} {capa : String} (hc : capa = "p_nom" ∨ capa = "e_nom")
    (hf : (n.table ty).Frame) (hcols : capa ∈ (n.table ty).columns ∧ capa ++ "_extendable" ∈ (n.table ty).columns)
    (hem : "co2_emissions" ∈ n.carriers.columns) (hno : "co2_emissions" ∉ (n.table ty).columns)
    (h : pypsaPreprocessType n ty capa = .ok n') :
    n'.name = n.name ∧ n'.carriers = n.carriers ∧ n'.globalConstraints = n.globalConstraints ∧ n'.series = n.series ∧
    (∀ ty', ty' ≠ ty → n'.table ty' = n.table ty') ∧
    (∀ a, a ∈ (n.table ty).columns ∨ a = "co2_emissions" → a ∈ (n'.table ty).columns) ∧
    Lines (fun row row' => (∃ s, row.get? "carrier" = some (.str s)) ∧
      ∀ attr, attr ∈ (n.table ty).columns ∨ attr = "co2_emissions" → row'.get? attr = preparedCell n.carriers capa row attr)
      (n.table ty).rows (n'.table ty).rows := by
  unfold pypsaPreprocessType at h
  obtain ⟨rows1, h1, h⟩ := bind_ok_iff.1 h
  obtain ⟨t2, h2, h⟩ := bind_ok_iff.1 h
  split_ifs at h with hcap
  obtain ⟨t3, h3, h⟩ := bind_ok_iff.1 h
  obtain ⟨t4, h4, h⟩ := bind_ok_iff.1 h
  obtain ⟨t5, h5, h⟩ := bind_ok_iff.1 h
  cases h
  refine ⟨rfl, rfl, rfl, rfl, fun ty' hne => by simp [hne], ?_, ?_⟩
  · intro a ha
    simp only [Function.update_self]
    refine setWhereFixed_columns h5 (setWhereFixed_columns h4 (setWhereFixed_columns h3 ?_))
    unfold joinCarriers at h2
    split_ifs at h2 with hcar
    cases h2
    rcases ha with ha | rfl
    · exact List.mem_append_left _ ha
    · refine List.mem_append_right _ (List.mem_map.2 ⟨_, hem, ?_⟩)
      unfold joinName
      rw [if_neg hno]
  have l1 := fillCarriers_ok h1
  have l3 := setWhereFixed_ok h3
  have l4 := setWhereFixed_ok h4
  have l5 := setWhereFixed_ok h5
  unfold joinCarriers at h2
  split_ifs at h2 with hcar
  cases h2
  simp only [not_not] at hcar
  set T := n.table ty with hT
  set J : Dict String Cell → Dict String Cell := fun row => row ++ joinedCells T.columns n.carriers row with hJ
  have l2 : Lines (fun row row' => row' = J row) rows1 (rows1.map fun (id, row) => (id, row ++ joinedCells T.columns n.carriers row)) := by
    have : ∀ l : List (String × Dict String Cell),
        Lines (fun row row' => row' = J row) l (l.map fun (id, row) => (id, row ++ joinedCells T.columns n.carriers row)) := by
      intro l
      induction l with
      | nil => exact .nil
      | cons x rows ih => exact .cons ⟨rfl, rfl⟩ ih
    exact this rows1
  simp only [Function.update_self]
  have l12 := Lines.comp l1 l2 (r := fun row row' => ∃ s, row.get? "carrier" = some (.str s) ∧
      row' = J (if s = "" then row.set "carrier" (.str nullCarrier) else row)) (by
    rintro x y z ⟨s, hs, rfl⟩ rfl
    exact ⟨s, hs, rfl⟩)
  refine Lines.mono (Lines.comp (Lines.comp (Lines.comp l12 l3 (r := fun x z => ∃ y, _ ∧ _) fun x y z hx hy => ⟨y, hx, hy⟩) l4
    (r := fun x z => ∃ y, _ ∧ _) fun x y z hx hy => ⟨y, hx, hy⟩) l5 (r := fun x z => ∃ y, _ ∧ _) fun x y z hx hy => ⟨y, hx, hy⟩) ?_
  rintro ⟨id, row⟩ hrow row5 ⟨row4, ⟨row3, ⟨row2, ⟨s, hs, h2⟩, e3, v3, he3, hv3, h3⟩, e4, v4, he4, hv4, h4⟩, e5, v5, he5, hv5, h5⟩
  dsimp only at hs h2 ⊢
  refine ⟨⟨s, hs⟩, ?_⟩
  have hcells : ∀ a ∈ T.columns, ∃ c, row.get? a = some c := fun a ha => (hf _ hrow a).2 ha
  have hcarOf : carrierOf row = some (if s = "" then nullCarrier else s) := by unfold carrierOf; rw [hs]; rfl
  set row1 := (if s = "" then row.set "carrier" (.str nullCarrier) else row) with hrow1
  have g1 : ∀ a, row1.get? a = if a = "carrier" then (carrierOf row).map .str else row.get? a := by
    intro a
    rw [hcarOf, hrow1]
    by_cases hs0 : s = ""
    · rw [if_pos hs0, if_pos hs0, Dict.get?_set]
      by_cases ha : a = "carrier"
      · subst ha; simp
      · have : "carrier" ≠ a := fun h => ha h.symm
        simp [ha, this]
    · rw [if_neg hs0, if_neg hs0]
      by_cases ha : a = "carrier"
      · subst ha; simpa using hs
      · simp [ha]
  -- the joined table
  have g2 : ∀ a, a ∈ T.columns ∨ a = "co2_emissions" → row2.get? a =
      if a = "carrier" then (carrierOf row).map .str else if a = "co2_emissions" then (carrierOf row).map (foundEmissions n.carriers)
      else row.get? a := by
    intro a ha
    rw [h2, hJ, Dict.get?_append, g1]
    by_cases ha1 : a = "carrier"
    · simp [ha1, hcarOf]
    rw [if_neg ha1, if_neg ha1]
    by_cases ha2 : a = "co2_emissions"
    · subst ha2
      have hnone : row.get? "co2_emissions" = none := by
        cases hh : row.get? "co2_emissions" with
        | none => rfl
        | some c => exact absurd ((hf _ hrow _).1 ⟨c, hh⟩) hno
      rw [hnone, if_pos rfl, hcarOf]
      unfold joinedCells
      have hj : joinName T.columns "co2_emissions" = "co2_emissions" := by unfold joinName; rw [if_neg hno]
      have hc1 : row1.get? "carrier" = some (.str (if s = "" then nullCarrier else s)) := by rw [g1, if_pos rfl, hcarOf]; rfl
      rw [hc1]
      show Dict.get? _ _ = _
      rw [Dict.get?_mapKey _ _ _ _ "co2_emissions" hem hj fun y _ hy => joinName_emissions hy]
      rfl
    · rw [if_neg ha2]
      obtain ⟨c, hc⟩ := hcells a (ha.resolve_right ha2)
      rw [hc]
      rfl
  have hne : capa ≠ capa ++ "_min" ∧ capa ≠ capa ++ "_max" ∧ capa ++ "_extendable" ≠ capa ++ "_min" ∧ capa ++ "_extendable" ≠ capa ++ "_max" ∧
      capa ++ "_min" ≠ capa ++ "_max" ∧ capa ++ "_extendable" ≠ "carrier" ∧ capa ++ "_extendable" ≠ "co2_emissions" ∧ capa ≠ "carrier" ∧
      capa ≠ "co2_emissions" ∧ "co2_emissions" ≠ capa ++ "_min" ∧ "co2_emissions" ≠ capa ++ "_max" ∧ "carrier" ≠ capa ++ "_min" ∧
      "carrier" ≠ capa ++ "_max" ∧ capa ++ "_min" ≠ "capital_cost" ∧ capa ++ "_max" ≠ "capital_cost" := by
    rcases hc with rfl | rfl <;> decide
  obtain ⟨n1, n2, n3, n4, n5, n6, n7, n8, n9, n10, n11, n12, n13, n14, n15⟩ := hne
  have pres2 : ∀ a ∈ T.columns, ∃ c, row2.get? a = some c := by
    intro a ha
    rw [g2 a (.inl ha)]
    split_ifs with x1 x2
    · exact ⟨_, by rw [hcarOf]; rfl⟩
    · exact ⟨_, by rw [hcarOf]; rfl⟩
    · exact hcells a ha
  have gext : row2.get? (capa ++ "_extendable") = row.get? (capa ++ "_extendable") := by
    rw [g2 _ (.inl hcols.2), if_neg n6, if_neg n7]
  have gcap : row2.get? capa = row.get? capa := by
    rw [g2 _ (.inl hcols.1), if_neg n8, if_neg n9]
  have hD : ∀ a f, (a ∈ T.columns ∨ a = "co2_emissions") → "co2_emissions" ≠ f → a = f → a ∈ T.columns := by
    rintro a f (h | h) hf hfa
    · exact h
    · exact absurd (h.symm.trans hfa) hf
  have g3 : ∀ a, a ∈ T.columns ∨ a = "co2_emissions" → row3.get? a = if e3.eqNum 0 = true ∧ a = capa ++ "_min" then some v3 else row2.get? a :=
    fun a ha => setStep h3 fun hx => pres2 a (hD a _ ha n10 hx)
  have pres3 : ∀ a ∈ T.columns, ∃ c, row3.get? a = some c := by
    intro a ha
    rw [g3 a (.inl ha)]
    split_ifs
    · exact ⟨_, rfl⟩
    · exact pres2 a ha
  have g4 : ∀ a, a ∈ T.columns ∨ a = "co2_emissions" → row4.get? a = if e4.eqNum 0 = true ∧ a = capa ++ "_max" then some v4 else row3.get? a :=
    fun a ha => setStep h4 fun hx => pres3 a (hD a _ ha n11 hx)
  have pres4 : ∀ a ∈ T.columns, ∃ c, row4.get? a = some c := by
    intro a ha
    rw [g4 a (.inl ha)]
    split_ifs
    · exact ⟨_, rfl⟩
    · exact pres3 a ha
  have g5 : ∀ a, a ∈ T.columns ∨ a = "co2_emissions" → row5.get? a = if e5.eqNum 0 = true ∧ a = "capital_cost" then some v5 else row4.get? a :=
    fun a ha => setStep h5 fun hx => pres4 a (hD a _ ha (by decide) hx)
  have e43 : e4 = e3 := by
    rw [g3 _ (.inl hcols.2), if_neg (fun h => n3 h.2), he3] at he4
    exact (Option.some.inj he4).symm
  have e54 : e5 = e3 := by
    rw [g4 _ (.inl hcols.2), if_neg (fun h => n4 h.2), g3 _ (.inl hcols.2), if_neg (fun h => n3 h.2), he3] at he5
    exact (Option.some.inj he5).symm
  have hv3' : row.get? capa = some v3 := by rw [← gcap]; exact rowCell_ok_iff.1 hv3
  have hv4' : row.get? capa = some v4 := by
    have := rowCell_ok_iff.1 hv4
    rwa [g3 _ (.inl hcols.1), if_neg (fun h => n1 h.2), gcap] at this
  cases hv5
  have hfix : Fixed capa row ↔ e3.eqNum 0 = true := by
    unfold Fixed
    rw [← gext, he3]
    simp [Cell.is_iff]
  intro a ha
  rw [g5 a ha, g4 a ha, g3 a ha, g2 a ha, e43, e54]
  unfold preparedCell
  by_cases ha1 : a = "carrier"
  · subst ha1; simp [n12, n13]
  by_cases ha2 : a = "co2_emissions"
  · subst ha2; simp [n10, n11]
  by_cases hfx : e3.eqNum 0 = true
  · by_cases hm : a = capa ++ "_min"
    · subst hm; simp [hfix, hfx, ha1, ha2, n5, n14, hv3']
    by_cases hM : a = capa ++ "_max"
    · subst hM; simp [hfix, hfx, ha1, ha2, n15, hv4', hm]
    by_cases hk : a = "capital_cost"
    · subst hk; simp [hfix, hfx, hm, hM]
    · simp [hfix, hfx, hm, hM, hk, ha1, ha2]
  · simp [hfix, hfx, ha1, ha2]

end Verif
