import Verif.Lemmas.Antares

/-! Lemmas on the conversion of batteries. -/

namespace Verif

/-! ## The template of an area -/

theorem battery_params (x : String) : batteryTemplate.componentParams.map (·.subst fun s => pyReplace s "${area}" x) = [
    { id := "reservoir_capacity",
      value := .thermal "z_batteries" ("z_batteries_batteries_" ++ x ++ "_1") none (some "nominalcapacity") none none },
    { id := "injection_nominal_capacity",
      value := .link 0 x "z_batteries" "links_capacities_direct" (some { type := some "max" }) },
    { id := "withdrawal_nominal_capacity",
      value := .thermal x (x ++ "_batteries_inj") none (some "nominalcapacity") none none },
    { id := "efficiency_injection",
      value := .binding ("batteries_" ++ x) (x ++ "%z_batteries") (some { multiplyBy := some (.num (-1)) }) },
    { id := "efficiency_withdrawal",
      value := .binding ("batteries_" ++ x) (x ++ "." ++ x ++ "_batteries_inj") none },
    { id := "lower_rule_curve", value := .constant 0 },
    { id := "upper_rule_curve", timeDependent := true,
      value := .thermal "z_batteries" ("z_batteries_batteries_" ++ x ++ "_1") (some 0) none (some { divideBy := some (.key "reservoir_capacity") })
        (some "thermal_series") },
    { id := "p_max_injection_modulation", timeDependent := true,
      value := .link 0 x "z_batteries" "links_capacities_direct" (some { divideBy := some (.key "injection_nominal_capacity") }) },
    { id := "p_max_withdrawal_modulation", timeDependent := true,
      value := .thermal x (x ++ "_batteries_inj") (some 0) none (some { divideBy := some (.key "withdrawal_nominal_capacity") })
        (some "thermal_series") },
    { id := "marginal_cost", timeDependent := true, value := .link 0 x "z_batteries" "links_parameters" none } ] := by
  have e1 : pyReplace "z_batteries_batteries_${area}_1" "${area}" x = "z_batteries_batteries_" ++ x ++ "_1" :=
    String.toList_inj.1 (by simp [pyReplace, replaceGo, List.isPrefixOf])
  have e2 : pyReplace "${area}" "${area}" x = x := String.toList_inj.1 (by simp [pyReplace, replaceGo, List.isPrefixOf])
  have e3 : pyReplace "${area}_batteries_inj" "${area}" x = x ++ "_batteries_inj" :=
    String.toList_inj.1 (by simp [pyReplace, replaceGo, List.isPrefixOf])
  have e4 : pyReplace "batteries_${area}" "${area}" x = "batteries_" ++ x :=
    String.toList_inj.1 (by simp [pyReplace, replaceGo, List.isPrefixOf])
  have e5 : pyReplace "${area}%z_batteries" "${area}" x = x ++ "%z_batteries" :=
    String.toList_inj.1 (by simp [pyReplace, replaceGo, List.isPrefixOf])
  simp only [batteryTemplate, List.map_cons, List.map_nil, TemplateParam.subst, TemplateValue.subst, Operation.subst, Option.map_some,
    Option.map_none, e1, e2, e3, e4, e5, replace_inj, Operand.subst]
  rfl

theorem battery_id (x : String) : pyReplace batteryTemplate.componentId "${area}" x = "battery_" ++ x :=
  String.toList_inj.1 (by simp [batteryTemplate, pyReplace, replaceGo, List.isPrefixOf])

theorem battery_model (x : String) : pyReplace batteryTemplate.model "${area}" x = "andromede-v1-models.battery" := rfl

/-! ## One parameter -/

theorem get_ok_iff {α β} [DecidableEq α] {d : Dict α β} {k : α} {v : β} : d.get k = .ok v ↔ d.get? k = some v := by
  unfold Dict.get
  cases d.get? k <;> simp

theorem capacity_ok_iff {st : AStudy} {s : BState} {pid a c : String} {col : Option Nat} {op : Option Operation} {r : ParamValue × BState} :
    convertValue st s pid (.thermal a c col (some "nominalcapacity") op none) = .ok r ↔
      ∃ v, CapacityIs st a c v ∧ r = (.number v, { s with pre := s.pre.set pid v }) := by
  unfold convertValue CapacityIs
  simp only [bind_ok_iff, get_ok_iff, thermalField, Except.ok.injEq]
  constructor
  · rintro ⟨ar, h1, t, h2, v, rfl, rfl⟩
    exact ⟨_, ⟨ar, t, h1, h2, rfl⟩, rfl⟩
  · rintro ⟨v, ⟨ar, t, h1, h2, h3⟩, rfl⟩
    exact ⟨ar, h1, t, h2, v, h3, rfl⟩

theorem weight_ok_iff {st : AStudy} {s : BState} {pid i f : String} {r : ParamValue × BState} :
    convertValue st s pid (.binding i f none) = .ok r ↔ ∃ v, WeightIs st i f v ∧ r = (.number v, s) := by
  unfold convertValue WeightIs
  simp only [bind_ok_iff, get_ok_iff, Except.ok.injEq]
  constructor
  · rintro ⟨d, h1, w, h2, rfl⟩
    exact ⟨w, ⟨d, h1, h2⟩, rfl⟩
  · rintro ⟨w, ⟨d, h1, h2⟩, rfl⟩
    exact ⟨d, h1, w, h2, rfl⟩

theorem weight_mul_ok_iff {st : AStudy} {s : BState} {pid i f : String} {q : Num} {r : ParamValue × BState} :
    convertValue st s pid (.binding i f (some { multiplyBy := some (.num q) })) = .ok r ↔
      ∃ v, WeightIs st i f v ∧ r = (.number (v * q), s) := by
  unfold convertValue WeightIs
  simp only [bind_ok_iff, get_ok_iff, Except.ok.injEq, Operation.onNum, Operand.resolve, reduceCtorEq, if_false]
  constructor
  · rintro ⟨d, h1, w, h2, v, ⟨q', rfl, rfl⟩, rfl⟩
    exact ⟨w, ⟨d, h1, h2⟩, rfl⟩
  · rintro ⟨w, ⟨d, h1, h2⟩, rfl⟩
    exact ⟨d, h1, w, h2, _, ⟨_, rfl, rfl⟩, rfl⟩

theorem frameColumn_ok_iff {f : Frame} {l : List Num} : frameColumn f (some 0) = .ok l ↔ f.width ≠ 0 ∧ l = firstColumn f := by
  unfold frameColumn firstColumn
  by_cases h : f.width = 0
  · simp [h]
  · have : 0 < f.width := by omega
    simp only [this, if_true, Except.ok.injEq, h, ne_eq, not_false_eq_true, true_and]
    exact eq_comm

/-- the file of a parameter, without suffix -/
def outName (st : AStudy) (pid areaId a file : String) (cl second : Option String) : String :=
  st.seriesDir file a cl second ++ "/" ++ pid ++ "_" ++ areaId

theorem series_ok_iff {st : AStudy} {s : BState} {pid a file : String} {cl second : Option String} {r : ParamValue × BState} :
    processSeries st s pid a file cl second (some 0) none = .ok r ↔
      ∃ area l, st.areas.get? a = some area ∧ SeriesIs st file a cl second l ∧
        r = (.name (outName st pid area.id a file cl second),
          { s with files := s.files ++ [(outName st pid area.id a file cl second ++ ".txt", columnOf l)] }) := by
  unfold processSeries SeriesIs
  simp only [bind_ok_iff, get_ok_iff, frameColumn_ok_iff, Except.ok.injEq]
  constructor
  · rintro ⟨area, h1, f, h2, l, ⟨h3, h4⟩, rfl⟩
    exact ⟨area, l, h1, ⟨f, h2, h3, h4⟩, rfl⟩
  · rintro ⟨area, l, h1, ⟨f, h2, h3, h4⟩, rfl⟩
    exact ⟨area, h1, f, h2, l, ⟨h3, h4⟩, rfl⟩

theorem max_ok_iff {st : AStudy} {s : BState} {pid a file : String} {cl second : Option String} {r : ParamValue × BState} :
    processSeries st s pid a file cl second (some 0) (some { type := some "max" }) = .ok r ↔
      ∃ area l m, st.areas.get? a = some area ∧ SeriesIs st file a cl second l ∧ pyMaximum l = .ok m ∧
        r = (.number m, { s with pre := s.pre.set pid m }) := by
  unfold processSeries SeriesIs
  simp only [bind_ok_iff, get_ok_iff, frameColumn_ok_iff, Except.ok.injEq, Operation.onSeries, if_true]
  constructor
  · rintro ⟨area, h1, f, h2, l, ⟨h3, h4⟩, x, ⟨m, h5, rfl⟩, h6⟩
    cases h6
    exact ⟨area, l, m, h1, ⟨f, h2, h3, h4⟩, h5, rfl⟩
  · rintro ⟨area, l, m, h1, ⟨f, h2, h3, h4⟩, h5, rfl⟩
    exact ⟨area, h1, f, h2, l, ⟨h3, h4⟩, _, ⟨m, h5, rfl⟩, rfl⟩

theorem npDiv_eq (a b : Num) : npDiv a b = quotient a b := by
  unfold npDiv quotient
  cases a <;> cases b <;> simp only [Num.div, Num.sgn, Num.ofSgn]
  · rename_i a b
    by_cases hb : b = 0
    · rcases lt_trichotomy a 0 with h | h | h
      · simp [hb, h, h.ne, h.not_gt]
      · simp [hb, h]
      · simp [hb, h, h.ne', h.not_gt]
    · simp [hb]
  · rename_i b
    rcases lt_trichotomy b 0 with h | h | h
    · simp [h, h.ne, h.not_ge]
    · simp [h]
    · simp [h.le, h.ne', h.not_gt]
  · rename_i b
    rcases lt_trichotomy b 0 with h | h | h
    · simp [h, h.ne, h.not_ge]
    · simp [h]
    · simp [h.le, h.ne', h.not_gt]
  · rename_i b
    by_cases hb : b = 0 <;> simp [hb]

theorem quotient_fin {a b : ℚ} (h : b ≠ 0) : quotient (.fin a) (.fin b) = .fin (a / b) := by
  simp [quotient, h]

theorem div_ok_iff {st : AStudy} {s : BState} {pid a file key : String} {cl second : Option String} {r : ParamValue × BState} :
    processSeries st s pid a file cl second (some 0) (some { divideBy := some (.key key) }) = .ok r ↔
      ∃ area l v, st.areas.get? a = some area ∧ SeriesIs st file a cl second l ∧ s.pre.get? key = some v ∧
        r = (.name (outName st pid area.id a file cl second), { s with files := s.files ++
          [(outName st pid area.id a file cl second ++ ".txt", columnOf (l.map fun y => quotient y v))] }) := by
  unfold processSeries SeriesIs
  simp only [bind_ok_iff, get_ok_iff, frameColumn_ok_iff, Except.ok.injEq, Operation.onSeries, reduceCtorEq, if_false, npDiv_eq]
  have hr : ∀ v, Operand.resolve (some s.pre) (.key key) = .ok v ↔ s.pre.get? key = some v := by
    intro v
    unfold Operand.resolve
    simp only
    cases s.pre.get? key <;> simp
  constructor
  · rintro ⟨area, h1, f, h2, l, ⟨h3, h4⟩, x, ⟨v, h5, rfl⟩, h6⟩
    cases h6
    exact ⟨area, l, v, h1, ⟨f, h2, h3, h4⟩, (hr v).1 h5, rfl⟩
  · rintro ⟨area, l, v, h1, ⟨f, h2, h3, h4⟩, h5, rfl⟩
    exact ⟨area, h1, f, h2, l, ⟨h3, h4⟩, _, ⟨v, (hr v).2 h5, rfl⟩, rfl⟩

/-! ## One battery -/

theorem convertValues_cons_ok {st : AStudy} {p : TemplateParam} {ps : List TemplateParam} {s s' : BState} {l : List InputParam} :
    convertValues st (p :: ps) s = (s', .ok l) ↔ ∃ v s1 rest, convertValue st s p.id p.value = .ok (v, s1) ∧
      convertValues st ps s1 = (s', .ok rest) ∧
      l = { id := p.id, timeDependent := p.timeDependent, scenarioDependent := p.scenarioDependent, value := v } :: rest := by
  rw [convertValues]
  cases h : convertValue st s p.id p.value with
  | error e => simp
  | ok r =>
    obtain ⟨v, s1⟩ := r
    simp only [Except.ok.injEq]
    cases h2 : convertValues st ps s1 with
    | mk s2 r2 =>
      cases r2 with
      | error e => simp [Prod.ext_iff]; intros; simp_all
      | ok rest =>
        simp only [ok_bind, Prod.mk.injEq, Except.ok.injEq]
        constructor
        · rintro ⟨rfl, rfl⟩
          exact ⟨v, s1, rest, ⟨rfl, rfl⟩, by rw [h2], rfl⟩
        · rintro ⟨v', s1', rest', ⟨rfl, rfl⟩, h3, rfl⟩
          rw [h2] at h3
          cases h3
          exact ⟨rfl, rfl⟩

/-- areas are found by their names -/
def KeysAreIds (st : AStudy) : Prop := ∀ k a, (k, a) ∈ st.areas → k = a.id

theorem KeysAreIds.get {st : AStudy} (h : KeysAreIds st) {k : String} {a : AArea} (ha : st.areas.get? k = some a) : a.id = k :=
  (h k a (Dict.mem_of_get? ha)).symm

theorem series_unique {st : AStudy} {file a : String} {cl second : Option String} {l l' : List Num} (h : SeriesIs st file a cl second l)
    (h' : SeriesIs st file a cl second l') : l = l' := by
  obtain ⟨f, h1, -, h2⟩ := h
  obtain ⟨f', h1', -, h2'⟩ := h'
  rw [h1] at h1'
  cases h1'
  rw [h2, h2']

/-- what a successful conversion of one area is -/
theorem battery_ok_iff {st : AStudy} (hk : KeysAreIds st) {x : String} {s s' : BState} {l : List InputParam} :
    convertValues st (batteryTemplate.componentParams.map (·.subst fun s => pyReplace s "${area}" x)) s = (s', .ok l) ↔
      ∃ d m, BatteryOf st x d ∧ pyMaximum d.injection = .ok m ∧
        IsBattery st x d m { id := "battery_" ++ x, model := "andromede-v1-models.battery", parameters := l } ∧
        s'.files = s.files ++ batteryFiles st x d m ∧
        s'.pre = ((s.pre.set "reservoir_capacity" d.reservoir).set "injection_nominal_capacity" m).set "withdrawal_nominal_capacity"
          d.withdrawal := by
  rw [battery_params]
  simp only [convertValues_cons_ok, capacity_ok_iff, weight_ok_iff, weight_mul_ok_iff]
  simp only [convertValue, max_ok_iff, div_ok_iff, series_ok_iff, convertValues, Prod.mk.injEq, Except.ok.injEq]
  constructor
  · rintro ⟨_, _, _, ⟨v1, h1, rfl, rfl⟩, ⟨_, _, _, ⟨a2, l2, m, h2, h2', h2'', rfl, rfl⟩, ⟨_, _, _, ⟨v3, h3, rfl, rfl⟩,
      ⟨_, _, _, ⟨v4, h4, rfl, rfl⟩, ⟨_, _, _, ⟨v5, h5, rfl, rfl⟩, ⟨_, _, _, ⟨rfl, rfl⟩, ⟨_, _, _, ⟨a7, l7, v7, h7, h7', h7'', rfl, rfl⟩,
      ⟨_, _, _, ⟨a8, l8, v8, h8, h8', h8'', rfl, rfl⟩, ⟨_, _, _, ⟨a9, l9, v9, h9, h9', h9'', rfl, rfl⟩,
      ⟨_, _, _, ⟨a10, l10, h10, h10', rfl, rfl⟩, ⟨rfl, rfl⟩, rfl⟩, rfl⟩, rfl⟩, rfl⟩, rfl⟩, rfl⟩, rfl⟩, rfl⟩, rfl⟩, rfl⟩
    have e1 : v7 = v1 := by simpa [Dict.get?_set] using h7''.symm
    have e2 : v8 = m := by simpa [Dict.get?_set] using h8''.symm
    have e3 : v9 = v3 := by simpa [Dict.get?_set] using h9''.symm
    have e4 : l8 = l2 := series_unique h8' h2'
    subst e1 e2 e3 e4
    have i2 := hk.get h2
    have i7 := hk.get h7
    have i8 := hk.get h8
    have i9 := hk.get h9
    have i10 := hk.get h10
    refine ⟨⟨v7, l8, v9, v4, v5, l7, l9, l10⟩, v8, ⟨⟨_, h2⟩, h1, h2', h3, h4, h5, h7', h9', h10'⟩, h2'', ⟨rfl, rfl, rfl, ?_⟩, ?_, rfl⟩
    · simp only [i7, i8, i9, i10, outName]
      simp [levelDir, capacityDir, productionDir, costDir, String.append_assoc]
    · simp only [i7, i8, i9, i10, outName, batteryFiles, List.append_assoc, List.cons_append, List.nil_append]
      simp [levelDir, capacityDir, productionDir, costDir, String.append_assoc]
  · rintro ⟨d, m, hb, hm, ⟨-, -, -, hl⟩, hf, hpre⟩
    obtain ⟨a, ha⟩ := hb.known
    obtain ⟨az, _, hz, _⟩ := hb.reservoir
    have i1 := hk.get ha
    have i2 := hk.get hz
    refine ⟨_, _, _, ⟨_, hb.reservoir, rfl, rfl⟩, ⟨_, _, _, ⟨a, _, m, ha, hb.injection, hm, rfl, rfl⟩, ⟨_, _, _, ⟨_, hb.withdrawal, rfl, rfl⟩,
      ⟨_, _, _, ⟨_, hb.linkWeight, rfl, rfl⟩, ⟨_, _, _, ⟨_, hb.clusterWeight, rfl, rfl⟩, ⟨_, _, _, ⟨rfl, rfl⟩,
      ⟨_, _, _, ⟨az, _, d.reservoir, hz, hb.level, ?_, rfl, rfl⟩,
      ⟨_, _, _, ⟨a, _, m, ha, hb.injection, ?_, rfl, rfl⟩, ⟨_, _, _, ⟨a, _, d.withdrawal, ha, hb.production, ?_, rfl, rfl⟩,
      ⟨_, _, _, ⟨a, _, ha, hb.cost, rfl, rfl⟩, ⟨?_, rfl⟩, rfl⟩, rfl⟩, rfl⟩, rfl⟩, rfl⟩, rfl⟩, rfl⟩, rfl⟩, rfl⟩, ?_⟩
    · simp [Dict.get?_set]
    · simp [Dict.get?_set]
    · simp [Dict.get?_set]
    · obtain ⟨p', f'⟩ := s'
      simp only at hf hpre
      rw [hf, hpre]
      simp only [i1, i2, outName, batteryFiles, List.append_assoc, List.cons_append, List.nil_append]
      simp [levelDir, capacityDir, productionDir, costDir, String.append_assoc]
    · simp only at hl
      rw [hl]
      simp only [i1, i2, outName]
      simp [levelDir, capacityDir, productionDir, costDir, String.append_assoc]

/-! ## Values that were computed before -/

/-- the names that an operation looks up -/
def Operation.needs (o : Operation) : List String :=
  if o.type = some "max" then []
  else match o.multiplyBy with
    | some (.key k) => [k]
    | some (.num _) => []
    | none => match o.divideBy with
      | some (.key k) => [k]
      | _ => []

/-- the names that a value looks up -/
def TemplateValue.needs : TemplateValue → List String
  | .thermal _ _ _ _ (some op) (some _) => op.needs
  | .link _ _ _ _ (some op) => op.needs
  | _ => []

/-- the value is recorded under the name of the parameter -/
def TemplateValue.sets : TemplateValue → Bool
  | .thermal _ _ _ _ _ none => true
  | .thermal _ _ _ _ (some op) (some _) => decide (op.type = some "max")
  | .link _ _ _ _ (some op) => decide (op.type = some "max")
  | _ => false

/-- names are recorded before they are looked up -/
def usesOk : List String → List TemplateParam → Bool
  | _, [] => true
  | k, p :: ps => p.value.needs.all k.contains && usesOk (if p.value.sets then p.id :: k else k) ps

theorem battery_usesOk (x : String) :
    usesOk [] (batteryTemplate.componentParams.map (·.subst fun s => pyReplace s "${area}" x)) = true := by
  rw [battery_params]
  rfl

/-- the states have the same files and the same values for the names in `k` -/
structure SameOn (k : List String) (s s' : BState) : Prop where
  files : s.files = s'.files
  values : ∀ x ∈ k, s.pre.get? x = s'.pre.get? x

theorem onSeries_same {o : Operation} {l : List Num} {d d' : Dict String Num} (h : ∀ x ∈ o.needs, d.get? x = d'.get? x) :
    o.onSeries l d = o.onSeries l d' := by
  unfold Operation.onSeries
  unfold Operation.needs at h
  split_ifs at h ⊢
  · rfl
  · cases hm : o.multiplyBy with
    | some x =>
      rw [hm] at h
      cases x with
      | num v => rfl
      | key k => simp only [Operand.resolve]; rw [h k (by simp)]
    | none =>
      rw [hm] at h
      cases hd : o.divideBy with
      | none => rfl
      | some x =>
        rw [hd] at h
        cases x with
        | num v => rfl
        | key k => simp only [Operand.resolve]; rw [h k (by simp)]

theorem SameOn.set {k : List String} {s s' : BState} (h : SameOn k s s') (x : String) (v : Num) (b : Bool) :
    SameOn (if b then x :: k else k) { s with pre := s.pre.set x v } { s' with pre := s'.pre.set x v } := by
  refine ⟨h.files, fun y hy => ?_⟩
  simp only [Dict.get?_set]
  by_cases he : x = y
  · simp [he]
  · rw [if_neg he, if_neg he]
    refine h.values y ?_
    cases b with
    | false => exact hy
    | true => exact (List.mem_cons.1 hy).resolve_left (Ne.symm he)

theorem SameOn.write {k : List String} {s s' : BState} (h : SameOn k s s') (f : String × Frame) :
    SameOn k { s with files := s.files ++ [f] } { s' with files := s'.files ++ [f] } :=
  ⟨by rw [h.files], h.values⟩

/-- the two runs fail with the same error, or give the same value -/
inductive SameRun (k : List String) : R (ParamValue × BState) → R (ParamValue × BState) → Prop where
  | error (e : Err) : SameRun k (.error e) (.error e)
  | ok (v : ParamValue) {s s' : BState} (h : SameOn k s s') : SameRun k (.ok (v, s)) (.ok (v, s'))

theorem SameRun.bind {k : List String} {α} (m : R α) {f g : α → R (ParamValue × BState)} (h : ∀ a, m = .ok a → SameRun k (f a) (g a)) :
    SameRun k (m >>= f) (m >>= g) := by
  cases hm : m with
  | error e => exact .error e
  | ok a => exact h a hm

theorem onSeries_num {o : Operation} {l : List Num} {d : Dict String Num} {v : Num} (h : o.onSeries l d = .ok (.num v)) :
    o.type = some "max" := by
  unfold Operation.onSeries at h
  split_ifs at h with ht
  · exact ht
  · exfalso
    cases hm : o.multiplyBy with
    | some x =>
      rw [hm] at h
      obtain ⟨w, -, h⟩ := bind_ok_iff.1 h
      cases h
    | none =>
      rw [hm] at h
      cases hd : o.divideBy with
      | none => rw [hd] at h; cases h
      | some x =>
        rw [hd] at h
        obtain ⟨w, -, h⟩ := bind_ok_iff.1 h
        cases h

theorem onSeries_series {o : Operation} {l l' : List Num} {d : Dict String Num} (h : o.onSeries l d = .ok (.series l')) :
    o.type ≠ some "max" := by
  intro ht
  unfold Operation.onSeries at h
  rw [if_pos ht] at h
  obtain ⟨w, -, h⟩ := bind_ok_iff.1 h
  cases h

theorem processSeries_same {st : AStudy} {k : List String} {s s' : BState} (h : SameOn k s s') (pid a file : String) (cl second : Option String)
    (col : Option Nat) (op : Option Operation) (hn : ∀ o, op = some o → ∀ x ∈ o.needs, x ∈ k) :
    SameRun (if op.any (fun o => decide (o.type = some "max")) then pid :: k else k) (processSeries st s pid a file cl second col op)
      (processSeries st s' pid a file cl second col op) := by
  unfold processSeries
  refine .bind _ fun area _ => .bind _ fun f _ => .bind _ fun l _ => ?_
  cases op with
  | none => exact .ok _ (h.write _)
  | some o =>
    simp only
    rw [onSeries_same fun x hx => h.values x (hn o rfl x hx)]
    refine .bind _ fun r hr => ?_
    cases r with
    | num v =>
      have ht : decide (o.type = some "max") = true := by simpa using onSeries_num hr
      simp only [Option.any_some, ht, if_true]
      exact .ok _ (h.set pid v true)
    | series l =>
      have ht : decide (o.type = some "max") = false := by simpa using onSeries_series hr
      simp only [Option.any_some, ht]
      exact .ok _ (h.write _)

theorem convertValue_same {st : AStudy} {k : List String} {s s' : BState} (h : SameOn k s s') (pid : String) (v : TemplateValue)
    (hn : ∀ x ∈ v.needs, x ∈ k) :
    SameRun (if v.sets then pid :: k else k) (convertValue st s pid v) (convertValue st s' pid v) := by
  cases v with
  | constant v => exact .ok _ h
  | thermal a c col field op file =>
    cases file with
    | some file =>
      have := processSeries_same (st := st) h pid a file (some c) none col op (by rintro o rfl x hx; exact hn x hx)
      cases op with
      | none => exact this
      | some o => exact this
    | none =>
      refine .bind _ fun area _ => .bind _ fun t _ => .bind _ fun v _ => ?_
      exact .ok _ (h.set pid v true)
  | binding i field op =>
    refine .bind _ fun terms _ => .bind _ fun w _ => ?_
    cases op with
    | none => exact .ok _ h
    | some o => exact .bind _ fun v _ => .ok _ h
  | link col a b file op =>
    have := processSeries_same (st := st) h pid a file none (some b) (some col) op (by rintro o rfl x hx; exact hn x hx)
    cases op with
    | none => exact this
    | some o => exact this

theorem convertValues_same {st : AStudy} (ps : List TemplateParam) : ∀ {k : List String} {s s' : BState}, SameOn k s s' →
    usesOk k ps = true → (convertValues st ps s).2 = (convertValues st ps s').2 ∧
      (convertValues st ps s).1.files = (convertValues st ps s').1.files := by
  induction ps with
  | nil => intro k s s' h _; exact ⟨rfl, h.files⟩
  | cons p ps ih =>
    intro k s s' h hu
    unfold usesOk at hu
    rw [Bool.and_eq_true, List.all_eq_true] at hu
    have hr := convertValue_same (st := st) h p.id p.value fun x hx => by simpa using hu.1 x hx
    rw [convertValues, convertValues]
    revert hr
    generalize convertValue st s p.id p.value = r
    generalize convertValue st s' p.id p.value = r'
    intro hr
    cases hr with
    | error e => exact ⟨rfl, h.files⟩
    | ok v h2 =>
      obtain ⟨i1, i2⟩ := ih h2 hu.2
      dsimp only
      rw [i1]
      exact ⟨rfl, i2⟩

theorem convertTemplates_same {st : AStudy} (as : List AArea) : ∀ {s s' : BState}, s.files = s'.files →
    (convertTemplates st batteryTemplate "${area}" as s).map (fun r => (r.1.files, r.2)) =
      (convertTemplates st batteryTemplate "${area}" as s').map (fun r => (r.1.files, r.2)) := by
  induction as with
  | nil => intro s s' h; simp [convertTemplates, Except.map, h]
  | cons a as ih =>
    intro s s' h
    obtain ⟨h1, h2⟩ := convertValues_same (st := st) _ (k := []) ⟨h, by simp⟩ (battery_usesOk a.id)
    rw [convertTemplates, convertTemplates]
    revert h1 h2
    generalize convertValues st _ s = r
    generalize convertValues st _ s' = r'
    obtain ⟨t, r⟩ := r
    obtain ⟨t', r'⟩ := r'
    rintro h1 h2
    simp only at h1 h2
    subst h1
    cases r with
    | error e =>
      dsimp only
      cases e.isSkipped
      · rfl
      · simp [Except.map, h2]
    | ok ps =>
      dsimp only
      have := ih h2
      revert this
      generalize convertTemplates st batteryTemplate "${area}" as t = q
      generalize convertTemplates st batteryTemplate "${area}" as t' = q'
      intro hq
      cases q with
      | error e =>
        cases q' with
        | error e' => cases hq; rfl
        | ok y => cases hq
      | ok y =>
        cases q' with
        | error e' => cases hq
        | ok y' =>
          simp only [Except.map, Except.ok.injEq, Prod.mk.injEq] at hq
          simp only [ok_bind, Except.map, hq.1, hq.2]

theorem convertBatteries_history (st : AStudy) (pre pre' : Dict String Num) :
    convertBatteries st batteryTemplate "${area}" pre = convertBatteries st batteryTemplate "${area}" pre' := by
  have h := convertTemplates_same (st := st) (validAreas st batteryTemplate) (s := { pre := pre }) (s' := { pre := pre' }) rfl
  unfold convertBatteries
  revert h
  generalize convertTemplates st batteryTemplate "${area}" (validAreas st batteryTemplate) { pre := pre } = q
  generalize convertTemplates st batteryTemplate "${area}" (validAreas st batteryTemplate) { pre := pre' } = q'
  intro hq
  cases q with
  | error e =>
    cases q' with
    | error e' => cases hq; rfl
    | ok y => cases hq
  | ok y =>
    cases q' with
    | error e' => cases hq
    | ok y' =>
      simp only [Except.map, Except.ok.injEq, Prod.mk.injEq] at hq
      simp only [ok_bind, hq.1, hq.2]

/-! ## Files are only added -/

theorem processSeries_files {st : AStudy} {s : BState} {pid a file : String} {cl second : Option String} {col : Option Nat}
    {op : Option Operation} {r : ParamValue × BState} (h : processSeries st s pid a file cl second col op = .ok r) :
    ∃ fs, r.2.files = s.files ++ fs := by
  unfold processSeries at h
  obtain ⟨_, -, h⟩ := bind_ok_iff.1 h
  obtain ⟨_, -, h⟩ := bind_ok_iff.1 h
  obtain ⟨_, -, h⟩ := bind_ok_iff.1 h
  cases op with
  | none => cases h; exact ⟨_, rfl⟩
  | some o =>
    obtain ⟨x, -, h⟩ := bind_ok_iff.1 h
    cases x with
    | num v => cases h; exact ⟨[], by simp⟩
    | series l => cases h; exact ⟨_, rfl⟩

theorem convertValue_files {st : AStudy} {s : BState} {pid : String} {v : TemplateValue} {r : ParamValue × BState}
    (h : convertValue st s pid v = .ok r) : ∃ fs, r.2.files = s.files ++ fs := by
  cases v with
  | constant v => cases h; exact ⟨[], by simp⟩
  | thermal a c col field op file =>
    cases file with
    | some file => exact processSeries_files h
    | none =>
      unfold convertValue at h
      obtain ⟨_, -, h⟩ := bind_ok_iff.1 h
      obtain ⟨_, -, h⟩ := bind_ok_iff.1 h
      obtain ⟨_, -, h⟩ := bind_ok_iff.1 h
      cases h
      exact ⟨[], by simp⟩
  | binding i field op =>
    unfold convertValue at h
    obtain ⟨_, -, h⟩ := bind_ok_iff.1 h
    obtain ⟨_, -, h⟩ := bind_ok_iff.1 h
    cases op with
    | none => cases h; exact ⟨[], by simp⟩
    | some o =>
      obtain ⟨_, -, h⟩ := bind_ok_iff.1 h
      cases h
      exact ⟨[], by simp⟩
  | link col a b file op => exact processSeries_files h

theorem convertValues_files {st : AStudy} (ps : List TemplateParam) : ∀ {s s' : BState} {r : R (List InputParam)},
    convertValues st ps s = (s', r) → ∃ fs, s'.files = s.files ++ fs := by
  induction ps with
  | nil => intro s s' r h; cases h; exact ⟨[], by simp⟩
  | cons p ps ih =>
    intro s s' r h
    rw [convertValues] at h
    cases hv : convertValue st s p.id p.value with
    | error e =>
      rw [hv] at h
      cases h
      exact ⟨[], by simp⟩
    | ok x =>
      obtain ⟨v, s1⟩ := x
      rw [hv] at h
      obtain ⟨fs, h1⟩ := convertValue_files hv
      cases hc : convertValues st ps s1 with
      | mk s2 r2 =>
        obtain ⟨gs, h2⟩ := ih hc
        simp only [hc, Prod.mk.injEq] at h
        rw [← h.1, h2, h1]
        exact ⟨fs ++ gs, by simp⟩

/-! ## Which errors there are -/

/-- series can be read, with a column and a line, or the file does not exist -/
def SeriesReadable (st : AStudy) : Prop :=
  ∀ file a cl second, (∃ f, st.readSeries file a cl second = .ok f ∧ f.width ≠ 0 ∧ f.rows ≠ []) ∨
    st.readSeries file a cl second = .error (.exception "FileNotFoundError")

theorem pyMaximum_ok {l : List Num} (h : l ≠ []) : ∃ m, pyMaximum l = .ok m := by
  cases l with
  | nil => exact absurd rfl h
  | cons v l => exact ⟨_, rfl⟩

theorem battery_empty {st : AStudy} (hk : KeysAreIds st) {x : String} {s : BState} {d : BatteryData} (hb : BatteryOf st x d)
    (he : d.injection = []) :
    ∃ s' m, convertValues st (batteryTemplate.componentParams.map (·.subst fun s => pyReplace s "${area}" x)) s = (s', .error (.valueError m)) := by
  rw [battery_params]
  have h1 := (capacity_ok_iff (st := st) (s := s) (pid := "reservoir_capacity") (a := "z_batteries")
    (c := "z_batteries_batteries_" ++ x ++ "_1") (col := none) (op := none)).2 ⟨_, hb.reservoir, rfl⟩
  rw [convertValues]
  simp only [h1]
  rw [convertValues]
  obtain ⟨a, ha⟩ := hb.known
  obtain ⟨f, hf, hw, hi⟩ := hb.injection
  have hget : st.areas.get x = .ok a := get_ok_iff.2 ha
  have hcol : frameColumn f (some 0) = .ok [] := frameColumn_ok_iff.2 ⟨hw, by rw [← hi, he]⟩
  simp only [convertValue, processSeries, hget, hf, ok_bind, hcol, Operation.onSeries, if_true, pyMaximum, error_bind]
  exact ⟨_, _, rfl⟩

/-- an area that is skipped has no complete battery -/
theorem battery_skipped {st : AStudy} (hk : KeysAreIds st) {x : String} {s s' : BState} {e : Err}
    (h : convertValues st (batteryTemplate.componentParams.map (·.subst fun s => pyReplace s "${area}" x)) s = (s', .error e))
    (he : e.isSkipped = true) : ¬ ∃ d, BatteryOf st x d := by
  rintro ⟨d, hb⟩
  by_cases hi : d.injection = []
  · obtain ⟨s2, m, h2⟩ := battery_empty (s := s) hk hb hi
    rw [h] at h2
    cases h2
    cases he
  · obtain ⟨m, hm⟩ := pyMaximum_ok hi
    have := (battery_ok_iff hk (x := x) (s := s) (s' := ⟨_, _⟩) (l := _)).2 ⟨d, m, hb, hm, ⟨rfl, rfl, rfl, rfl⟩, rfl, rfl⟩
    rw [h] at this
    cases this

/-- the run succeeds, or the area is skipped -/
def Fine {α} (r : R α) : Prop := (∃ v, r = .ok v) ∨ ∃ e, r = .error e ∧ e.isSkipped = true

theorem fine_ok {α} (v : α) : Fine (.ok v) := .inl ⟨v, rfl⟩

theorem Fine.bind {α β} {m : R α} {f : α → R β} (h : Fine m) (hf : ∀ a, m = .ok a → Fine (f a)) : Fine (m >>= f) := by
  rcases h with ⟨v, rfl⟩ | ⟨e, rfl, he⟩
  · exact hf v rfl
  · exact .inr ⟨e, rfl, he⟩

theorem fine_get {α β} [DecidableEq α] (d : Dict α β) (k : α) : Fine (d.get k) := by
  unfold Dict.get
  cases d.get? k with
  | none => exact .inr ⟨_, rfl, rfl⟩
  | some v => exact fine_ok v

theorem fine_cons {st : AStudy} {p : TemplateParam} {ps : List TemplateParam} {s : BState} (h : Fine (convertValue st s p.id p.value))
    (hr : ∀ v s1, convertValue st s p.id p.value = .ok (v, s1) → Fine (convertValues st ps s1).2) : Fine (convertValues st (p :: ps) s).2 := by
  rw [convertValues]
  rcases h with ⟨⟨v, s1⟩, h⟩ | ⟨e, h, he⟩
  · rw [h]
    exact (hr v s1 h).bind fun _ _ => fine_ok _
  · rw [h]
    exact .inr ⟨e, rfl, he⟩

theorem fine_capacity {st : AStudy} {s : BState} {pid a c : String} :
    Fine (convertValue st s pid (.thermal a c none (some "nominalcapacity") none none)) :=
  (fine_get _ _).bind fun _ _ => (fine_get _ _).bind fun _ _ => fine_ok _

theorem fine_series {st : AStudy} (hs : SeriesReadable st) {s : BState} {pid a file : String} {cl second : Option String} {op : Option Operation}
    (h : ∀ l, l ≠ [] → ∀ o, op = some o → Fine (o.onSeries l s.pre)) : Fine (processSeries st s pid a file cl second (some 0) op) := by
  unfold processSeries
  refine (fine_get _ _).bind fun area _ => ?_
  rcases hs file a cl second with ⟨f, hf, hw, hr⟩ | he
  · rw [hf]
    have hcol : frameColumn f (some 0) = .ok (firstColumn f) := frameColumn_ok_iff.2 ⟨hw, rfl⟩
    simp only [ok_bind, hcol]
    cases op with
    | none => exact fine_ok _
    | some o =>
      refine (h _ (by simpa [firstColumn] using hr) o rfl).bind fun r _ => ?_
      cases r <;> exact fine_ok _
  · rw [he]
    exact .inr ⟨_, rfl, rfl⟩

theorem fine_thermal {st : AStudy} (hs : SeriesReadable st) {s : BState} {pid a c file : String} {field : Option String} {op : Option Operation}
    (h : ∀ l, l ≠ [] → ∀ o, op = some o → Fine (o.onSeries l s.pre)) :
    Fine (convertValue st s pid (.thermal a c (some 0) field op (some file))) := by
  rw [convertValue]
  exact fine_series hs h

theorem fine_link {st : AStudy} (hs : SeriesReadable st) {s : BState} {pid a b file : String} {op : Option Operation}
    (h : ∀ l, l ≠ [] → ∀ o, op = some o → Fine (o.onSeries l s.pre)) : Fine (convertValue st s pid (.link 0 a b file op)) := by
  rw [convertValue]
  exact fine_series hs h

theorem fine_div {l : List Num} {d : Dict String Num} {k : String} {v : Num} (h : d.get? k = some v) :
    Fine (({ divideBy := some (.key k) } : Operation).onSeries l d) := by
  simp only [Operation.onSeries, reduceCtorEq, if_false, Operand.resolve, h]
  exact fine_ok _

theorem battery_fine {st : AStudy} (hs : SeriesReadable st) (x : String) (s : BState) :
    Fine (convertValues st (batteryTemplate.componentParams.map (·.subst fun s => pyReplace s "${area}" x)) s).2 := by
  rw [battery_params]
  refine fine_cons fine_capacity fun v1 s1 h1 => ?_
  obtain ⟨r, -, h1⟩ := capacity_ok_iff.1 h1
  cases h1
  refine fine_cons (fine_link hs ?_) fun v2 s2 h2 => ?_
  · intro l hl o ho
    cases ho
    obtain ⟨m, hm⟩ := pyMaximum_ok hl
    simp only [Operation.onSeries, if_true, hm]
    exact fine_ok _
  obtain ⟨_, _, m, -, -, -, h2⟩ := max_ok_iff.1 h2
  cases h2
  refine fine_cons fine_capacity fun v3 s3 h3 => ?_
  obtain ⟨w, -, h3⟩ := capacity_ok_iff.1 h3
  cases h3
  refine fine_cons ((fine_get _ _).bind fun _ _ => (fine_get _ _).bind fun _ _ => fine_ok _) fun v4 s4 h4 => ?_
  obtain ⟨_, -, h4⟩ := weight_mul_ok_iff.1 h4
  cases h4
  refine fine_cons ((fine_get _ _).bind fun _ _ => (fine_get _ _).bind fun _ _ => fine_ok _) fun v5 s5 h5 => ?_
  obtain ⟨_, -, h5⟩ := weight_ok_iff.1 h5
  cases h5
  refine fine_cons (fine_ok _) fun v6 s6 h6 => ?_
  cases h6
  refine fine_cons (fine_thermal hs ?_) fun v7 s7 h7 => ?_
  · rintro l - o ho
    cases ho
    exact fine_div (v := r) (by simp [Dict.get?_set])
  obtain ⟨_, _, _, -, -, -, h7⟩ := div_ok_iff.1 h7
  cases h7
  refine fine_cons (fine_link hs ?_) fun v8 s8 h8 => ?_
  · rintro l - o ho
    cases ho
    exact fine_div (v := m) (by simp [Dict.get?_set])
  obtain ⟨_, _, _, -, -, -, h8⟩ := div_ok_iff.1 h8
  cases h8
  refine fine_cons (fine_thermal hs ?_) fun v9 s9 h9 => ?_
  · rintro l - o ho
    cases ho
    exact fine_div (v := w) (by simp [Dict.get?_set])
  refine fine_cons (fine_link hs ?_) fun v10 s10 h10 => fine_ok _
  rintro l - o ho
  cases ho

/-! ## All areas -/

theorem convertTemplates_ok {st : AStudy} (hk : KeysAreIds st) (as : List AArea) : ∀ {s s' : BState} {c : Converted},
    convertTemplates st batteryTemplate "${area}" as s = .ok (s', c) →
    ∃ done rest, as = done ++ rest ∧ (∃ fs, s'.files = s.files ++ fs) ∧
      List.Forall₂ (fun a x => ∃ d m, BatteryOf st a.id d ∧ pyMaximum d.injection = .ok m ∧ IsBattery st a.id d m x ∧
        ∀ f ∈ batteryFiles st a.id d m, f ∈ s'.files) done c.components ∧
      c.connections = done.map (fun a => ⟨"battery_" ++ a.id, "injection_port", a.id, "balance_port"⟩) ∧
      ∀ a, rest.head? = some a → ¬ ∃ d, BatteryOf st a.id d := by
  induction as with
  | nil =>
    intro s s' c h
    cases h
    exact ⟨[], [], rfl, ⟨[], by simp⟩, .nil, rfl, by simp⟩
  | cons a as ih =>
    intro s s' c h
    rw [convertTemplates] at h
    cases hv : convertValues st (batteryTemplate.componentParams.map (·.subst fun s => pyReplace s "${area}" a.id)) s with
    | mk s1 r =>
    simp only [hv] at h
    cases r with
    | error e =>
      dsimp only at h
      cases he : e.isSkipped with
      | false => rw [he] at h; cases h
      | true =>
        rw [he] at h
        cases h
        have hf := convertValues_files (batteryTemplate.componentParams.map (·.subst fun s => pyReplace s "${area}" a.id)) hv
        refine ⟨[], a :: as, rfl, hf, .nil, rfl, ?_⟩
        intro b hb
        cases hb
        exact battery_skipped hk hv he
    | ok ps =>
      dsimp only at h
      obtain ⟨⟨s2, c2⟩, h2, h⟩ := bind_ok_iff.1 h
      cases h
      obtain ⟨done, rest, e1, ⟨fs, e2⟩, e3, e4, e5⟩ := ih h2
      obtain ⟨d, m, hb, hm, hi, hf, -⟩ := (battery_ok_iff hk).1 hv
      refine ⟨a :: done, rest, by rw [e1]; rfl, ⟨batteryFiles st a.id d m ++ fs, by rw [e2, hf, List.append_assoc]⟩, .cons ?_ e3, ?_, e5⟩
      · refine ⟨d, m, hb, hm, ?_, fun f hf' => ?_⟩
        · rw [battery_id, battery_model]
          exact hi
        · rw [e2, hf]
          simp [hf']
      · simp only [Converted.append, battery_id, List.map_cons, e4]
        rfl

theorem convertTemplates_total {st : AStudy} (hs : SeriesReadable st) (as : List AArea) : ∀ s : BState,
    ∃ r, convertTemplates st batteryTemplate "${area}" as s = .ok r := by
  induction as with
  | nil => exact fun s => ⟨_, rfl⟩
  | cons a as ih =>
    intro s
    rw [convertTemplates]
    have hf := battery_fine hs a.id s
    revert hf
    generalize convertValues st _ s = q
    intro hf
    obtain ⟨s1, r⟩ := q
    rcases hf with ⟨v, hv⟩ | ⟨e, hv, he⟩
    · simp only at hv
      subst hv
      obtain ⟨⟨s2, c2⟩, h2⟩ := ih s1
      dsimp only
      rw [h2]
      exact ⟨_, rfl⟩
    · simp only at hv
      subst hv
      dsimp only
      rw [he]
      exact ⟨_, rfl⟩

theorem validAreas_eq {st : AStudy} (hk : KeysAreIds st) :
    validAreas st batteryTemplate = st.areas.values.filter fun a => a.id ≠ "z_batteries" ∧ a.id ≠ "z_batteries_pcomp" := by
  have hf : validAreas st batteryTemplate = (st.areas.filter fun x => !["z_batteries", "z_batteries_pcomp"].contains x.1).map (·.2) := rfl
  rw [hf]
  unfold Dict.values
  unfold KeysAreIds at hk
  generalize st.areas = l at hk
  induction l with
  | nil => rfl
  | cons x l ih =>
    have h := hk x.1 x.2 (by simp)
    have ih := ih fun k a hm => hk k a (by simp [hm])
    have he : (!["z_batteries", "z_batteries_pcomp"].contains x.1) = decide (x.2.id ≠ "z_batteries" ∧ x.2.id ≠ "z_batteries_pcomp") := by
      rw [← h]
      simp
    rw [List.filter_cons, List.map_cons, List.filter_cons, he]
    split_ifs
    · rw [List.map_cons, ih]
    · exact ih

end Verif
