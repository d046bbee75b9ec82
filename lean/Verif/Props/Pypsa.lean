import Verif.Lemmas.PypsaAccept

/-!
# Conversion of PyPSA networks (C45)

The specification is in `Spec/Pypsa.lean`: `IsStudy` says which components, parameters, connections and files the study has,
`SupportedKind` and `Convertible` which networks can be converted, `allIds` the names of the components of the study.
-/

namespace Verif.Props

open Verif

/-! ## Numbers -/

/-- **C45.** A number becomes its nearest number of `[-1e20, 1e20]`: numbers of this range are kept, others become the bound; what cannot
be read as a number is refused. -/
theorem c45_clamp (pf : String → Option Num) (c : Cell) :
    (∀ q, c.reads pf = some (.fin q) → -(10 ^ 20) ≤ q → q ≤ 10 ^ 20 → anyToFloat pf c = .ok (.fin q)) ∧
    (∀ q, c.reads pf = some (.fin q) → 10 ^ 20 ≤ q → anyToFloat pf c = .ok (.fin (10 ^ 20))) ∧
    (∀ q, c.reads pf = some (.fin q) → q ≤ -(10 ^ 20) → anyToFloat pf c = .ok (.fin (-(10 ^ 20)))) ∧
    (c.reads pf = some .pinf → anyToFloat pf c = .ok (.fin (10 ^ 20))) ∧
    (c.reads pf = some .ninf → anyToFloat pf c = .ok (.fin (-(10 ^ 20)))) ∧
    (c.reads pf = none → ∃ m, anyToFloat pf c = .error (.typeError m)) := by
  refine ⟨?_, ?_, ?_, ?_, ?_, ?_⟩
  · intro q h h1 h2
    exact anyToFloat_ok_iff.2 ⟨_, h, by rw [clampNum, min_eq_left h2, max_eq_right h1]⟩
  · intro q h h1
    exact anyToFloat_ok_iff.2 ⟨_, h, by rw [clampNum, min_eq_right h1, max_eq_right (by norm_num)]⟩
  · intro q h h1
    exact anyToFloat_ok_iff.2 ⟨_, h, by rw [clampNum, max_eq_left (le_trans (min_le_left _ _) h1)]⟩
  · exact fun h => anyToFloat_ok_iff.2 ⟨_, h, rfl⟩
  · exact fun h => anyToFloat_ok_iff.2 ⟨_, h, rfl⟩
  · intro h
    unfold anyToFloat
    rw [Cell.toFloat_eq, h]
    exact ⟨_, rfl⟩

/-- **C45.** Results are in the range (unless the number is `nan`), the order of numbers is kept, and a second conversion changes nothing. -/
theorem c45_clamp_range (pf : String → Option Num) :
    (∀ c v, anyToFloat pf c = .ok v → v = .nan ∨ ∃ q, v = .fin q ∧ -(10 ^ 20) ≤ q ∧ q ≤ 10 ^ 20) ∧
    (∀ a b va vb x y, a.reads pf = some x → b.reads pf = some y → x.le y = true → anyToFloat pf a = .ok va → anyToFloat pf b = .ok vb →
      va.le vb = true) ∧
    (∀ c v, anyToFloat pf c = .ok v → anyToFloat pf (.num v) = .ok v) := by
  have hr : ∀ v, clampNum v = .nan ∨ ∃ q, clampNum v = .fin q ∧ -(10 ^ 20) ≤ q ∧ q ≤ 10 ^ 20 := by
    intro v
    cases v with
    | nan => exact .inl rfl
    | pinf => exact .inr ⟨_, rfl, by norm_num, le_refl _⟩
    | ninf => exact .inr ⟨_, rfl, le_refl _, by norm_num⟩
    | fin q => exact .inr ⟨_, rfl, le_max_left _ _, max_le (by norm_num) (min_le_right _ _)⟩
  refine ⟨?_, ?_, ?_⟩
  · intro c v h
    obtain ⟨x, -, rfl⟩ := anyToFloat_ok_iff.1 h
    exact hr x
  · intro a b va vb x y ha hb hle h1 h2
    obtain ⟨x', hx, rfl⟩ := anyToFloat_ok_iff.1 h1
    obtain ⟨y', hy, rfl⟩ := anyToFloat_ok_iff.1 h2
    rw [ha] at hx
    rw [hb] at hy
    cases hx
    cases hy
    have hbd : (-(10 ^ 20) : ℚ) ≤ 10 ^ 20 := by norm_num
    cases x with
    | nan => cases hle
    | pinf =>
      cases y with
      | pinf => simp [clampNum, Num.le_fin]
      | _ => cases hle
    | ninf =>
      cases y with
      | nan => cases hle
      | pinf => simpa [clampNum, Num.le_fin] using hbd
      | ninf => simp [clampNum, Num.le_fin]
      | fin q => simp only [clampNum, Num.le_fin]; exact le_max_left _ _
    | fin p =>
      cases y with
      | nan => cases hle
      | pinf => simp only [clampNum, Num.le_fin]; exact max_le hbd (min_le_right _ _)
      | ninf => cases hle
      | fin q =>
        rw [Num.le_fin] at hle
        simp only [clampNum, Num.le_fin]
        exact max_le_max le_rfl (min_le_min hle le_rfl)
  · intro c v h
    obtain ⟨x, -, rfl⟩ := anyToFloat_ok_iff.1 h
    refine anyToFloat_ok_iff.2 ⟨_, rfl, ?_⟩
    rcases hr x with hx | ⟨q, hx, h1, h2⟩
    · rw [hx]; rfl
    · rw [hx, clampNum, min_eq_left h2, max_eq_right h1]

/-- What the property says is wrong for `nan`: the number that is written is not in the range. -/
theorem c45_nan_kept (pf : String → Option Num) : anyToFloat pf (.num .nan) = .ok .nan := rfl

/-! ## The study -/

/-- **C45.** The converted study is the one that the specification describes: for each component, its name and model, all parameters in
order, with the time series or the number of the attribute, and one connection for each of its buses; one component for each limit of
emissions, connected to all components that have a carrier; one file for each time series. -/
theorem c45_convert {pf : String → Option Num} {n : PNetwork} (ht : n.Tables) {s : PStudy} (h : pypsaConvert pf n = .ok s) :
    IsStudy pf n s := convert_isStudy ht h

/-- **C45.** The networks that are converted are exactly those of the supported kind whose data can be read. -/
theorem c45_accepts {pf : String → Option Num} {n : PNetwork} (ht : n.Tables) :
    (∃ s, pypsaConvert pf n = .ok s) ↔ SupportedKind n ∧ Convertible pf n :=
  ⟨fun ⟨_, h⟩ => ⟨convert_supported h, convert_convertible ht h⟩, fun ⟨h1, h2⟩ => convert_total ht h1 h2⟩

/-! ## Names -/

theorem forall₂_ids {pf : String → Option Num} {n : PNetwork} {k : PKind} {rs : List (String × Dict String Cell)} {cs : List InputComponent}
    (h : List.Forall₂ (IsPypsaComponent pf n k) rs cs) : cs.map (·.id) = rs.map fun r => r.1 ++ k.suffix := by
  induction h with
  | nil => rfl
  | cons h _ ih => rw [List.map_cons, List.map_cons, ih, h.1]

theorem forall₂_flat_ids {pf : String → Option Num} {n : PNetwork} {ks : List PKind} {parts : List (List InputComponent)}
    (h : List.Forall₂ (fun k cs => List.Forall₂ (IsPypsaComponent pf n k) (n.table k.ty).rows cs) ks parts) :
    parts.flatten.map (·.id) = ks.flatMap (idsOf n) := by
  induction h with
  | nil => rfl
  | cons h _ ih => rw [List.flatten_cons, List.map_append, ih, forall₂_ids h]; rfl

theorem limit_ids {rs : List (String × Dict String Cell)} {cs : List InputComponent} (h : List.Forall₂ IsEmissionLimit rs cs) :
    cs.map (·.id) = rs.map (·.1) := by
  induction h with
  | nil => rfl
  | cons h _ ih => rw [List.map_cons, List.map_cons, ih, h.1]

/-- **C45.** The components of the study have the names of the specification, in this order. -/
theorem c45_names {pf : String → Option Num} {n : PNetwork} (ht : n.Tables) {s : PStudy} (h : pypsaConvert pf n = .ok s) :
    s.system.components.map (·.id) = allIds n := by
  obtain ⟨parts, limits, h1, h2, h3⟩ := (convert_isStudy ht h).components
  rw [h1, List.map_append, forall₂_flat_ids h2, allIds]
  congr 1
  exact limit_ids h3

theorem suffix_clash {a b s t : String} (hs : s ∈ ["_generator", "_load", "_storage", "_store"])
    (ht : t ∈ ["_generator", "_load", "_storage", "_store"]) (h : a ++ s = b ++ t) : s = t := by
  have h' := congrArg String.toList h
  rw [String.toList_append, String.toList_append] at h'
  have h1 : s.toList <:+ b.toList ++ t.toList := h' ▸ List.suffix_append _ _
  have h2 : t.toList <:+ b.toList ++ t.toList := List.suffix_append _ _
  have key : ∀ s ∈ ["_generator", "_load", "_storage", "_store"], ∀ t ∈ ["_generator", "_load", "_storage", "_store"],
      s.toList <:+ t.toList → s = t := by decide
  rcases le_total s.toList.length t.toList.length with hl | hl
  · exact key s hs t ht (List.suffix_of_suffix_length_le h1 h2 hl)
  · exact (key t ht s hs (List.suffix_of_suffix_length_le h2 h1 hl)).symm

theorem allIds_nodup {n : PNetwork} (hd : DistinctNames n) : (allIds n).Nodup := by
  have hin : ∀ ty (s : String), ((n.table ty).rows.map fun r => r.1 ++ s).Nodup := by
    intro ty s
    have := (hd.within ty).map (f := fun x => x ++ s) fun a b h => append_suffix_inj h
    rwa [List.map_map] at this
  have hplain := hd.plain
  have hno := hd.noSuffix
  have hdis : ∀ ty ty' (s t : String), s ∈ ["_generator", "_load", "_storage", "_store"] → t ∈ ["_generator", "_load", "_storage", "_store"] →
      s ≠ t → ∀ x ∈ (n.table ty).rows.map (fun r => r.1 ++ s), ∀ y ∈ (n.table ty').rows.map (fun r => r.1 ++ t), x ≠ y := by
    intro ty ty' s t hs ht hne x hx y hy hxy
    obtain ⟨a, -, rfl⟩ := List.mem_map.1 hx
    obtain ⟨b, -, rfl⟩ := List.mem_map.1 hy
    exact hne (suffix_clash hs ht hxy)
  have hpl : ∀ ty (s : String), s ∈ ["_generator", "_load", "_storage", "_store"] → ∀ x ∈ (n.table ty).rows.map (fun r => r.1 ++ s),
      ∀ y ∈ (n.table .buses).rows.map (·.1) ++ (n.table .links).rows.map (·.1) ++ n.globalConstraints.rows.map (·.1), x ≠ y := by
    intro ty s hs x hx y hy hxy
    obtain ⟨a, -, rfl⟩ := List.mem_map.1 hx
    subst hxy
    refine hno _ hy s hs ?_
    rw [String.toList_append]
    exact List.suffix_append _ _
  have hstrip : ∀ ty, (n.table ty).rows.map (fun r => r.1 ++ "") = (n.table ty).rows.map (·.1) := by
    intro ty
    refine List.map_congr_left fun r _ => ?_
    simp
  set G := (n.table .generators).rows.map (fun r => r.1 ++ "_generator") with hG
  set L := (n.table .loads).rows.map (fun r => r.1 ++ "_load") with hL
  set S := (n.table .storageUnits).rows.map (fun r => r.1 ++ "_storage") with hS
  set T := (n.table .stores).rows.map (fun r => r.1 ++ "_store") with hT
  set B := (n.table .buses).rows.map (·.1) with hB
  set K := (n.table .links).rows.map (·.1) with hK
  set C := n.globalConstraints.rows.map (·.1) with hC
  have hall : allIds n = G ++ (L ++ (B ++ (K ++ (S ++ T)))) ++ C := by
    simp only [allIds, pypsaKinds, List.flatMap_cons, List.flatMap_nil, List.append_nil, idsOf, hstrip]
    rfl
  rw [hall]
  have hp : (G ++ (L ++ (B ++ (K ++ (S ++ T)))) ++ C).Perm (G ++ (L ++ (S ++ (T ++ (B ++ K ++ C))))) := by
    refine List.perm_iff_count.2 fun a => ?_
    simp only [List.count_append]
    omega
  rw [hp.nodup_iff]
  have m : ∀ s, s ∈ ["_generator", "_load", "_storage", "_store"] ↔ s = "_generator" ∨ s = "_load" ∨ s = "_storage" ∨ s = "_store" := by simp
  have app : ∀ {l l' : List String}, l.Nodup → l'.Nodup → (∀ a ∈ l, ∀ b ∈ l', a ≠ b) → (l ++ l').Nodup := fun h1 h2 h3 =>
    List.nodup_append.2 ⟨h1, h2, h3⟩
  have or2 : ∀ {l l' l'' : List String}, (∀ a ∈ l, ∀ b ∈ l', a ≠ b) → (∀ a ∈ l, ∀ b ∈ l'', a ≠ b) → ∀ a ∈ l, ∀ b ∈ l' ++ l'', a ≠ b := by
    intro l l' l'' h1 h2 a ha b hb
    rcases List.mem_append.1 hb with hb | hb
    · exact h1 a ha b hb
    · exact h2 a ha b hb
  refine app (hin _ _) (app (hin _ _) (app (hin _ _) (app (hin _ _) hplain ?_) ?_) ?_) ?_
  · exact hpl _ _ (by decide)
  · exact or2 (hdis _ _ _ _ (by decide) (by decide) (by decide)) (hpl _ _ (by decide))
  · exact or2 (hdis _ _ _ _ (by decide) (by decide) (by decide)) (or2 (hdis _ _ _ _ (by decide) (by decide) (by decide)) (hpl _ _ (by decide)))
  · exact or2 (hdis _ _ _ _ (by decide) (by decide) (by decide)) (or2 (hdis _ _ _ _ (by decide) (by decide) (by decide))
      (or2 (hdis _ _ _ _ (by decide) (by decide) (by decide)) (hpl _ _ (by decide))))

/-- **C45 (part).** Names of components of the study are distinct if the names of the network do not clash.  Missing: PyPSA accepts a bus
and a link with the same name, see `c45_same_name`. -/
theorem c45_names_partial {pf : String → Option Num} {n : PNetwork} (ht : n.Tables) (hd : DistinctNames n) {s : PStudy}
    (h : pypsaConvert pf n = .ok s) : (s.system.components.map (·.id)).Nodup := by
  rw [c45_names ht h]
  exact allIds_nodup hd

/-! ## Connections -/

/-- **C45.** All connections are between components of the study, if components use buses of the network; the first one of the two is
a bus (port `p_balance_port`) or a limit of emissions. -/
theorem c45_connections {pf : String → Option Num} {n : PNetwork} (ht : n.Tables) (hb : BusesExist n) {s : PStudy}
    (h : pypsaConvert pf n = .ok s) : ∀ x ∈ s.system.connections,
    (∃ c ∈ s.system.components, c.id = x.component1) ∧ (∃ c ∈ s.system.components, c.id = x.component2) ∧
    ((x.component1 ∈ (n.table .buses).rows.map (·.1) ∧ x.port1 = "p_balance_port") ∨
     (x.component1 ∈ n.globalConstraints.rows.map (·.1) ∧ x.port1 = "emission_port" ∧ x.port2 = "emission_port")) := by
  have hids : ∀ id, id ∈ allIds n → ∃ c ∈ s.system.components, c.id = id := by
    intro id hid
    rw [← c45_names ht h] at hid
    obtain ⟨c, hc, he⟩ := List.mem_map.1 hid
    exact ⟨c, hc, he⟩
  have hkind : ∀ k ∈ pypsaKinds, ∀ r ∈ (n.table k.ty).rows, r.1 ++ k.suffix ∈ allIds n := by
    intro k hk r hr
    unfold allIds
    exact List.mem_append_left _ (List.mem_flatMap.2 ⟨k, hk, List.mem_map.2 ⟨r, hr, rfl⟩⟩)
  obtain ⟨parts, h1, h2⟩ := (convert_isStudy ht h).connections
  intro x hx
  rw [h1, List.mem_append] at hx
  rcases hx with hx | hx
  · obtain ⟨ys, hys, hx⟩ := List.mem_flatten.1 hx
    obtain ⟨zs, hzs, hy⟩ := List.mem_flatten.1 hys
    obtain ⟨k, hk, hk2⟩ := forall₂_right h2 hzs
    obtain ⟨b, hb', hb2⟩ := forall₂_right hk2 hy
    obtain ⟨r, hr, hr1, hr2, hr3, -⟩ := forall₂_right hb2 hx
    have hbus := hb k hk b hb' r hr _ hr1
    refine ⟨hids _ ?_, hids _ ?_, .inl ⟨hbus, hr2⟩⟩
    · obtain ⟨r', hr', he⟩ := List.mem_map.1 hbus
      have := hkind pypsaKinds[2] (List.getElem_mem _) r' hr'
      rw [show pypsaKinds[2].suffix = "" from rfl, String.append_empty, he] at this
      exact this
    · rw [hr3]
      exact hkind k hk r hr
  · obtain ⟨r, hr, hx⟩ := List.mem_flatMap.1 hx
    obtain ⟨e, he, rfl⟩ := List.mem_map.1 hx
    have hrm : r.1 ∈ n.globalConstraints.rows.map (·.1) := List.mem_map.2 ⟨r, hr, rfl⟩
    refine ⟨hids _ ?_, hids _ ?_, .inr ⟨hrm, rfl, rfl⟩⟩
    · unfold allIds
      exact List.mem_append_right _ hrm
    · have hem : ∀ k ∈ pypsaKinds, e ∈ emitters n k.ty k.suffix → e ∈ allIds n := by
        intro k hk he
        obtain ⟨r, hr, rfl⟩ := List.mem_map.1 he
        exact hkind k hk r (List.mem_filter.1 hr).1
      unfold allEmitters at he
      rw [List.mem_append, List.mem_append] at he
      rcases he with (he | he) | he
      · exact hem pypsaKinds[0] (List.getElem_mem _) he
      · exact hem pypsaKinds[5] (List.getElem_mem _) he
      · exact hem pypsaKinds[4] (List.getElem_mem _) he

/-! ## Files -/

/-- the attributes that can have a time series -/
def allAttrs : List String := pypsaKinds.flatMap fun k => k.params.map (·.1)

theorem attr_clash {a b x y : String} (hx : x ∈ allAttrs) (hy : y ∈ allAttrs) (h : a ++ "_" ++ x = b ++ "_" ++ y) : x = y ∧ a = b := by
  have key : ∀ x ∈ allAttrs, ∀ y ∈ allAttrs, ("_" ++ x).toList <:+ ("_" ++ y).toList → x = y := by decide +kernel
  have hxy : x = y := by
    have h' := congrArg String.toList h
    rw [String.append_assoc, String.append_assoc, String.toList_append, String.toList_append (t := "_" ++ y)] at h'
    have h1 : ("_" ++ x).toList <:+ b.toList ++ ("_" ++ y).toList := h' ▸ List.suffix_append _ _
    have h2 : ("_" ++ y).toList <:+ b.toList ++ ("_" ++ y).toList := List.suffix_append _ _
    rcases le_total ("_" ++ x).toList.length ("_" ++ y).toList.length with hl | hl
    · exact key x hx y hy (List.suffix_of_suffix_length_le h1 h2 hl)
    · exact (key y hy x hx (List.suffix_of_suffix_length_le h2 h1 hl)).symm
  subst hxy
  exact ⟨rfl, append_suffix_inj (append_suffix_inj h)⟩

theorem kind_of_id {n : PNetwork} (hd : DistinctNames n) {k k' : PKind} (hk : k ∈ pypsaKinds) (hk' : k' ∈ pypsaKinds) {a b : String}
    (ha : a ∈ (n.table k.ty).rows.map (·.1)) (hb : b ∈ (n.table k'.ty).rows.map (·.1)) (h : a ++ k.suffix = b ++ k'.suffix) : k = k' ∧ a = b := by
  have hn := allIds_nodup hd
  unfold allIds at hn
  have hn := (List.nodup_append.1 hn).1
  have mem : ∀ k : PKind, ∀ a, a ∈ (n.table k.ty).rows.map (·.1) → a ++ k.suffix ∈ idsOf n k := by
    intro k a ha
    obtain ⟨r, hr, rfl⟩ := List.mem_map.1 ha
    exact List.mem_map.2 ⟨r, hr, rfl⟩
  have hkk : k = k' := by
    by_contra hne
    have hp := (List.nodup_flatMap.1 hn).2
    have hsym : Std.Symm (Function.onFun List.Disjoint (idsOf n)) := ⟨fun _ _ h => h.symm⟩
    have := hp.forall hk hk' hne
    exact this (mem k a ha) (h ▸ mem k' b hb)
  subst hkk
  exact ⟨rfl, append_suffix_inj h⟩

/-- **C45.** The file that a time dependent parameter names has the time series of the attribute of this component, and no other file has
its name. -/
theorem c45_files {pf : String → Option Num} {n : PNetwork} (ht : n.Tables) (hd : DistinctNames n) (hse : SeriesExist n) {s : PStudy}
    (h : pypsaConvert pf n = .ok s) {k : PKind} (hk : k ∈ pypsaKinds) {r : String × Dict String Cell} (hr : r ∈ (n.table k.ty).rows)
    {a : String × String} (ha : a ∈ k.params) {p : InputParam} (hp : IsPypsaParam pf n k r.1 r.2 a p) {name : String} (hv : p.value = .name name)
    (vs : List Num) : (name, vs) ∈ s.files ↔ HasSeries n k.ty a.1 r.1 vs := by
  have hname : name = n.name ++ "_" ++ (r.1 ++ k.suffix) ++ "_" ++ a.1 := by
    rcases hp.2.2.2 with ⟨-, -, h⟩ | ⟨-, -, c, v, -, -, h⟩
    · rw [hv] at h; cases h; rfl
    · rw [hv] at h; cases h
  rw [(convert_isStudy ht h).files]
  constructor
  · rintro ⟨k', hk', attr, hattr, id, hs, he⟩
    have ha1 : a.1 ∈ allAttrs := List.mem_flatMap.2 ⟨k, hk, List.mem_map.2 ⟨a, ha, rfl⟩⟩
    have ha2 : attr ∈ allAttrs := List.mem_flatMap.2 ⟨k', hk', hattr⟩
    obtain ⟨rfl, h2⟩ := attr_clash ha1 ha2 (hname.symm.trans he)
    have h3 : r.1 ++ k.suffix = id ++ k'.suffix := by
      have := congrArg String.toList h2
      rw [String.toList_append, String.toList_append (t := id ++ k'.suffix)] at this
      exact String.toList_inj.1 (List.append_cancel_left this)
    obtain ⟨rfl, rfl⟩ := kind_of_id hd hk hk' (List.mem_map.2 ⟨r, hr, rfl⟩) (hse _ _ _ _ hs) h3
    exact hs
  · intro hs
    exact ⟨k, hk, a.1, List.mem_map.2 ⟨a, ha, rfl⟩, r.1, hs, hname⟩

/-! ## The network is changed -/

theorem prepared_ids {n : PNetwork} {k : PKind} {rs : List (String × Dict String Cell)} (h : Prepared n k rs) : rs.map (·.1) = idsOf n k := by
  unfold Prepared at h
  unfold idsOf
  generalize (n.table k.ty).rows = a at h
  induction h with
  | nil => rfl
  | cons hx _ ih => rw [List.map_cons, List.map_cons, ih, hx.1]

theorem data_ids {n : PNetwork} {ks : List PKind} {ds : List PComponentData} (h : List.Forall₂ (DataFor n) ks ds) :
    (ds.map fun d => d.constantData.rows.map (·.1)) = ks.map (idsOf n) := by
  induction h with
  | nil => rfl
  | cons hx _ ih => rw [List.map_cons, List.map_cons, ih, prepared_ids hx.rows]

/-- The converter renames the components of the network that it is given: afterwards, all names in its tables are those of the study.  A
second conversion of the same network gives other names. -/
theorem c45_changes_network {n n' : PNetwork} (ht : n.Tables) {ds gs} (h : pypsaInit n = .ok (n', ds, gs)) :
    ((pypsaComponentData n').map fun d => d.constantData.rows.map (·.1)) = pypsaKinds.map (idsOf n) := by
  obtain ⟨-, hds, -⟩ := init_ok ht h
  have hd : ds = pypsaComponentData n' := by
    unfold pypsaInit at h
    obtain ⟨-, h⟩ := unit_bind_iff.1 h
    dsimp only at h
    obtain ⟨_, -, h⟩ := bind_ok_iff.1 h
    obtain ⟨_, -, h⟩ := bind_ok_iff.1 h
    obtain ⟨_, -, h⟩ := bind_ok_iff.1 h
    obtain ⟨_, -, h⟩ := bind_ok_iff.1 h
    obtain ⟨_, -, h⟩ := bind_ok_iff.1 h
    cases h
    rfl
  rw [← hd]
  exact data_ids hds

/-! ## A network

One component of each type on the bus `N`; the load has a time series, the generator emits, its limit is 50. -/

/-- default values -/
def exCell (bus carrier : String) (col : String) : Cell :=
  if col = "carrier" then .str carrier
  else if col = "bus" ∨ col = "bus0" ∨ col = "bus1" then .str bus
  else if col ∈ ["active", "e_cyclic", "cyclic_state_of_charge"] then .bool true
  else if col ∈ ["committable", "p_nom_extendable", "e_nom_extendable"] then .bool false
  else if col ∈ ["p_nom", "e_nom"] then .num (.fin 7)
  else if col ∈ ["p_nom_max", "e_nom_max", "e_sum_max"] then .num .pinf
  else if col = "e_sum_min" then .num .ninf
  else if col ∈ ["sign", "p_max_pu", "e_max_pu", "efficiency"] then .num 1
  else .num 0

/-- a table with these columns -/
def exTable (cell : String → Cell) (columns names : List String) : PTable where
  columns := columns
  rows := names.map fun id => (id, columns.map fun c => (c, cell c))

/-- the columns of a type -/
def exColumns (k : PKind) : List String :=
  (k.params.map (·.1) ++ k.buses.map (·.1)).filter (· ≠ "co2_emissions") ++ ["active", "committable", "marginal_cost_quadratic", "e_cyclic",
    "cyclic_state_of_charge"] ++ (match k.capacity with | some c => [c, c ++ "_extendable", "carrier"] | none => [])

/-- the number of a type in the list of types -/
def exKind : PType → PKind
  | .generators => pypsaKinds[0]
  | .loads => pypsaKinds[1]
  | .buses => pypsaKinds[2]
  | .links => pypsaKinds[3]
  | .storageUnits => pypsaKinds[4]
  | .stores => pypsaKinds[5]

/-- a network with these names; `gas` is a carrier with emissions 5 -/
def exNetwork (names : PType → List String) (cell : PType → String → Cell) (quota : Num) : PNetwork where
  name := "net"
  weightings := [1, 1]
  carriers := ⟨["co2_emissions", "max_growth"], [("gas", [("co2_emissions", .num (.fin 5)), ("max_growth", .num .pinf)])]⟩
  globalConstraints := ⟨["type", "carrier_attribute", "sense", "constant"], [("cap", [("type", .str "primary_energy"),
    ("carrier_attribute", .str "co2_emissions"), ("sense", .str "<="), ("constant", .num quota)])]⟩
  table ty := exTable (cell ty) (exColumns (exKind ty)) (names ty)
  series ty := if ty = .loads then [("p_set", [("D", [.fin 3, .fin 4])])] else []

/-- their names -/
def exNames : PType → List String
  | .generators => ["G"]
  | .loads => ["D"]
  | .buses => ["N"]
  | .links => ["NN"]
  | .storageUnits => ["H"]
  | .stores => ["B"]

/-- their data: only the generator has a carrier -/
def exData : PType → String → Cell := fun ty => exCell "N" (if ty = .generators then "gas" else "")

/-- the network -/
def exNet : PNetwork := exNetwork exNames exData (.fin 50)

theorem get?_table (l : List String) (f : String → Cell) (c : String) :
    Dict.get? (l.map fun x => (x, f x)) c = if c ∈ l then some (f c) else none := by
  induction l with
  | nil => rfl
  | cons x l ih =>
    show (if x = c then some (f x) else Dict.get? (l.map fun x => (x, f x)) c) = _
    rw [ih]
    by_cases h : x = c
    · subst h; simp
    · simp [h, Ne.symm h]

theorem exNetwork_tables (names : PType → List String) (cell : PType → String → Cell) (quota : Num) : (exNetwork names cell quota).Tables := by
  refine ⟨?_, ?_, ?_, ?_, List.mem_cons_self, ?_⟩
  · intro ty r hr col
    obtain ⟨id, -, rfl⟩ := List.mem_map.1 hr
    show (∃ c, Dict.get? ((exColumns (exKind ty)).map _) col = some c) ↔ col ∈ exColumns (exKind ty)
    rw [get?_table]
    by_cases h : col ∈ exColumns (exKind ty) <;> simp [h]
  · intro r hr col
    have : r = ("gas", [("co2_emissions", .num (.fin 5)), ("max_growth", .num .pinf)]) := by simpa [exNetwork] using hr
    subst this
    show (∃ c, (if "co2_emissions" = col then some (Cell.num (.fin 5)) else if "max_growth" = col then some (.num .pinf) else none) = some c) ↔
      col ∈ ["co2_emissions", "max_growth"]
    by_cases h : "co2_emissions" = col
    · subst h; simp
    · by_cases h' : "max_growth" = col
      · subst h'; simp
      · simp [h, h', Ne.symm h, Ne.symm h']
  · show ∀ k ∈ pypsaKinds, ∀ capa, k.capacity = some capa →
      capa ∈ exColumns (exKind k.ty) ∧ capa ++ "_extendable" ∈ exColumns (exKind k.ty) ∧ "carrier" ∈ exColumns (exKind k.ty)
    intro k hk
    simp only [pypsaKinds, List.mem_cons, List.not_mem_nil, or_false] at hk
    rcases hk with rfl | rfl | rfl | rfl | rfl | rfl <;> intro capa hc <;> cases hc <;> decide
  · show ∀ k ∈ pypsaKinds, ∀ a ∈ k.params.map (·.1) ++ k.buses.map (·.1), a ≠ "co2_emissions" → a ∈ exColumns (exKind k.ty)
    decide
  · show ∀ ty, "co2_emissions" ∉ exColumns (exKind ty)
    intro ty
    cases ty <;> decide

/-- It is converted. -/
def exStudy : PStudy :=
  match pypsaConvert (fun _ => none) exNet with
  | .ok s => s
  | .error _ => ⟨{}, []⟩

theorem exStudy_ok : pypsaConvert (fun _ => none) exNet = .ok exStudy := by
  have : (match pypsaConvert (fun _ => none) exNet with | .ok _ => true | .error _ => false) = true := by decide +kernel
  unfold exStudy
  split at this
  · next h => rw [h]
  · cases this

/-- The hypotheses of the theorems above are met. -/
example : exNet.Tables ∧ DistinctNames exNet ∧ BusesExist exNet ∧ SeriesExist exNet := by
  refine ⟨exNetwork_tables _ _ _, ⟨by intro ty; cases ty <;> decide, by decide, by decide⟩, ?_, ?_⟩
  · intro k hk b hb r hr s hs
    have : ∀ k ∈ pypsaKinds, ∀ b ∈ k.buses, ∀ r ∈ (exNet.table k.ty).rows, r.2.get? b.1 = some (.str "N") := by decide +kernel
    rw [this k hk b hb r hr] at hs
    cases hs
    decide
  · rintro ty attr id vs ⟨cols, h1, h2⟩
    cases ty with
    | loads =>
      have : (if "p_set" = attr then some [("D", [Num.fin 3, .fin 4])] else none) = some cols := h1
      split_ifs at this
      cases this
      simp only [List.mem_singleton, Prod.mk.injEq] at h2
      rw [h2.1]
      decide
    | _ => cases h1

/-- names and connections, the files, and the parameters of the generator: capacity 7 at no cost, sum of energy from -1e20 to 1e20, emissions 5 -/
example : exStudy.system.components.map (·.id) = ["G_generator", "D_load", "N", "NN", "H_storage", "B_store", "cap"] ∧
    exStudy.system.connections = [⟨"N", "p_balance_port", "G_generator", "p_balance_port"⟩, ⟨"N", "p_balance_port", "D_load", "p_balance_port"⟩,
      ⟨"N", "p_balance_port", "NN", "p0_port"⟩, ⟨"N", "p_balance_port", "NN", "p1_port"⟩, ⟨"N", "p_balance_port", "H_storage", "p_balance_port"⟩,
      ⟨"N", "p_balance_port", "B_store", "p_balance_port"⟩, ⟨"cap", "emission_port", "G_generator", "emission_port"⟩] ∧
    exStudy.files = [("net_D_load_p_set", [.fin 3, .fin 4])] ∧
    ((exStudy.system.components.head?.map (·.parameters)).getD []).map (fun p => (p.id, p.value)) =
      [("p_nom_min", .number (.fin 7)), ("p_nom_max", .number (.fin 7)), ("p_min_pu", .number 0), ("p_max_pu", .number 1),
       ("marginal_cost", .number 0), ("capital_cost", .number 0), ("e_sum_min", .number (.fin (-(10 ^ 20)))),
       ("e_sum_max", .number (.fin (10 ^ 20))), ("sign", .number 1), ("efficiency", .number 1), ("emission_factor", .number (.fin 5))] := by
  decide +kernel

/-! ## What is wrong in the code -/

/-- some facts about the result of a conversion -/
def study? {α} (n : PNetwork) (f : PStudy → α) : Option α :=
  match pypsaConvert (fun _ => none) n with
  | .ok s => some (f s)
  | .error _ => none

/-- Names of a study are not always distinct: PyPSA accepts a bus and a link with the same name, and a bus `D_load` beside a load `D`. -/
theorem c45_same_name :
    study? (exNetwork (fun ty => if ty = .links then ["N"] else exNames ty) exData (.fin 50)) (fun s => s.system.components.map (·.id)) =
      some ["G_generator", "D_load", "N", "N", "H_storage", "B_store", "cap"] ∧
    study? (exNetwork (fun ty => if ty = .buses then ["D_load", "N"] else exNames ty) exData (.fin 50)) (fun s => s.system.components.map (·.id)) =
      some ["G_generator", "D_load", "D_load", "N", "NN", "H_storage", "B_store", "cap"] := by
  decide +kernel

/-- Connections may name a bus that does not exist: this is not tested. -/
theorem c45_missing_bus :
    study? (exNetwork exNames (fun ty => exCell "M" (if ty = .generators then "gas" else "")) (.fin 50)) (fun s =>
      (s.system.components.map (·.id)).contains "M" || !(s.system.connections.map (·.component1)).contains "M") = some false := by
  decide +kernel

/-- Storage units and stores that are not active are converted as if they were: the test looks at links. -/
theorem c45_inactive_storage :
    study? (exNetwork exNames (fun ty col => if col = "active" ∧ (ty = .storageUnits ∨ ty = .stores) then .bool false else exData ty col)
      (.fin 50)) (fun s => s.system) = some exStudy.system := by
  decide +kernel

/-- A carrier that is not in the table of carriers gives the emission factor `nan`, which is outside the range. -/
theorem c45_unknown_carrier :
    study? (exNetwork exNames (fun _ => exCell "N" "coal") (.fin 50)) (fun s =>
      ((s.system.components.head?.map (·.parameters)).getD []).getLast?.map (·.value)) = some (some (.number .nan)) := by
  decide +kernel

/-- The limit of emissions is not brought into the range. -/
theorem c45_quota_kept :
    study? (exNetwork exNames exData .pinf) (fun s =>
      ((s.system.components.getLast?.map (·.parameters)).getD []).map (·.value)) = some [.number .pinf] := by
  decide +kernel

end Verif.Props
