import Verif.Props.Pypsa
import Verif.Lemmas.StudyMeaning
import Verif.Spec.PypsaProblem
import Verif.Spec.ShippedComplete

/-!
# The study that a PyPSA network is converted to
-/

namespace Verif
open Verif.Props

/-- how a type is converted -/
def PType.kind : PType → PKind
  | .generators => pypsaKinds[0]
  | .loads => pypsaKinds[1]
  | .buses => pypsaKinds[2]
  | .links => pypsaKinds[3]
  | .storageUnits => pypsaKinds[4]
  | .stores => pypsaKinds[5]

theorem PType.kind_mem (ty : PType) : ty.kind ∈ pypsaKinds := by cases ty <;> exact List.getElem_mem _
theorem PType.kind_ty (ty : PType) : ty.kind.ty = ty := by cases ty <;> rfl
theorem PType.kind_suffix (ty : PType) : ty.kind.suffix = ty.suffix := by cases ty <;> rfl

theorem kind_of_mem {k : PKind} (hk : k ∈ pypsaKinds) : k = k.ty.kind := by
  simp only [pypsaKinds, List.mem_cons, List.not_mem_nil, or_false] at hk
  rcases hk with rfl | rfl | rfl | rfl | rfl | rfl <;> rfl

/-- the rules of the model of a type -/
def PType.rules : PType → Rules
  | .generators => Rules.generator
  | .loads => Rules.pypsaLoad
  | .buses => Rules.bus
  | .links => Rules.pypsaLink
  | .storageUnits => Rules.storageUnit
  | .stores => Rules.store

theorem PType.named (ty : PType) : Rules.named ("pypsa_models." ++ ty.kind.model) = some ty.rules := by cases ty <;> rfl

/-- the hypotheses on a network and its conversion -/
structure PConverted (pf : String → Option Num) (n : PNetwork) (T : Nat) (s : PStudy) : Prop where
  tables : n.Tables
  names : DistinctNames n
  buses : BusesExist n
  series : SeriesExist n
  data : n.SoundData pf T
  ok : pypsaConvert pf n = .ok s

theorem atPos_mem {α} {l : List α} {i : Int} {x : α} (h : atPos l i = some x) : x ∈ l := by
  unfold atPos at h
  split at h
  · exact List.mem_of_getElem? h
  · cases h

namespace PConverted
variable {pf : String → Option Num} {n : PNetwork} {T : Nat} {s : PStudy}

theorem study (h : PConverted pf n T s) : IsStudy pf n s := convert_isStudy h.tables h.ok

theorem declared (h : PConverted pf n T s) : (s.input T).declared = s.system.components := by
  unfold StudyInput.declared PStudy.input
  rw [h.study.nodes, List.nil_append]

theorem of_line (h : PConverted pf n T s) (ty : PType) {r : PLine} (hr : r ∈ (n.table ty).rows) :
    ∃ c ∈ (s.input T).declared, IsPypsaComponent pf n ty.kind r c := by
  obtain ⟨parts, limits, h1, h2, -⟩ := h.study.components
  obtain ⟨cs, hcs, h3⟩ := forall₂_left h2 ty.kind_mem
  rw [ty.kind_ty] at h3
  obtain ⟨c, hc, h4⟩ := forall₂_left h3 hr
  refine ⟨c, ?_, h4⟩
  rw [h.declared, h1]
  exact List.mem_append_left _ (List.mem_flatten.2 ⟨cs, hcs, hc⟩)

theorem of_limit (h : PConverted pf n T s) {r : PLine} (hr : r ∈ n.globalConstraints.rows) :
    ∃ c ∈ (s.input T).declared, IsEmissionLimit r c := by
  obtain ⟨parts, limits, h1, -, h2⟩ := h.study.components
  obtain ⟨c, hc, h4⟩ := forall₂_left h2 hr
  refine ⟨c, ?_, h4⟩
  rw [h.declared, h1]
  exact List.mem_append_right _ hc

theorem of_declared (h : PConverted pf n T s) {c : InputComponent} (hc : c ∈ (s.input T).declared) :
    (∃ ty, ∃ r ∈ (n.table ty).rows, IsPypsaComponent pf n ty.kind r c) ∨ ∃ r ∈ n.globalConstraints.rows, IsEmissionLimit r c := by
  obtain ⟨parts, limits, h1, h2, h3⟩ := h.study.components
  rw [h.declared, h1, List.mem_append] at hc
  rcases hc with hc | hc
  · obtain ⟨cs, hcs, hc⟩ := List.mem_flatten.1 hc
    obtain ⟨k, hk, h4⟩ := forall₂_right h2 hcs
    obtain ⟨r, hr, h5⟩ := forall₂_right h4 hc
    rw [kind_of_mem hk] at h5
    exact .inl ⟨k.ty, r, hr, h5⟩
  · exact .inr (forall₂_right h3 hc)

theorem seriesOf_iff (h : PConverted pf n T s) {ty : PType} {a id : String} {vs : List Num} :
    HasSeries n ty a id vs ↔ n.seriesOf ty a id = some vs := by
  unfold HasSeries PNetwork.seriesOf
  constructor
  · rintro ⟨cols, h1, h2⟩
    rw [h1]
    exact Dict.get?_of_mem (h.data.labels ty a cols h1) h2
  · intro h1
    obtain ⟨cols, h2, h3⟩ := Option.bind_eq_some_iff.1 h1
    exact ⟨cols, h2, Dict.mem_of_get? h3⟩

/-- what a parameter of a converted component is -/
theorem entry (h : PConverted pf n T s) {ty : PType} {r : PLine} (hr : r ∈ (n.table ty).rows) {a : String × String} (ha : a ∈ ty.kind.params)
    {p : InputParam} (hp : IsPypsaParam pf n ty.kind r.1 r.2 a p) :
    (n.seriesOf ty a.1 r.1 = none ∧ p.timeDependent = false ∧ ∃ c v, sourceCell n ty.kind.capacity r.2 a.1 = some c ∧ c.reads pf = some v ∧
      p.value = .number (clampNum v) ∧ (clampNum v).isFin = true) ∨
    ∃ vs nm, n.seriesOf ty a.1 r.1 = some vs ∧ p.timeDependent = true ∧ p.value = .name nm ∧ s.load nm = .ok ⟨1, vs.map fun v => [v]⟩ ∧
      T ≤ vs.length ∧ (∀ v ∈ vs, v.isFin = true) ∧ a.1 ∈ PNetwork.varyingAttrs := by
  have hp' := hp.2.2.2
  rw [ty.kind_ty] at hp'
  rcases hp' with ⟨⟨vs, hv⟩, ht, hval⟩ | ⟨hno, ht, c, v, hc, hcv, hval⟩
  · refine .inr ⟨vs, _, h.seriesOf_iff.1 hv, ht, hval, ?_, ?_⟩
    · have hf := fun vs => c45_files h.tables h.names h.series h.ok ty.kind_mem (r := r) (by rw [ty.kind_ty]; exact hr) ha hp hval vs
      rw [ty.kind_ty] at hf
      unfold PStudy.load
      have : Dict.get? s.files (n.name ++ "_" ++ (r.1 ++ ty.kind.suffix) ++ "_" ++ a.1) = some vs := by
        obtain ⟨vs', hvs'⟩ := Dict.mem_keys_iff.1 (List.mem_map.2 ⟨_, (hf vs).2 hv, rfl⟩)
        have h2 := (hf vs').1 (Dict.mem_of_get? hvs')
        rw [hvs']
        rw [h.seriesOf_iff] at h2 hv
        rw [← h2, hv]
      rw [this]
    · have := h.data.series ty.kind ty.kind_mem a ha r.1 vs (by rw [ty.kind_ty]; exact hv)
      exact this
  · refine .inl ⟨?_, ht, c, v, hc, hcv, hval, ?_⟩
    · cases hs : n.seriesOf ty a.1 r.1 with
      | none => rfl
      | some vs => exact absurd ⟨vs, h.seriesOf_iff.2 hs⟩ hno
    · have := h.data.numbers ty.kind ty.kind_mem r (by rw [ty.kind_ty]; exact hr) a ha c hc
      rw [hcv] at this
      cases v with
      | nan => exact absurd rfl this
      | _ => rfl

theorem params_mem {k : PKind} {r : PLine} {c : InputComponent} (hc : IsPypsaComponent pf n k r c) {p : InputParam} (hp : p ∈ c.parameters) :
    ∃ a ∈ k.params, IsPypsaParam pf n k r.1 r.2 a p := forall₂_right hc.2.2.2 hp

theorem params_ids {k : PKind} {r : PLine} {c : InputComponent} (hc : IsPypsaComponent pf n k r c) :
    c.parameters.map (·.id) = k.params.map (·.2) := by
  have := hc.2.2.2
  generalize k.params = l at this
  generalize c.parameters = ps at this
  induction this with
  | nil => rfl
  | cons h _ ih => rw [List.map_cons, List.map_cons, ih, h.1]

theorem params_nodup (ty : PType) : (ty.kind.params.map (·.2)).Nodup := by cases ty <;> decide

theorem varying_ok (ty : PType) : ∀ a ∈ ty.kind.params, a.1 ∈ PNetwork.varyingAttrs → ∀ q ∈ ty.rules.parameters, q.1 = a.2 → q.2.1 = true := by
  cases ty <;> decide

theorem model_of {ty : PType} {r : PLine} {c : InputComponent} (hc : IsPypsaComponent pf n ty.kind r c) : Rules.named c.model = some ty.rules := by
  rw [hc.2.1, ty.named]

theorem limit_rules {r : PLine} {c : InputComponent} (hc : IsEmissionLimit r c) :
    ∃ R, Rules.named c.model = some R ∧ (R = Rules.co2Max ∨ R = Rules.co2Eq) := by
  rcases hc.2.2.1 with ⟨-, hm⟩ | ⟨-, hm⟩ <;> rw [hm]
  · exact ⟨_, rfl, .inl rfl⟩
  · exact ⟨_, rfl, .inr rfl⟩

theorem limit_param (h : PConverted pf n T s) {r : PLine} (hr : r ∈ n.globalConstraints.rows) {c : InputComponent} (hc : IsEmissionLimit r c) :
    ∃ q, r.2.get? "constant" = some (.num (.fin q)) ∧ c.parameters = [{ id := "quota", value := .number (.fin q) }] := by
  obtain ⟨q, hq⟩ := h.data.limits r hr
  obtain ⟨k, v, h1, h2, h3⟩ := hc.2.2.2
  rw [hq] at h1
  cases h1
  rw [h3 _ rfl] at h2
  exact ⟨q, hq, h2⟩

theorem sound (h : PConverted pf n T s) : (s.input T).Sound where
  ids := by
    rw [h.declared]
    exact c45_names_partial h.tables h.names h.ok
  parameters := by
    intro c hc
    rcases h.of_declared hc with ⟨ty, r, hr, hc⟩ | ⟨r, hr, hc⟩
    · rw [params_ids hc]
      exact params_nodup ty
    · obtain ⟨q, -, hp⟩ := h.limit_param hr hc
      rw [hp]
      exact List.nodup_singleton _
  tables := by
    intro nm f hf
    unfold PStudy.input PStudy.load at hf
    simp only at hf
    split at hf
    · cases hf
      intro row hrow
      obtain ⟨v, -, rfl⟩ := List.mem_map.1 hrow
      rfl
    · cases hf
  finite := by
    intro c hc p hp t sc v hv
    rcases h.of_declared hc with ⟨ty, r, hr, hc⟩ | ⟨r, hr, hc⟩
    · obtain ⟨a, ha, hp⟩ := params_mem hc hp
      rcases h.entry hr ha hp with ⟨-, -, c', v', -, -, hval, hfin⟩ | ⟨vs, nm, -, -, hval, hl, -, hfin, -⟩
      · unfold declaredEntry at hv
        rw [hval] at hv
        cases hv
        exact hfin
      · unfold declaredEntry at hv
        rw [hval] at hv
        simp only [PStudy.input, hl] at hv
        obtain ⟨row, h1, h2⟩ := Option.bind_eq_some_iff.1 hv
        obtain ⟨w, hw, rfl⟩ := List.mem_map.1 (atPos_mem h1)
        have : v ∈ [w] := atPos_mem h2
        rw [List.mem_singleton.1 this]
        exact hfin w hw
    · obtain ⟨q, -, hq⟩ := h.limit_param hr hc
      rw [hq] at hp
      rw [List.mem_singleton.1 hp] at hv
      cases hv
      rfl
  block := by
    have := h.data.snapshots
    intro h0
    have := congrArg List.length h0
    simp [PStudy.input] at this
    omega
  steps := by
    intro t ht
    obtain ⟨i, -, rfl⟩ := List.mem_map.1 ht
    exact Int.natCast_nonneg i
  scenarios := Nat.one_pos
  varying := by
    intro c hc p hp R hR q hq hqp
    rcases h.of_declared hc with ⟨ty, r, hr, hc⟩ | ⟨r, hr, hc⟩
    · rw [model_of hc] at hR
      cases hR
      obtain ⟨a, ha, hp⟩ := params_mem hc hp
      refine ⟨fun ht => ?_, fun hs => ?_⟩
      · rcases h.entry hr ha hp with ⟨-, h0, -⟩ | ⟨vs, nm, -, -, -, -, -, -, hva⟩
        · rw [h0] at ht; cases ht
        · exact varying_ok ty a ha hva q hq (hqp.trans hp.1)
      · rw [hp.2.1] at hs; cases hs
    · obtain ⟨q, -, hq⟩ := h.limit_param hr hc
      rw [hq] at hp
      rw [List.mem_singleton.1 hp]
      exact ⟨fun h => (by cases h), fun h => (by cases h)⟩

/-! ## Values of parameters -/

open Classical in
/-- the value that the converter takes for an attribute -/
noncomputable def used (pf : String → Option Num) (n : PNetwork) (ty : PType) (r : PLine) (a : String) (t : Nat) : ℚ :=
  match n.seriesOf ty a r.1 with
  | some vs => (vs.getD t .nan).toQ
  | none => cellValue pf (sourceCell n ty.kind.capacity r.2 a)

theorem component?_line (h : PConverted pf n T s) (ty : PType) {r : PLine} (hr : r ∈ (n.table ty).rows) :
    ∃ c, (s.input T).component? (r.1 ++ ty.suffix) = some c ∧ IsPypsaComponent pf n ty.kind r c ∧ c ∈ (s.input T).declared := by
  obtain ⟨c, hc, h1⟩ := h.of_line ty hr
  refine ⟨c, ?_, h1, hc⟩
  rw [← ty.kind_suffix, ← h1.1]
  exact StudyInput.component?_of_mem h.sound hc

theorem component?_limit (h : PConverted pf n T s) {r : PLine} (hr : r ∈ n.globalConstraints.rows) :
    ∃ c, (s.input T).component? r.1 = some c ∧ IsEmissionLimit r c ∧ c ∈ (s.input T).declared := by
  obtain ⟨c, hc, h1⟩ := h.of_limit hr
  refine ⟨c, ?_, h1, hc⟩
  rw [← h1.1]
  exact StudyInput.component?_of_mem h.sound hc

theorem rulesOf_line (h : PConverted pf n T s) (ty : PType) {r : PLine} (hr : r ∈ (n.table ty).rows) :
    (s.input T).rulesOf (r.1 ++ ty.suffix) = some ty.rules := by
  obtain ⟨c, h1, h2, -⟩ := h.component?_line ty hr
  unfold StudyInput.rulesOf
  rw [h1]
  exact model_of h2

theorem length_steps : (s.input T).steps.length = T := by simp [PStudy.input]

theorem step_eq {t : Nat} (ht : t < T) : (s.input T).step t = t := by
  unfold StudyInput.step
  rw [length_steps, Int.emod_eq_of_lt (Int.natCast_nonneg t) (by exact_mod_cast ht), Int.toNat_natCast]
  simp [PStudy.input, ht]

theorem entry_eq (h : PConverted pf n T s) {ty : PType} {r : PLine} (hr : r ∈ (n.table ty).rows) {a : String × String} (ha : a ∈ ty.kind.params)
    {p : InputParam} (hp : IsPypsaParam pf n ty.kind r.1 r.2 a p) {t : Nat} (ht : t < T) :
    ∃ v, declaredEntry s.load p t 0 = some v ∧ v.toQ = used pf n ty r a.1 t := by
  unfold used
  rcases h.entry hr ha hp with ⟨hs, -, c, v, hc, hv, hval, -⟩ | ⟨vs, nm, hs, htd, hval, hl, hlen, -, -⟩
  · rw [hs]
    refine ⟨clampNum v, ?_, ?_⟩
    · unfold declaredEntry
      rw [hval]
    · simp only [cellValue, hc, Option.bind_some, hv]
  · rw [hs]
    have hlt : t < vs.length := by omega
    refine ⟨vs[t], ?_, ?_⟩
    · unfold declaredEntry
      rw [hval]
      simp only [hl, htd, hp.2.1]
      simp [atPos, hlt]
    · simp [hlt]

theorem parameter_eq (h : PConverted pf n T s) {ty : PType} {r : PLine} (hr : r ∈ (n.table ty).rows) {a : String × String}
    (ha : a ∈ ty.kind.params) {t : Nat} (ht : t < T) :
    (s.input T).parameter (r.1 ++ ty.suffix) a.2 t 0 = used pf n ty r a.1 t := by
  obtain ⟨c, h1, h2, h3⟩ := h.component?_line ty hr
  obtain ⟨p, hp, hpa⟩ := forall₂_left h2.2.2.2 ha
  have hf := find?_of_nodup (f := InputParam.id) (h.sound.parameters c h3) hp
  unfold StudyInput.parameter
  rw [h1, Option.bind_some]
  rw [hpa.1] at hf
  rw [hf]
  obtain ⟨v, hv, hq⟩ := h.entry_eq hr ha hpa ht
  simp only [step_eq ht]
  show ((declaredEntry s.load p t 0).map Num.toQ).getD 0 = _
  rw [hv]
  exact hq

theorem quota_eq (h : PConverted pf n T s) {r : PLine} (hr : r ∈ n.globalConstraints.rows) {q : ℚ}
    (hq : r.2.get? "constant" = some (.num (.fin q))) (t : Int) : (s.input T).parameter r.1 "quota" t 0 = q := by
  obtain ⟨c, h1, h2, h3⟩ := h.component?_limit hr
  obtain ⟨q', h4, h5⟩ := h.limit_param hr h2
  rw [hq] at h4
  cases h4
  unfold StudyInput.parameter
  rw [h1, Option.bind_some, h5]
  rfl

theorem series_none (h : PConverted pf n T s) {ty : PType} {a : String × String} (ha : a ∈ ty.kind.params)
    (hv : a.1 ∉ PNetwork.varyingAttrs) (id : String) : n.seriesOf ty a.1 id = none := by
  cases hs : n.seriesOf ty a.1 id with
  | none => rfl
  | some vs =>
    refine absurd (h.data.series ty.kind ty.kind_mem a ha id vs ?_).2.2 hv
    rw [ty.kind_ty]
    exact h.seriesOf_iff.2 hs

theorem attr_const (h : PConverted pf n T s) {ty : PType} {a : String × String} (ha : a ∈ ty.kind.params)
    (hv : a.1 ∉ PNetwork.varyingAttrs) (r : PLine) (t : Nat) : n.attr pf ty r a.1 t = cellValue pf (r.2.get? a.1) := by
  unfold PNetwork.attr
  rw [h.series_none ha hv]

/-- the attribute is used as it is given -/
def plain (ty : PType) (a : String) : Bool :=
  match ty.kind.capacity with
  | none => true
  | some capa => a != "co2_emissions" && a != capa ++ "_min" && a != capa ++ "_max" && a != "capital_cost"

theorem used_plain {ty : PType} {a : String} (ha : plain ty a = true) (r : PLine) (t : Nat) : used pf n ty r a t = n.attr pf ty r a t := by
  unfold used PNetwork.attr
  have : sourceCell n ty.kind.capacity r.2 a = r.2.get? a := by
    unfold plain at ha
    unfold sourceCell
    split at ha
    · next h => rw [h]
    · next capa h =>
      rw [h]
      simp only [Bool.and_eq_true, bne_iff_ne] at ha
      obtain ⟨⟨⟨h1, h2⟩, h3⟩, h4⟩ := ha
      simp only [if_neg h1]
      rw [if_neg (by rintro ⟨-, h | h⟩ <;> contradiction), if_neg (by rintro ⟨-, h⟩; contradiction)]
  rw [this]
  rfl

open Classical in
theorem used_bound (h : PConverted pf n T s) {ty : PType} {capa : String} (hc : ty.kind.capacity = some capa) {e : String}
    (he : e = "_min" ∨ e = "_max") (r : PLine) (t : Nat) :
    used pf n ty r (capa ++ e) t = if Fixed capa r.2 then cellValue pf (r.2.get? capa) else cellValue pf (r.2.get? (capa ++ e)) := by
  have key : ∀ e, e = "_min" ∨ e = "_max" → (capa ++ e, capa ++ e) ∈ ty.kind.params ∧ capa ++ e ∉ PNetwork.varyingAttrs ∧
      capa ++ e ≠ "co2_emissions" ∧ capa ++ e ≠ "capital_cost" := by
    rintro e (rfl | rfl) <;> cases ty <;> cases hc <;> decide
  obtain ⟨h1, h2, h3, h4⟩ := key e he
  unfold used
  rw [h.series_none (a := (capa ++ e, capa ++ e)) h1 h2, hc]
  simp only [sourceCell, if_neg h3]
  have : (capa ++ e = capa ++ "_min" ∨ capa ++ e = capa ++ "_max") := by
    rcases he with rfl | rfl
    · exact .inl rfl
    · exact .inr rfl
  by_cases hf : Fixed capa r.2
  · rw [if_pos ⟨hf, this⟩, if_pos hf]
  · rw [if_neg (fun h => hf h.1), if_neg (fun h => hf h.1), if_neg hf]

open Classical in
theorem used_capital (h : PConverted pf n T s) {ty : PType} {capa : String} (hc : ty.kind.capacity = some capa) (r : PLine) (t : Nat) :
    used pf n ty r "capital_cost" t = if Fixed capa r.2 then 0 else cellValue pf (r.2.get? "capital_cost") := by
  have key : ("capital_cost", "capital_cost") ∈ ty.kind.params ∧ "capital_cost" ≠ capa ++ "_min" ∧ "capital_cost" ≠ capa ++ "_max" := by
    cases ty <;> cases hc <;> decide
  unfold used
  rw [h.series_none key.1 (by decide), hc]
  simp only [sourceCell, if_neg (show "capital_cost" ≠ "co2_emissions" by decide)]
  by_cases hf : Fixed capa r.2
  · simp [hf, key.2.1, key.2.2, cellValue, Cell.reads, clampNum]
    rfl
  · simp [hf]

theorem used_emission (h : PConverted pf n T s) {ty : PType} {capa : String} (hc : ty.kind.capacity = some capa)
    (ha : ("co2_emissions", "emission_factor") ∈ ty.kind.params) (r : PLine) (t : Nat) :
    used pf n ty r "co2_emissions" t = cellValue pf ((carrierOf r.2).map (emissionsOf n)) := by
  unfold used
  rw [h.series_none ha (by decide), hc]
  simp [sourceCell]

end PConverted
end Verif
