import Verif.Lemmas.PypsaKept

/-! # The coefficients in the rules and costs of the components of a converted network -/

namespace Verif
open Verif.Props Verif.PNetwork Verif.Expr Verif.OptCtx Verif.Shipped

/-- the model of a type -/
def PType.model : PType → Model
  | .generators => pypsaGeneratorModel
  | .loads => pypsaLoadModel
  | .buses => pypsaBusModel
  | .links => pypsaLinkModel
  | .storageUnits => pypsaStorageUnitModel
  | .stores => pypsaStoreModel

theorem shipped_model (ty : PType) {m : Model} {R : Rules} (h : ("pypsa_models." ++ ty.kind.model, m, R) ∈ shippedModels) : m = ty.model := by
  have key : ∀ x ∈ shippedModels, x.1 = "pypsa_models." ++ ty.kind.model → x.2.1 = ty.model := by
    intro x hx
    simp only [shippedModels, List.mem_cons, List.not_mem_nil, or_false] at hx
    rcases hx with rfl | rfl | rfl | rfl | rfl | rfl | rfl | rfl | rfl | rfl | rfl | rfl | rfl | rfl | rfl | rfl | rfl <;> cases ty <;>
      first
      | exact fun _ => rfl
      | exact fun h => absurd h (by decide)
  exact key _ h rfl

/-- a component of the network that stands for a line of a table -/
structure LineOf (n : PNetwork) (net : Network) (ty : PType) (r : PLine) (c : Component) : Prop where
  line : r ∈ (n.table ty).rows
  mem : c ∈ net.allComponents
  id : c.id = r.1 ++ ty.suffix
  model : c.model = ty.model

namespace PConverted
variable {pf : String → Option Num} {n : PNetwork} {T : Nat} {s : PStudy} {net : Network} {db : DataBase}

theorem component_cases (h : PConverted pf n T s) (hl : (s.input T).Linked net) {c : Component} (hc : c ∈ net.allComponents) :
    (∃ ty r, LineOf n net ty r c) ∨ ∃ r ∈ n.globalConstraints.rows, c.id = r.1 ∧
      (c.model = pypsaGlobalConstraintCo2MaxModel ∨ c.model = pypsaGlobalConstraintCo2EqModel) := by
  obtain ⟨ic, hic, hid, R, hR⟩ := hl.rules hc
  rcases h.of_declared hic with ⟨ty, r, hr, hi⟩ | ⟨r, hr, hi⟩
  · left
    refine ⟨ty, r, hr, hc, ?_, shipped_model ty (R := R) ?_⟩
    · rw [hid, hi.1, ty.kind_suffix]
    · rw [← hi.2.1]
      exact hR
  · right
    refine ⟨r, hr, hid.trans hi.1, ?_⟩
    have key : ∀ x ∈ shippedModels, (x.1 = "pypsa_models.global_constraint_co2_max" → x.2.1 = pypsaGlobalConstraintCo2MaxModel) ∧
        (x.1 = "pypsa_models.global_constraint_co2_eq" → x.2.1 = pypsaGlobalConstraintCo2EqModel) := by
      intro x hx
      simp only [shippedModels, List.mem_cons, List.not_mem_nil, or_false] at hx
      rcases hx with rfl | rfl | rfl | rfl | rfl | rfl | rfl | rfl | rfl | rfl | rfl | rfl | rfl | rfl | rfl | rfl | rfl <;>
        refine ⟨?_, ?_⟩ <;>
        first
        | exact fun _ => rfl
        | exact fun h => absurd h (by decide)
    rcases hi.2.2.1 with ⟨-, hm⟩ | ⟨-, hm⟩
    · exact .inl ((key _ hR).1 hm)
    · exact .inr ((key _ hR).2 hm)

section
variable {ty : PType} {r : PLine} {c : Component}

/-- the reading of an expression in a component when variables have any values at any timestep -/
abbrev rd (s : PStudy) (T : Nat) (net : Network) (db : DataBase) (var : String → String → Option Int → Option Int → ℚ) (c : Component) : MCtx :=
  ((s.input T).context net db).readAs (((s.input T).context net db).unwrapped var) c

theorem rd_par (h : PConverted pf n T s) (hl : (s.input T).Linked net) (hdb : buildDataBase s.load s.system = .ok db)
    (hc : LineOf n net ty r c) {a : String × String} (ha : a ∈ ty.kind.params) {t : Nat} (ht : t < T) (var) :
    mden (rd s T net db var c) (.par a.2) t 0 = used pf n ty r a.1 t := by
  rw [← h.parameter_eq hc.line ha ht, ← hc.id]
  have := hl.dataValue_eq h.sound hdb hc.mem a.2 t 0 le_rfl
  simp only [mden]
  exact this

theorem rd_var (h : PConverted pf n T s) (hl : (s.input T).Linked net) (hc : LineOf n net ty r c) {v : String}
    (hv : ty.model.variables_.get? v |>.map (·.structure_) |>.isEqSome ⟨true, true⟩) (t : Int) (var) :
    mden (rd s T net db var c) (.var v) t 0 = var (r.1 ++ ty.suffix) v (some t) (some 0) := by
  have hg : ((s.input T).context net db).network.getComponent c.id = .ok c := getComponent_of_mem (hl.networkOk db h.sound) hc.mem
  have : ((s.input T).context net db).varIdx c.id v = ⟨true, true⟩ := by
    unfold OptCtx.varIdx
    simp only [hg, hc.model]
    cases hx : Option.map (·.structure_) (ty.model.variables_.get? v) with
    | none => rw [hx] at hv; cases hv
    | some i => rw [hx] at hv; simpa [Option.isEqSome] using hv
  simp only [mden]
  show var c.id v (atT (((s.input T).context net db).varIdx c.id v) t) (atS (((s.input T).context net db).varIdx c.id v) 0) = _
  rw [this, hc.id]
  rfl

theorem rd_nom (h : PConverted pf n T s) (hl : (s.input T).Linked net) (hc : LineOf n net ty r c) {v : String}
    (hv : ty.model.variables_.get? v |>.map (·.structure_) |>.isEqSome ⟨false, false⟩) (t : Int) (var) :
    mden (rd s T net db var c) (.var v) t 0 = var (r.1 ++ ty.suffix) v none none := by
  have hg : ((s.input T).context net db).network.getComponent c.id = .ok c := getComponent_of_mem (hl.networkOk db h.sound) hc.mem
  have : ((s.input T).context net db).varIdx c.id v = ⟨false, false⟩ := by
    unfold OptCtx.varIdx
    simp only [hg, hc.model]
    cases hx : Option.map (·.structure_) (ty.model.variables_.get? v) with
    | none => rw [hx] at hv; cases hv
    | some i => rw [hx] at hv; simpa [Option.isEqSome] using hv
  simp only [mden]
  show var c.id v (atT (((s.input T).context net db).varIdx c.id v) t) (atS (((s.input T).context net db).varIdx c.id v) 0) = _
  rw [this, hc.id]
  rfl

end
/-- the instance of a variable at a timestep -/
abbrev inst (id v : String) (t : Int) : TermKey := ⟨id, v, some t, some 0⟩
/-- the instance of a variable that does not depend on time -/
abbrev once (id v : String) : TermKey := ⟨id, v, none, none⟩

theorem _root_.Verif.KeptForm.pair {q q' : ℚ} (hq : Kept q) (hq' : Kept q') {k k' : TermKey} (hk : k ≠ k') :
    KeptForm (fun σ => q * σ k + q' * σ k') fun x => x = k ∨ x = k' :=
  (KeptForm.single hq k).add (.single hq' k') fun x h h' => hk (h.symm.trans h')

theorem _root_.Verif.KeptForm.total {q : Nat → ℚ} (T : Nat) (hq : ∀ t < T, Kept (q t)) (id v : String) :
    KeptForm (fun σ => ∑ t ∈ Finset.range T, q t * σ (inst id v t)) fun x => ∃ t < T, x = inst id v (t : Nat) := by
  refine KeptForm.sumRange T (fun t ht => KeptForm.single (hq t ht) _) fun a b k ha hb => ?_
  rw [ha] at hb
  simp only [inst, TermKey.mk.injEq, Option.some.injEq, true_and, and_true] at hb
  exact_mod_cast hb

section
variable {ty : PType} {r : PLine} {c : Component}

theorem rd_plain (h : PConverted pf n T s) (hl : (s.input T).Linked net) (hdb : buildDataBase s.load s.system = .ok db)
    (hc : LineOf n net ty r c) {a : String} (ha : (a, a) ∈ ty.kind.params) (hp : plain ty a = true) {t : Nat} (ht : t < T) (var) :
    mden (rd s T net db var c) (.par a) t 0 = n.attr pf ty r a t :=
  (h.rd_par hl hdb hc ha ht var).trans (used_plain hp r t)

theorem rd_objective (e : Expr) (var) : mden (rd s T net db var c) (.scen (.allsum e) .expectation) 0 0 =
    ∑ u ∈ Finset.range T, mden (rd s T net db var c) e u 0 := by
  show (∑ w ∈ Finset.range 1, ∑ u ∈ Finset.range ((s.input T).steps.length), mden (rd s T net db var c) e u w) / ((1 : Nat) : ℚ) = _
  rw [length_steps, Finset.sum_range_one]
  simp

theorem rd_allsum (e : Expr) (t : Int) (var) : mden (rd s T net db var c) (.allsum e) t 0 =
    ∑ u ∈ Finset.range T, mden (rd s T net db var c) e u 0 := by
  show ∑ u ∈ Finset.range ((s.input T).steps.length), mden (rd s T net db var c) e u 0 = _
  rw [length_steps]

theorem rd_capital (h : PConverted pf n T s) (hl : (s.input T).Linked net) (hdb : buildDataBase s.load s.system = .ok db)
    (hk : n.KeptData pf T) (hc : LineOf n net ty r c) {capa : String} (hcapa : ty.kind.capacity = some capa) :
    ∃ q, Kept q ∧ ∀ var, mden (rd s T net db var c) (.par "capital_cost") 0 0 = q := by
  have ha : ("capital_cost", "capital_cost") ∈ ty.kind.params := by cases ty <;> cases hcapa <;> decide
  refine ⟨_, ?_, fun var => h.rd_par hl hdb hc ha (t := 0) h.data.snapshots var⟩
  rw [h.used_capital hcapa]
  split_ifs with hf
  · exact kept_zero
  · exact hk.capital ty.kind ty.kind_mem capa hcapa r (by rw [ty.kind_ty]; exact hc.line) hf

end

theorem kept_generator (h : PConverted pf n T s) (hl : (s.input T).Linked net) (hdb : buildDataBase s.load s.system = .ok db)
    (hk : n.KeptData pf T) {r : PLine} {c : Component} (hc : LineOf n net .generators r c) :
    (∀ k ∈ c.model.allConstraints, ∀ t : Nat, t < T → ((s.input T).context net db).NoTiny c k.expression t 0) ∧
      ∀ e ∈ c.model.objectives, ((s.input T).context net db).NoTiny c e 0 0 := by
  have V : ∀ (t : Int) var, mden (rd s T net db var c) (.var "p") t 0 = var _ "p" (some t) (some 0) :=
    fun t var => h.rd_var hl hc (by decide) t var
  have N : ∀ (t : Int) var, mden (rd s T net db var c) (.var "p_nom") t 0 = var _ "p_nom" none none :=
    fun t var => h.rd_nom hl hc (by decide) t var
  have K := hk.generators r hc.line
  rw [hc.model]
  refine ⟨fun k hkm t ht => ?_, fun e he => ?_⟩
  · simp only [PType.model, Model.allConstraints, pypsaGeneratorModel, Dict.values, List.map_cons, List.map_nil,
      List.nil_append, List.mem_cons, List.not_mem_nil, or_false] at hkm
    obtain ⟨-, k1, k2, -, -⟩ := K t ht
    rcases hkm with rfl | rfl | rfl | rfl
    · refine (KeptForm.pair kept_one (kept_neg k1) (k := inst (r.1 ++ PType.suffix .generators) "p" t) (k' := once (r.1 ++ PType.suffix .generators) "p_nom") (by simp)).noTiny fun var => ?_
      show mden (rd s T net db var c) (.var "p") t 0 + (-(mden (rd s T net db var c) (.var "p_nom") t 0 *
        mden (rd s T net db var c) (.par "p_min_pu") t 0) + 0) = _
      rw [V, N, h.rd_plain hl hdb hc (by decide) (by decide) ht]
      simp only [StudyInput.Linked.wrapped]
      ring
    · refine (KeptForm.pair kept_one (kept_neg k2) (k := inst (r.1 ++ PType.suffix .generators) "p" t) (k' := once (r.1 ++ PType.suffix .generators) "p_nom") (by simp)).noTiny fun var => ?_
      show mden (rd s T net db var c) (.var "p") t 0 + (-(mden (rd s T net db var c) (.var "p_nom") t 0 *
        mden (rd s T net db var c) (.par "p_max_pu") t 0) + 0) = _
      rw [V, N, h.rd_plain hl hdb hc (by decide) (by decide) ht]
      simp only [StudyInput.Linked.wrapped]
      ring
    · refine ((KeptForm.total T (fun _ _ => kept_one) (r.1 ++ PType.suffix .generators) "p").add
        (.const (-n.attr pf .generators r "e_sum_min" t)) fun _ _ h => h).noTiny fun var => ?_
      show mden (rd s T net db var c) (.allsum (.var "p")) t 0 + (-mden (rd s T net db var c) (.par "e_sum_min") t 0 + 0) = _
      rw [rd_allsum, h.rd_plain hl hdb hc (by decide) (by decide) ht]
      simp only [V, one_mul, StudyInput.Linked.wrapped, add_zero]
    · refine ((KeptForm.total T (fun _ _ => kept_one) (r.1 ++ PType.suffix .generators) "p").add
        (.const (-n.attr pf .generators r "e_sum_max" t)) fun _ _ h => h).noTiny fun var => ?_
      show mden (rd s T net db var c) (.allsum (.var "p")) t 0 + (-mden (rd s T net db var c) (.par "e_sum_max") t 0 + 0) = _
      rw [rd_allsum, h.rd_plain hl hdb hc (by decide) (by decide) ht]
      simp only [V, one_mul, StudyInput.Linked.wrapped, add_zero]
  · simp only [PType.model, Model.objectives, pypsaGeneratorModel, Option.toList, List.append_nil, List.mem_cons, List.not_mem_nil,
      or_false] at he
    subst he
    obtain ⟨q, hq, hc'⟩ := h.rd_capital hl hdb hk hc (capa := "p_nom") rfl
    refine ((KeptForm.total T (fun t ht => (K t ht).2.2.2.1) (r.1 ++ PType.suffix .generators) "p").add (.single hq (once (r.1 ++ PType.suffix .generators) "p_nom")) ?_).noTiny fun var => ?_
    · rintro k ⟨t, -, rfl⟩ h
      simp at h
    · show mden (rd s T net db var c) (.scen (.allsum (.mul (.par "marginal_cost") (.var "p"))) .expectation) 0 0 +
        (mden (rd s T net db var c) (.var "p_nom") 0 0 * mden (rd s T net db var c) (.par "capital_cost") 0 0 + 0) = _
      rw [rd_objective, N, hc']
      simp only [StudyInput.Linked.wrapped, add_zero]
      congr 1
      · refine Finset.sum_congr rfl fun u hu => ?_
        show mden (rd s T net db var c) (.par "marginal_cost") u 0 * mden (rd s T net db var c) (.var "p") u 0 = _
        rw [V, h.rd_plain hl hdb hc (by decide) (by decide) (Finset.mem_range.1 hu)]
      · ring

theorem kept_link (h : PConverted pf n T s) (hl : (s.input T).Linked net) (hdb : buildDataBase s.load s.system = .ok db)
    (hk : n.KeptData pf T) {r : PLine} {c : Component} (hc : LineOf n net .links r c) :
    (∀ k ∈ c.model.allConstraints, ∀ t : Nat, t < T → ((s.input T).context net db).NoTiny c k.expression t 0) ∧
      ∀ e ∈ c.model.objectives, ((s.input T).context net db).NoTiny c e 0 0 := by
  have V : ∀ (t : Int) var, mden (rd s T net db var c) (.var "p0") t 0 = var _ "p0" (some t) (some 0) :=
    fun t var => h.rd_var hl hc (by decide) t var
  have N : ∀ (t : Int) var, mden (rd s T net db var c) (.var "p_nom") t 0 = var _ "p_nom" none none :=
    fun t var => h.rd_nom hl hc (by decide) t var
  have K := hk.links r hc.line
  rw [hc.model]
  refine ⟨fun k hkm t ht => ?_, fun e he => ?_⟩
  · simp only [PType.model, Model.allConstraints, pypsaLinkModel, Dict.values, List.map_cons, List.map_nil,
      List.nil_append, List.mem_cons, List.not_mem_nil, or_false] at hkm
    obtain ⟨k1, k2, -, -, -⟩ := K t ht
    rcases hkm with rfl | rfl
    · refine (KeptForm.pair kept_one (kept_neg k2) (k := inst (r.1 ++ PType.suffix .links) "p0" t) (k' := once (r.1 ++ PType.suffix .links) "p_nom") (by simp)).noTiny fun var => ?_
      show mden (rd s T net db var c) (.var "p0") t 0 + (-(mden (rd s T net db var c) (.par "p_max_pu") t 0 *
        mden (rd s T net db var c) (.var "p_nom") t 0) + 0) = _
      rw [V, N, h.rd_plain hl hdb hc (by decide) (by decide) ht]
      simp only [StudyInput.Linked.wrapped]
      ring
    · refine (KeptForm.pair kept_one (kept_neg k1) (k := inst (r.1 ++ PType.suffix .links) "p0" t) (k' := once (r.1 ++ PType.suffix .links) "p_nom") (by simp)).noTiny fun var => ?_
      show mden (rd s T net db var c) (.var "p0") t 0 + (-(mden (rd s T net db var c) (.par "p_min_pu") t 0 *
        mden (rd s T net db var c) (.var "p_nom") t 0) + 0) = _
      rw [V, N, h.rd_plain hl hdb hc (by decide) (by decide) ht]
      simp only [StudyInput.Linked.wrapped]
      ring
  · simp only [PType.model, Model.objectives, pypsaLinkModel, Option.toList, List.append_nil, List.mem_cons, List.not_mem_nil,
      or_false] at he
    subst he
    obtain ⟨q, hq, hc'⟩ := h.rd_capital hl hdb hk hc (capa := "p_nom") rfl
    refine ((KeptForm.total T (fun t ht => (K t ht).2.2.1) (r.1 ++ PType.suffix .links) "p0").add (.single hq (once (r.1 ++ PType.suffix .links) "p_nom")) ?_).noTiny fun var => ?_
    · rintro k ⟨t, -, rfl⟩ h
      simp at h
    · show mden (rd s T net db var c) (.scen (.allsum (.mul (.par "marginal_cost") (.var "p0"))) .expectation) 0 0 +
        (mden (rd s T net db var c) (.par "capital_cost") 0 0 * mden (rd s T net db var c) (.var "p_nom") 0 0 + 0) = _
      rw [rd_objective, N, hc']
      simp only [StudyInput.Linked.wrapped, add_zero]
      congr 1
      refine Finset.sum_congr rfl fun u hu => ?_
      show mden (rd s T net db var c) (.par "marginal_cost") u 0 * mden (rd s T net db var c) (.var "p0") u 0 = _
      rw [V, h.rd_plain hl hdb hc (by decide) (by decide) (Finset.mem_range.1 hu)]

theorem kept_store (h : PConverted pf n T s) (hl : (s.input T).Linked net) (hdb : buildDataBase s.load s.system = .ok db)
    (hk : n.KeptData pf T) {r : PLine} {c : Component} (hc : LineOf n net .stores r c) :
    (∀ k ∈ c.model.allConstraints, ∀ t : Nat, t < T → ((s.input T).context net db).NoTiny c k.expression t 0) ∧
      ∀ e ∈ c.model.objectives, ((s.input T).context net db).NoTiny c e 0 0 := by
  have V : ∀ (t : Int) var, mden (rd s T net db var c) (.var "p") t 0 = var _ "p" (some t) (some 0) :=
    fun t var => h.rd_var hl hc (by decide) t var
  have E : ∀ (t : Int) var, mden (rd s T net db var c) (.var "e") t 0 = var _ "e" (some t) (some 0) :=
    fun t var => h.rd_var hl hc (by decide) t var
  have N : ∀ (t : Int) var, mden (rd s T net db var c) (.var "e_nom") t 0 = var _ "e_nom" none none :=
    fun t var => h.rd_nom hl hc (by decide) t var
  have K := hk.stores r hc.line
  rw [hc.model]
  refine ⟨fun k hkm t ht => ?_, fun e he => ?_⟩
  · simp only [PType.model, Model.allConstraints, pypsaStoreModel, Dict.values, List.map_cons, List.map_nil,
      List.nil_append, List.mem_cons, List.not_mem_nil, or_false] at hkm
    obtain ⟨k1, k2, k3, -, -⟩ := K t ht
    rcases hkm with rfl | rfl | rfl
    · refine (KeptForm.pair kept_one (kept_neg k2) (k := inst (r.1 ++ PType.suffix .stores) "e" t) (k' := once (r.1 ++ PType.suffix .stores) "e_nom") (by simp)).noTiny fun var => ?_
      show mden (rd s T net db var c) (.var "e") t 0 + (-(mden (rd s T net db var c) (.par "e_max_pu") t 0 *
        mden (rd s T net db var c) (.var "e_nom") t 0) + 0) = _
      rw [E, N, h.rd_plain hl hdb hc (by decide) (by decide) ht]
      simp only [StudyInput.Linked.wrapped]
      ring
    · refine (KeptForm.pair kept_one (kept_neg k1) (k := inst (r.1 ++ PType.suffix .stores) "e" t) (k' := once (r.1 ++ PType.suffix .stores) "e_nom") (by simp)).noTiny fun var => ?_
      show mden (rd s T net db var c) (.var "e") t 0 + (-(mden (rd s T net db var c) (.par "e_min_pu") t 0 *
        mden (rd s T net db var c) (.var "e_nom") t 0) + 0) = _
      rw [E, N, h.rd_plain hl hdb hc (by decide) (by decide) ht]
      simp only [StudyInput.Linked.wrapped]
      ring
    · refine ((KeptForm.pair kept_one (kept_neg k3) (k := inst (r.1 ++ PType.suffix .stores) "e" t) (k' := inst (r.1 ++ PType.suffix .stores) "e" (t - 1)) (by simp; omega)).add
        (.single kept_one (inst (r.1 ++ PType.suffix .stores) "p" t)) ?_).noTiny fun var => ?_
      · rintro k (rfl | rfl) h <;> simp at h
      · show mden (rd s T net db var c) (.var "e") t 0 + (-((1 + (-mden (rd s T net db var c) (.par "standing_loss") t 0 + 0)) *
          mden (rd s T net db var c) (.var "e") (t - 1) 0) + (- -mden (rd s T net db var c) (.var "p") t 0 + 0)) = _
        rw [E, E, V, h.rd_plain hl hdb hc (by decide) (by decide) ht]
        simp only [StudyInput.Linked.wrapped]
        ring
  · simp only [PType.model, Model.objectives, pypsaStoreModel, Option.toList, List.append_nil, List.mem_cons, List.not_mem_nil,
      or_false] at he
    subst he
    obtain ⟨q, hq, hc'⟩ := h.rd_capital hl hdb hk hc (capa := "e_nom") rfl
    refine (((KeptForm.total T (fun t ht => (K t ht).2.2.2.1) (r.1 ++ PType.suffix .stores) "p").add (KeptForm.total T (fun t ht => (K t ht).2.2.2.2) (r.1 ++ PType.suffix .stores) "e") ?_).add
      (.single hq (once (r.1 ++ PType.suffix .stores) "e_nom")) ?_).noTiny fun var => ?_
    · rintro k ⟨t, -, rfl⟩ ⟨t', -, h⟩
      simp at h
    · rintro k (⟨t, -, rfl⟩ | ⟨t, -, rfl⟩) h <;> simp at h
    · show mden (rd s T net db var c) (.scen (.allsum (.add [.mul (.par "marginal_cost") (.var "p"),
          .mul (.par "marginal_cost_storage") (.var "e")])) .expectation) 0 0 +
        (mden (rd s T net db var c) (.par "capital_cost") 0 0 * mden (rd s T net db var c) (.var "e_nom") 0 0 + 0) = _
      rw [rd_objective, N, hc', ← Finset.sum_add_distrib]
      simp only [StudyInput.Linked.wrapped, add_zero]
      congr 1
      refine Finset.sum_congr rfl fun u hu => ?_
      show mden (rd s T net db var c) (.par "marginal_cost") u 0 * mden (rd s T net db var c) (.var "p") u 0 +
        (mden (rd s T net db var c) (.par "marginal_cost_storage") u 0 * mden (rd s T net db var c) (.var "e") u 0 + 0) = _
      rw [V, E, h.rd_plain hl hdb hc (by decide) (by decide) (Finset.mem_range.1 hu),
        h.rd_plain hl hdb hc (by decide) (by decide) (Finset.mem_range.1 hu), add_zero]

theorem kept_storage (h : PConverted pf n T s) (hl : (s.input T).Linked net) (hdb : buildDataBase s.load s.system = .ok db)
    (hk : n.KeptData pf T) {r : PLine} {c : Component} (hc : LineOf n net .storageUnits r c) :
    (∀ k ∈ c.model.allConstraints, ∀ t : Nat, t < T → ((s.input T).context net db).NoTiny c k.expression t 0) ∧
      ∀ e ∈ c.model.objectives, ((s.input T).context net db).NoTiny c e 0 0 := by
  have V : ∀ v ∈ ["p_store", "p_dispatch", "state_of_charge", "spill"], ∀ (t : Int) var,
      mden (rd s T net db var c) (.var v) t 0 = var (r.1 ++ PType.suffix .storageUnits) v (some t) (some 0) := by
    intro v hv t var
    refine h.rd_var hl hc ?_ t var
    revert v
    decide
  have N : ∀ (t : Int) var, mden (rd s T net db var c) (.var "p_nom") t 0 = var _ "p_nom" none none :=
    fun t var => h.rd_nom hl hc (by decide) t var
  have K := hk.storageUnits r hc.line
  rw [hc.model]
  refine ⟨fun k hkm t ht => ?_, fun e he => ?_⟩
  · simp only [PType.model, Model.allConstraints, pypsaStorageUnitModel, Dict.values, List.map_cons, List.map_nil,
      List.nil_append, List.mem_cons, List.not_mem_nil, or_false] at hkm
    obtain ⟨k1, k2, k3, k4, k5, -⟩ := K t ht
    rcases hkm with rfl | rfl | rfl | rfl
    · refine (KeptForm.pair kept_one (kept_neg k1) (k := inst (r.1 ++ PType.suffix .storageUnits) "p_store" t) (k' := once (r.1 ++ PType.suffix .storageUnits) "p_nom") (by simp)).noTiny fun var => ?_
      show mden (rd s T net db var c) (.var "p_store") t 0 + (-(mden (rd s T net db var c) (.par "p_max_pu") t 0 *
        mden (rd s T net db var c) (.var "p_nom") t 0) + 0) = _
      rw [V _ (by simp), N, h.rd_plain hl hdb hc (by decide) (by decide) ht]
      simp only [StudyInput.Linked.wrapped]
      ring
    · refine (KeptForm.pair kept_one (kept_neg k1) (k := inst (r.1 ++ PType.suffix .storageUnits) "p_store" t) (k' := once (r.1 ++ PType.suffix .storageUnits) "p_nom") (by simp)).noTiny fun var => ?_
      show mden (rd s T net db var c) (.var "p_store") t 0 + (-(mden (rd s T net db var c) (.par "p_max_pu") t 0 *
        mden (rd s T net db var c) (.var "p_nom") t 0) + 0) = _
      rw [V _ (by simp), N, h.rd_plain hl hdb hc (by decide) (by decide) ht]
      simp only [StudyInput.Linked.wrapped]
      ring
    · refine (KeptForm.pair kept_one (kept_neg k2) (k := inst (r.1 ++ PType.suffix .storageUnits) "state_of_charge" t) (k' := once (r.1 ++ PType.suffix .storageUnits) "p_nom") (by simp)).noTiny fun var => ?_
      show mden (rd s T net db var c) (.var "state_of_charge") t 0 + (-(mden (rd s T net db var c) (.par "max_hours") t 0 *
        mden (rd s T net db var c) (.var "p_nom") t 0) + 0) = _
      rw [V _ (by simp), N, h.rd_plain hl hdb hc (by decide) (by decide) ht]
      simp only [StudyInput.Linked.wrapped]
      ring
    · refine (((((KeptForm.pair kept_one (kept_neg k3) (k := inst (r.1 ++ PType.suffix .storageUnits) "state_of_charge" t) (k' := inst (r.1 ++ PType.suffix .storageUnits) "state_of_charge" (t - 1)) (by simp; omega)).add
        (KeptForm.pair (kept_neg k4) k5 (k := inst (r.1 ++ PType.suffix .storageUnits) "p_store" t) (k' := inst (r.1 ++ PType.suffix .storageUnits) "p_dispatch" t) (by simp)) ?_)).add
        (.single kept_one (inst (r.1 ++ PType.suffix .storageUnits) "spill" t)) ?_).add (.const (-n.attr pf .storageUnits r "inflow" t)) fun _ _ h => h).noTiny fun var => ?_
      · rintro k (rfl | rfl) (h | h) <;> simp at h
      · rintro k ((rfl | rfl) | (rfl | rfl)) h <;> simp at h
      · show mden (rd s T net db var c) (.var "state_of_charge") t 0 + (-((1 + (-mden (rd s T net db var c) (.par "standing_loss") t 0 + 0)) *
          mden (rd s T net db var c) (.var "state_of_charge") (t - 1) 0) +
          (-(mden (rd s T net db var c) (.par "efficiency_store") t 0 * mden (rd s T net db var c) (.var "p_store") t 0) +
          (- -(mden (rd s T net db var c) (.var "p_dispatch") t 0 / mden (rd s T net db var c) (.par "efficiency_dispatch") t 0) +
          (-mden (rd s T net db var c) (.par "inflow") t 0 + (- -mden (rd s T net db var c) (.var "spill") t 0 + 0))))) = _
        rw [V _ (by simp), V _ (by simp), V _ (by simp), V _ (by simp), V _ (by simp), h.rd_plain hl hdb hc (by decide) (by decide) ht,
          h.rd_plain hl hdb hc (by decide) (by decide) ht, h.rd_plain hl hdb hc (by decide) (by decide) ht,
          h.rd_plain hl hdb hc (by decide) (by decide) ht]
        simp only [StudyInput.Linked.wrapped]
        ring
  · simp only [PType.model, Model.objectives, pypsaStorageUnitModel, Option.toList, List.append_nil, List.mem_cons, List.not_mem_nil,
      or_false] at he
    subst he
    obtain ⟨q, hq, hc'⟩ := h.rd_capital hl hdb hk hc (capa := "p_nom") rfl
    refine ((((KeptForm.total T (fun t ht => (K t ht).2.2.2.2.2.1) (r.1 ++ PType.suffix .storageUnits) "p_dispatch").add
      (KeptForm.total T (fun t ht => (K t ht).2.2.2.2.2.2.1) (r.1 ++ PType.suffix .storageUnits) "spill") ?_).add
      (KeptForm.total T (fun t ht => (K t ht).2.2.2.2.2.2.2) (r.1 ++ PType.suffix .storageUnits) "state_of_charge") ?_).add
      (.single hq (once (r.1 ++ PType.suffix .storageUnits) "p_nom")) ?_).noTiny fun var => ?_
    · rintro k ⟨t, -, rfl⟩ ⟨t', -, h⟩
      simp at h
    · rintro k (⟨t, -, rfl⟩ | ⟨t, -, rfl⟩) ⟨t', -, h⟩ <;> simp at h
    · rintro k ((⟨t, -, rfl⟩ | ⟨t, -, rfl⟩) | ⟨t, -, rfl⟩) h <;> simp at h
    · show mden (rd s T net db var c) (.scen (.allsum (.add [.mul (.par "marginal_cost") (.var "p_dispatch"),
          .mul (.par "spill_cost") (.var "spill"), .mul (.par "marginal_cost_storage") (.var "state_of_charge")])) .expectation) 0 0 +
        (mden (rd s T net db var c) (.par "capital_cost") 0 0 * mden (rd s T net db var c) (.var "p_nom") 0 0 + 0) = _
      rw [rd_objective, N, hc', ← Finset.sum_add_distrib, ← Finset.sum_add_distrib]
      simp only [StudyInput.Linked.wrapped, add_zero]
      congr 1
      refine Finset.sum_congr rfl fun u hu => ?_
      show mden (rd s T net db var c) (.par "marginal_cost") u 0 * mden (rd s T net db var c) (.var "p_dispatch") u 0 +
        (mden (rd s T net db var c) (.par "spill_cost") u 0 * mden (rd s T net db var c) (.var "spill") u 0 +
        (mden (rd s T net db var c) (.par "marginal_cost_storage") u 0 * mden (rd s T net db var c) (.var "state_of_charge") u 0 + 0)) = _
      have hu := Finset.mem_range.1 hu
      rw [V _ (by simp), V _ (by simp), V _ (by simp), h.rd_plain hl hdb hc (by decide) (by decide) hu,
        h.rd_plain hl hdb hc (by decide) (by decide) hu, h.rd_plain hl hdb hc (by decide) (by decide) hu, add_zero, add_assoc]

end PConverted
end Verif
