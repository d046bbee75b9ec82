import Verif.Lemmas.PypsaKeptLines

/-! # The coefficients in the balances and limits of emissions of a converted network -/

namespace Verif
open Verif.Props Verif.PNetwork Verif.Expr Verif.OptCtx Verif.Shipped Verif.PConverted

/-- a quantity of the components of one type at one timestep -/
theorem KeptForm.rows {n : PNetwork} (hd : DistinctNames n) (ty : PType) (v : String) (w : PLine → ℚ) (hw : ∀ r ∈ (n.table ty).rows, Kept (w r))
    (t : Nat) : KeptForm (fun σ => ((n.table ty).rows.map fun r => w r * (planOf σ).value ty r.1 v t).sum)
      fun k => ∃ r ∈ (n.table ty).rows, k = inst (r.1 ++ ty.suffix) v t := by
  refine KeptForm.sumList (F := fun r σ => w r * σ (inst (r.1 ++ ty.suffix) v t)) _ (fun r hr => KeptForm.single (hw r hr) _) ?_
  have := List.pairwise_map.1 (hd.within ty)
  refine this.imp fun {a b} hab k ha hb => hab ?_
  rw [ha] at hb
  simp only [inst, TermKey.mk.injEq] at hb
  exact append_suffix_inj hb.1

theorem attached_sum (n : PNetwork) (ty : PType) (side b : String) (w : PLine → ℚ) : ((n.attached ty side b).map w).sum =
    ((n.table ty).rows.map fun r => if r.2.get? side = some (.str b) then w r else 0).sum := by
  have := PConverted.sum_filter (n.table ty).rows (fun r => decide (r.2.get? side = some (.str b))) w
  simp only [decide_eq_true_eq] at this
  exact this.symm

namespace PConverted
variable {pf : String → Option Num} {n : PNetwork} {T : Nat} {s : PStudy} {net : Network} {db : DataBase}

theorem kept_injection (h : PConverted pf n T s) (hk : n.KeptData pf T) (b : String) {t : Nat} (ht : t < T) :
    ∃ K, KeptForm (fun σ => n.injection pf (planOf σ) b t) K := by
  let G : (TermKey → ℚ) → ℚ := fun σ => ((n.table .generators).rows.map fun r =>
    (if r.2.get? "bus" = some (.str b) then n.attr pf .generators r "sign" t else 0) * (planOf σ).value .generators r.1 "p" t).sum
  let L : (TermKey → ℚ) → ℚ := fun σ => ((n.table .links).rows.map fun r =>
    ((if r.2.get? "bus1" = some (.str b) then n.attr pf .links r "efficiency" t else 0) -
      (if r.2.get? "bus0" = some (.str b) then 1 else 0)) * (planOf σ).value .links r.1 "p0" t).sum
  let D : (TermKey → ℚ) → ℚ := fun σ => ((n.table .storageUnits).rows.map fun r =>
    (if r.2.get? "bus" = some (.str b) then 1 else 0) * (planOf σ).value .storageUnits r.1 "p_dispatch" t).sum
  let C : (TermKey → ℚ) → ℚ := fun σ => ((n.table .storageUnits).rows.map fun r =>
    (if r.2.get? "bus" = some (.str b) then -1 else 0) * (planOf σ).value .storageUnits r.1 "p_store" t).sum
  let S : (TermKey → ℚ) → ℚ := fun σ => ((n.table .stores).rows.map fun r =>
    (if r.2.get? "bus" = some (.str b) then 1 else 0) * (planOf σ).value .stores r.1 "p" t).sum
  let c : ℚ := ((n.attached .loads "bus" b).map fun r => n.attr pf .loads r "sign" t * n.attr pf .loads r "p_set" t).sum
  have eq : ∀ σ, n.injection pf (planOf σ) b t = ((((G σ + L σ) + D σ) + C σ) + S σ) + c := by
    intro σ
    unfold PNetwork.injection
    have e1 : ((n.attached .generators "bus" b).map fun r => n.attr pf .generators r "sign" t * (planOf σ).value .generators r.1 "p" t).sum = G σ := by
      rw [attached_sum]
      simp only [G, ite_mul, zero_mul]
    have e2 : ((n.attached .links "bus1" b).map fun r => n.attr pf .links r "efficiency" t * (planOf σ).value .links r.1 "p0" t).sum -
        ((n.attached .links "bus0" b).map fun r => (planOf σ).value .links r.1 "p0" t).sum = L σ := by
      rw [attached_sum, attached_sum]
      simp only [L, sub_mul, ite_mul, zero_mul, one_mul]
      generalize (n.table .links).rows = l
      induction l with
      | nil => simp
      | cons a l ih =>
        simp only [List.map_cons, List.sum_cons]
        rw [← ih]
        ring
    have e3 : ((n.attached .storageUnits "bus" b).map fun r =>
        (planOf σ).value .storageUnits r.1 "p_dispatch" t - (planOf σ).value .storageUnits r.1 "p_store" t).sum = D σ + C σ := by
      rw [attached_sum]
      simp only [D, C, ite_mul, zero_mul, one_mul, neg_mul]
      generalize (n.table .storageUnits).rows = l
      induction l with
      | nil => simp
      | cons a l ih =>
        simp only [List.map_cons, List.sum_cons]
        rw [ih]
        split_ifs <;> ring
    have e4 : ((n.attached .stores "bus" b).map fun r => (planOf σ).value .stores r.1 "p" t).sum = S σ := by
      rw [attached_sum]
      simp only [S, ite_mul, zero_mul, one_mul]
    rw [e1, e3, e4, ← e2]
    ring
  have k0 : Kept (-1) := kept_neg kept_one
  have ite_kept : ∀ (p : Prop) [Decidable p] (q : ℚ), Kept q → Kept (if p then q else 0) := by
    intro p _ q hq
    split_ifs
    · exact hq
    · exact kept_zero
  refine ⟨_, ((((((KeptForm.rows h.names .generators "p" _ ?_ t).add (KeptForm.rows h.names .links "p0" _ ?_ t) ?_).add
    (KeptForm.rows h.names .storageUnits "p_dispatch" _ ?_ t) ?_).add (KeptForm.rows h.names .storageUnits "p_store" _ ?_ t) ?_).add
    (KeptForm.rows h.names .stores "p" _ ?_ t) ?_).add (.const c) fun _ _ h => h).congr eq⟩
  · exact fun r hr => ite_kept _ _ (hk.generators r hr t ht).1
  · intro r hr
    obtain ⟨-, -, -, k1, k2⟩ := hk.links r hr t ht
    show Kept (_ - _)
    split_ifs with h1 h0 h0
    · exact k2 (h0.trans h1.symm)
    · rw [sub_zero]; exact k1
    · rw [zero_sub]; exact k0
    · rw [sub_zero]; exact kept_zero
  · rintro k ⟨r, -, rfl⟩ ⟨r', -, h⟩
    simp at h
  · exact fun r hr => ite_kept _ _ kept_one
  · rintro k (⟨r, -, rfl⟩ | ⟨r, -, rfl⟩) ⟨r', -, h⟩ <;> simp at h
  · exact fun r hr => ite_kept _ _ k0
  · rintro k ((⟨r, -, rfl⟩ | ⟨r, -, rfl⟩) | ⟨r, -, rfl⟩) ⟨r', -, h⟩ <;> simp at h
  · exact fun r hr => ite_kept _ _ kept_one
  · rintro k (((⟨r, hr, rfl⟩ | ⟨r, -, rfl⟩) | ⟨r, -, rfl⟩) | ⟨r, -, rfl⟩) ⟨r', hr', he⟩
    · simp only [inst, TermKey.mk.injEq, and_true] at he
      have := kind_of_id h.names (PType.kind_mem .generators) (PType.kind_mem .stores) (a := r.1) (b := r'.1) (List.mem_map.2 ⟨r, hr, rfl⟩)
        (List.mem_map.2 ⟨r', hr', rfl⟩) he
      exact absurd (congrArg PKind.suffix this.1) (by decide)
    all_goals simp at he

theorem kept_emitted (h : PConverted pf n T s) (hk : n.KeptData pf T) :
    ∃ K, KeptForm (fun σ => ∑ t ∈ Finset.range T, n.emitted pf (planOf σ) t) K := by
  refine ⟨_, (KeptForm.sumRange T (F := fun t σ => ((n.table .generators).rows.map fun r =>
    (if carrierOf r.2 ≠ some "null" then cellValue pf ((carrierOf r.2).map (emissionsOf n)) / n.attr pf .generators r "efficiency" t else 0) *
      (planOf σ).value .generators r.1 "p" t).sum) (fun t ht => KeptForm.rows h.names .generators "p" _ ?_ t) ?_).congr ?_⟩
  · intro r hr
    show Kept (if _ then _ else _)
    split_ifs with hc
    · exact (hk.generators r hr t ht).2.2.2.2 hc
    · exact kept_zero
  · rintro a b k ⟨r, -, rfl⟩ ⟨r', -, h⟩
    simp only [inst, TermKey.mk.injEq, Option.some.injEq, and_true] at h
    exact_mod_cast h.2.2
  · intro σ
    refine Finset.sum_congr rfl fun t _ => ?_
    unfold PNetwork.emitted
    rw [← PConverted.sum_filter]
    congr 1
    refine List.map_congr_left fun r _ => ?_
    simp only [decide_eq_true_eq, ite_mul, zero_mul]
    split_ifs
    · ring
    · rfl

/-- what a component receives when variables have any values at any timestep -/
theorem rd_received (h : PConverted pf n T s) (hl : (s.input T).Linked net) (hdb : buildDataBase s.load s.system = .ok db) {c : Component}
    (hc : c ∈ net.allComponents) (p f : String) {t : Nat} (ht : t < T) (var) :
    mden (rd s T net db var c) (.agg (.portField p f) .portSum) t 0 =
      ((s.input T).readings (StudyInput.Linked.wrapped var) c.id).received p f t 0 := by
  rw [hl.mden_block var _ (by
    intro y hy
    simp only [subs, List.mem_cons, List.not_mem_nil, or_false] at hy
    rcases hy with rfl | rfl <;> exact ⟨rfl, rfl⟩) t 0 (by positivity) (by rw [length_steps]; exact_mod_cast ht)]
  rw [hl.mden_read h.sound hdb _ hc _ (by
    intro y hy
    simp only [subs, List.mem_cons, List.not_mem_nil, or_false] at hy
    rcases hy with rfl | rfl <;> rfl) t 0 le_rfl]
  have := congrArg (fun R => R.received p f t 0) (hl.readings_eq (db := db) h.sound (StudyInput.Linked.wrapped var) hc)
  exact this

theorem kept_bus (h : PConverted pf n T s) (hl : (s.input T).Linked net) (hdb : buildDataBase s.load s.system = .ok db)
    (hk : n.KeptData pf T) {r : PLine} {c : Component} (hc : LineOf n net .buses r c) :
    (∀ k ∈ c.model.allConstraints, ∀ t : Nat, t < T → ((s.input T).context net db).NoTiny c k.expression t 0) ∧
      ∀ e ∈ c.model.objectives, ((s.input T).context net db).NoTiny c e 0 0 := by
  have hid : c.id = r.1 := hc.id.trans String.append_empty
  rw [hc.model]
  refine ⟨fun k hkm t ht => ?_, fun e he => ?_⟩
  · simp only [PType.model, Model.allConstraints, pypsaBusModel, Dict.values, List.map_cons, List.map_nil,
      List.append_nil, List.mem_cons, List.not_mem_nil, or_false] at hkm
    rcases hkm with rfl | rfl
    · obtain ⟨K, hK⟩ := h.kept_injection hk r.1 ht
      refine hK.noTiny fun var => ?_
      show mden (rd s T net db var c) (.agg (.portField "p_balance_port" "flow") .portSum) t 0 + (-0 + 0) = _
      rw [h.rd_received hl hdb hc.mem _ _ ht, hid, h.injection_eq _ hc.line ht]
      simp
    · refine (KeptForm.const 0).noTiny fun var => ?_
      show mden (rd s T net db var c) (.agg (.portField "q_balance_port" "flow") .portSum) t 0 + (-0 + 0) = _
      rw [h.rd_received hl hdb hc.mem _ _ ht, h.received_q]
      simp
  · simp [PType.model, Model.objectives, pypsaBusModel] at he

theorem kept_limit (h : PConverted pf n T s) (hl : (s.input T).Linked net) (hdb : buildDataBase s.load s.system = .ok db)
    (hk : n.KeptData pf T) {r : PLine} {c : Component} (hc : c ∈ net.allComponents) (hr : r ∈ n.globalConstraints.rows) (hid : c.id = r.1)
    (hm : c.model = pypsaGlobalConstraintCo2MaxModel ∨ c.model = pypsaGlobalConstraintCo2EqModel) :
    (∀ k ∈ c.model.allConstraints, ∀ t : Nat, t < T → ((s.input T).context net db).NoTiny c k.expression t 0) ∧
      ∀ e ∈ c.model.objectives, ((s.input T).context net db).NoTiny c e 0 0 := by
  obtain ⟨q, hq⟩ := h.data.limits r hr
  obtain ⟨K, hK⟩ := h.kept_emitted hk
  have hexp : ∀ k ∈ c.model.allConstraints,
      k.expression = .add [(.allsum (.agg (.portField "emission_port" "emission") .portSum)), (.neg (.par "quota"))] := by
    rcases hm with hm | hm <;> rw [hm] <;> intro k hkm <;>
      simp only [Model.allConstraints, pypsaGlobalConstraintCo2MaxModel, pypsaGlobalConstraintCo2EqModel, Dict.values, List.map_cons,
        List.map_nil, List.append_nil, List.mem_cons, List.not_mem_nil, or_false] at hkm <;> rw [hkm]
  refine ⟨fun k hkm t ht => ?_, fun e he => ?_⟩
  · rw [hexp k hkm]
    refine (hK.add (.const (-q)) fun _ _ h => h).noTiny fun var => ?_
    show mden (rd s T net db var c) (.allsum (.agg (.portField "emission_port" "emission") .portSum)) t 0 +
      (-mden (rd s T net db var c) (.par "quota") t 0 + 0) = _
    have hp : mden (rd s T net db var c) (.par "quota") t 0 = q := by
      have := hl.dataValue_eq h.sound hdb hc "quota" t 0 le_rfl
      rw [hid, h.quota_eq hr hq] at this
      simp only [mden]
      rw [← hid] at this
      exact this
    rw [rd_allsum, hp, add_zero]
    congr 1
    refine Finset.sum_congr rfl fun u hu => ?_
    have hu := Finset.mem_range.1 hu
    rw [h.rd_received hl hdb hc _ _ hu, hid, h.emitted_eq _ hr hu]
  · rcases hm with hm | hm <;> rw [hm] at he <;>
      simp [Model.objectives, pypsaGlobalConstraintCo2MaxModel, pypsaGlobalConstraintCo2EqModel] at he

/-- no coefficient of the problem is dropped -/
theorem kept (h : PConverted pf n T s) (hl : (s.input T).Linked net) (hdb : buildDataBase s.load s.system = .ok db) (hk : n.KeptData pf T)
    {c : Component} (hc : c ∈ net.allComponents) :
    (∀ k ∈ c.model.allConstraints, ∀ t : Nat, t < T → ((s.input T).context net db).NoTiny c k.expression t 0) ∧
      ∀ e ∈ c.model.objectives, ((s.input T).context net db).NoTiny c e 0 0 := by
  rcases h.component_cases hl hc with ⟨ty, r, hr⟩ | ⟨r, hr, hid, hm⟩
  · cases ty with
    | generators => exact h.kept_generator hl hdb hk hr
    | loads =>
      rw [hr.model]
      refine ⟨fun k hk => ?_, fun e he => ?_⟩
      · simp [PType.model, Model.allConstraints, pypsaLoadModel, Dict.values] at hk
      · simp [PType.model, Model.objectives, pypsaLoadModel] at he
    | buses => exact h.kept_bus hl hdb hk hr
    | links => exact h.kept_link hl hdb hk hr
    | storageUnits => exact h.kept_storage hl hdb hk hr
    | stores => exact h.kept_store hl hdb hk hr
  · exact h.kept_limit hl hdb hk hc hr hid hm

end PConverted
end Verif
