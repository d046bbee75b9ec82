import Verif.Lemmas.PypsaCost

/-!
# All decisions on a network are values of the variables of the converted study
-/

namespace Verif
open Verif.Props

/-- the same decisions for the components of the network -/
def PPlan.Agree (n : PNetwork) (x y : PPlan) : Prop :=
  ∀ ty, ∀ r ∈ (n.table ty).rows, x.nominal ty r.1 = y.nominal ty r.1 ∧ ∀ v t, x.value ty r.1 v t = y.value ty r.1 v t

theorem PPlan.Agree.symm {n : PNetwork} {x y : PPlan} (h : PPlan.Agree n x y) : PPlan.Agree n y x :=
  fun ty r hr => ⟨(h ty r hr).1.symm, fun v t => ((h ty r hr).2 v t).symm⟩

namespace PPlan.Agree
variable {n : PNetwork} {x y : PPlan}

theorem value (h : PPlan.Agree n x y) {ty : PType} {r : PLine} (hr : r ∈ (n.table ty).rows) (v : String) : x.value ty r.1 v = y.value ty r.1 v :=
  funext fun t => (h ty r hr).2 v t

theorem values (h : PPlan.Agree n x y) {ty : PType} {r : PLine} (hr : r ∈ (n.table ty).rows) : x.value ty r.1 = y.value ty r.1 :=
  funext fun v => h.value hr v

theorem nominalOk (h : PPlan.Agree n x y) {pf : String → Option Num} {ty : PType} {capa : String} {r : PLine} (hr : r ∈ (n.table ty).rows)
    (hx : PNetwork.NominalOk pf ty capa x r) : PNetwork.NominalOk pf ty capa y r := by
  unfold PNetwork.NominalOk at *
  rw [← (h ty r hr).1]
  exact hx

theorem injection (h : PPlan.Agree n x y) (pf : String → Option Num) (b : String) (t : Nat) : n.injection pf x b t = n.injection pf y b t := by
  have hm : ∀ {ty : PType} {side : String} {r : PLine}, r ∈ n.attached ty side b → r ∈ (n.table ty).rows := fun h => (List.mem_filter.1 h).1
  unfold PNetwork.injection
  rw [List.map_congr_left (l := n.attached .generators "bus" b) fun r hr => by rw [h.value (hm hr) "p"],
    List.map_congr_left (l := n.attached .links "bus0" b) fun r hr => by rw [h.value (hm hr) "p0"],
    List.map_congr_left (l := n.attached .links "bus1" b) fun r hr => by rw [h.value (hm hr) "p0"],
    List.map_congr_left (l := n.attached .storageUnits "bus" b) fun r hr => by rw [h.value (hm hr) "p_dispatch", h.value (hm hr) "p_store"],
    List.map_congr_left (l := n.attached .stores "bus" b) fun r hr => by rw [h.value (hm hr) "p"]]

theorem emitted (h : PPlan.Agree n x y) (pf : String → Option Num) (t : Nat) : n.emitted pf x t = n.emitted pf y t := by
  unfold PNetwork.emitted
  rw [List.map_congr_left fun r hr => by rw [h.value (List.mem_filter.1 hr).1 "p"]]

theorem admits (h : PPlan.Agree n x y) {pf : String → Option Num} {T : Nat} {L : PPlan → PLine → Nat → Prop}
    (hL : ∀ r ∈ (n.table .storageUnits).rows, ∀ t, L x r t → L y r t) (hx : n.AdmitsWith pf T L x) : n.AdmitsWith pf T L y where
  generators r hr := by
    have := hx.generators r hr
    simp only [h.values hr, (h _ r hr).1] at this
    exact ⟨h.nominalOk hr this.1, this.2⟩
  links r hr := by
    have := hx.links r hr
    simp only [h.values hr, (h _ r hr).1] at this
    exact ⟨h.nominalOk hr this.1, this.2⟩
  storageUnits r hr := by
    have := hx.storageUnits r hr
    simp only [h.values hr] at this
    exact ⟨h.nominalOk hr this.1, fun t ht => ⟨hL r hr t (this.2 t ht).1, (this.2 t ht).2⟩⟩
  stores r hr := by
    have := hx.stores r hr
    simp only [h.values hr, (h _ r hr).1] at this
    exact ⟨h.nominalOk hr this.1, this.2⟩
  buses r hr t ht := (h.injection pf r.1 t).symm.trans (hx.buses r hr t ht)
  emissions r hr q hq := by
    have := hx.emissions r hr q hq
    simp only [h.emitted] at this
    exact this

theorem shipped (h : PPlan.Agree n x y) {pf : String → Option Num} {T : Nat} (hx : n.AdmitsShipped pf T x) : n.AdmitsShipped pf T y :=
  h.admits (fun r hr t hl => by
    unfold PNetwork.ShippedUnitLimits at *
    simp only [h.values hr, (h _ r hr).1] at hl
    exact hl) hx

theorem cost (h : PPlan.Agree n x y) (pf : String → Option Num) (T : Nat) : n.planCost pf T x = n.planCost pf T y := by
  unfold PNetwork.planCost PNetwork.capitalCost
  rw [List.map_congr_left (l := (n.table .generators).rows) fun r hr => by rw [h.value hr "p", (h _ r hr).1],
    List.map_congr_left (l := (n.table .links).rows) fun r hr => by rw [h.value hr "p0", (h _ r hr).1],
    List.map_congr_left (l := (n.table .storageUnits).rows) fun r hr => by
      rw [h.value hr "p_dispatch", h.value hr "spill", h.value hr "state_of_charge", (h _ r hr).1],
    List.map_congr_left (l := (n.table .stores).rows) fun r hr => by rw [h.value hr "p", h.value hr "e", (h _ r hr).1]]

end PPlan.Agree

open Classical in
/-- All decisions are given by some values of the variables. -/
theorem exists_values {n : PNetwork} (hd : DistinctNames n) (x : PPlan) : ∃ σ, PPlan.Agree n (planOf σ) x := by
  let P : String → PType × String → Prop := fun c p => (∃ r ∈ (n.table p.1).rows, r.1 = p.2) ∧ c = p.2 ++ p.1.suffix
  have uniq : ∀ c p q, P c p → P c q → p = q := by
    rintro c ⟨ty, a⟩ ⟨ty', b⟩ ⟨⟨r, hr, rfl⟩, h1⟩ ⟨⟨r', hr', rfl⟩, h2⟩
    simp only at hr hr' h1 h2 ⊢
    have := kind_of_id hd ty.kind_mem ty'.kind_mem (a := r.1) (b := r'.1) (by rw [ty.kind_ty]; exact List.mem_map.2 ⟨r, hr, rfl⟩)
      (by rw [ty'.kind_ty]; exact List.mem_map.2 ⟨r', hr', rfl⟩) (by rw [ty.kind_suffix, ty'.kind_suffix, ← h1, ← h2])
    have hty : ty = ty' := by rw [← ty.kind_ty, this.1, ty'.kind_ty]
    rw [hty, this.2]
  let σ : TermKey → ℚ := fun k => if h : ∃ p, P k.component p then
    (match k.time with
     | none => x.nominal h.choose.1 h.choose.2
     | some t => x.value h.choose.1 h.choose.2 k.var t.toNat) else 0
  refine ⟨σ, fun ty r hr => ?_⟩
  have hP : P (r.1 ++ ty.suffix) (ty, r.1) := ⟨⟨r, hr, rfl⟩, rfl⟩
  have hex : ∃ p, P (r.1 ++ ty.suffix) p := ⟨_, hP⟩
  have hch : hex.choose = (ty, r.1) := uniq _ _ _ hex.choose_spec hP
  refine ⟨?_, fun v t => ?_⟩
  · show σ ⟨r.1 ++ ty.suffix, ty.capacity, none, none⟩ = _
    simp only [σ]
    rw [dif_pos hex, hch]
  · show σ ⟨r.1 ++ ty.suffix, v, some (t : Int), some 0⟩ = _
    simp only [σ]
    rw [dif_pos hex, hch, Int.toNat_natCast]

end Verif
