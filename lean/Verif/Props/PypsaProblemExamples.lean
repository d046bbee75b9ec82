import Verif.Props.PypsaProblem
import Verif.Props.ShippedStudy

/-! # C65: an example, and what the shipped model of storage units gets wrong -/

namespace Verif.Props
open Verif Verif.Expr Verif.OptCtx Verif.Shipped Verif.PNetwork

/-- A generator (capacity 7, cost 3, emissions 5), a load (3 then 4), a bus, a link from the bus to itself, a storage unit and a store.
With `skew`, the storage unit can be extended up to 10, stores at most half of its capacity, and receives an inflow of 3. -/
def unitCell (skew : Bool) (ty : PType) (col : String) : Cell :=
  if skew = true ∧ ty = .storageUnits ∧ col = "p_nom_extendable" then .bool true
  else if skew = true ∧ ty = .storageUnits ∧ col = "p_nom_min" then .num 0
  else if skew = true ∧ ty = .storageUnits ∧ col = "p_nom_max" then .num (.fin 10)
  else if skew = true ∧ ty = .storageUnits ∧ col = "p_min_pu" then .num (.fin (-1/2))
  else if skew = true ∧ ty = .storageUnits ∧ col = "inflow" then .num 3
  else if col = "marginal_cost" ∧ ty = .generators then .num 3
  else if col = "sign" ∧ ty = .loads then .num (.fin (-1))
  else if ty = .storageUnits ∧ col = "p_min_pu" then .num (.fin (-1))
  else if ty = .storageUnits ∧ col ∈ ["efficiency_store", "efficiency_dispatch", "max_hours"] then .num 1
  else exData ty col

/-- the network, with a limit of emissions of 50 -/
def unitNet (skew : Bool) : PNetwork := exNetwork exNames (unitCell skew) (.fin 50)

/-- numbers written as texts: there are none -/
abbrev noText : String → Option Num := fun _ => none

/-- where the value of an attribute comes from -/
theorem sourceCell_from {n : PNetwork} {capacity : Option String} {row : Dict String Cell} {attr : String} {c : Cell}
    (h : sourceCell n capacity row attr = some c) :
    c ∈ (row.get? attr).toList ++ (capacity.bind row.get?).toList ++ ((carrierOf row).map (emissionsOf n)).toList ++ [.num 0] := by
  unfold sourceCell at h
  cases capacity with
  | none => simp [h]
  | some capa =>
    dsimp only at h
    split_ifs at h
    · simp [h]
    · simp [h]
    · cases h; simp
    · simp [h]

theorem unitNet_names (b : Bool) : DistinctNames (unitNet b) := by
  cases b <;> exact ⟨by intro ty; cases ty <;> decide, by decide, by decide⟩

theorem unitNet_buses (b : Bool) : BusesExist (unitNet b) := by
  intro k hk d hd r hr s hs
  have : ∀ k ∈ pypsaKinds, ∀ d ∈ k.buses, ∀ r ∈ ((unitNet b).table k.ty).rows, r.2.get? d.1 = some (.str "N") := by cases b <;> decide +kernel
  rw [this k hk d hd r hr] at hs
  cases hs
  cases b <;> decide

theorem unitNet_series (b : Bool) : SeriesExist (unitNet b) := by
  rintro ty attr id vs ⟨cols, h1, h2⟩
  cases ty with
  | loads =>
    have : (if "p_set" = attr then some [("D", [Num.fin 3, .fin 4])] else none) = some cols := h1
    split_ifs at this
    cases this
    simp only [List.mem_singleton, Prod.mk.injEq] at h2
    rw [h2.1]
    cases b <;> decide
  | _ => cases h1

theorem unitNet_accepted (b : Bool) : SupportedKind (unitNet b) ∧ Convertible noText (unitNet b) := by
  have : (match pypsaConvert noText (unitNet b) with | .ok _ => true | .error _ => false) = true := by (cases b <;> decide +kernel)
  split at this
  · next s h => exact (c45_accepts (exNetwork_tables _ _ _)).1 ⟨s, h⟩
  · cases this

theorem unitNet_sound (b : Bool) : (unitNet b).SoundData noText 2 where
  snapshots := by decide
  labels := by
    intro ty a cols h
    cases ty with
    | loads =>
      have : (if "p_set" = a then some [("D", [Num.fin 3, .fin 4])] else none) = some cols := h
      split_ifs at this
      cases this
      decide
    | _ => cases h
  series := by
    rintro k hk a ha id vs ⟨cols, h1, h2⟩
    have hty : k.ty = .loads := by
      by_contra hne
      have : (unitNet b).series k.ty = [] := if_neg hne
      rw [this] at h1
      cases h1
    rw [hty] at h1
    have : (if "p_set" = a.1 then some [("D", [Num.fin 3, .fin 4])] else none) = some cols := h1
    split_ifs at this with hp
    cases this
    simp only [List.mem_singleton, Prod.mk.injEq] at h2
    rw [h2.2, ← hp]
    (cases b <;> decide +kernel)
  numbers := by
    have : ∀ k ∈ pypsaKinds, ∀ r ∈ ((unitNet b).table k.ty).rows, ∀ a ∈ k.params,
        ∀ c ∈ (r.2.get? a.1).toList ++ (k.capacity.bind r.2.get?).toList ++ ((carrierOf r.2).map (emissionsOf (unitNet b))).toList ++ [.num 0],
          Cell.reads noText c ≠ some .nan := by (cases b <;> decide +kernel)
    intro k hk r hr a ha c hc
    exact this k hk r hr a ha c (sourceCell_from hc)
  limits := by
    intro r hr
    have : r = ("cap", [("type", .str "primary_energy"), ("carrier_attribute", .str "co2_emissions"), ("sense", .str "<="),
      ("constant", .num (.fin 50))]) := by simpa [unitNet, exNetwork] using hr
    subst this
    exact ⟨50, rfl⟩
  capacities := by
    have : ∀ k ∈ pypsaKinds, ∀ r ∈ ((unitNet b).table k.ty).rows, (∀ capa ∈ k.capacity, Fixed capa r.2 ∨
        cellValue noText (r.2.get? (capa ++ "_min")) ≤ cellValue noText (r.2.get? (capa ++ "_max"))) := by cases b <;> decide +kernel
    intro k hk capa hc r hr hf
    exact (this k hk r hr capa hc).resolve_left hf
  efficiencies := by
    refine ⟨?_, ?_⟩ <;> (cases b <;> decide +kernel)

theorem unitNet_storage (b : Bool) : (unitNet b).StorageUnitsSound noText 2 := by
  unfold PNetwork.StorageUnitsSound PNetwork.largest
  intro r hr
  have : ∀ r ∈ ((unitNet b).table .storageUnits).rows, (0 ≤ cellValue noText (r.2.get? "p_nom") ∧ 0 ≤ cellValue noText (r.2.get? ("p_nom" ++ "_max"))) ∧
      ∀ t < 2, 0 ≤ (unitNet b).attr noText .storageUnits r "max_hours" t ∧ 0 ≤ (unitNet b).attr noText .storageUnits r "p_max_pu" t := by
    cases b <;> decide +kernel
  refine ⟨?_, (this r hr).2⟩
  split_ifs
  · exact (this r hr).1.1
  · exact (this r hr).1.2

theorem unitNet_kept (b : Bool) : (unitNet b).KeptData noText 2 where
  generators := by unfold Kept; (cases b <;> decide +kernel)
  links := by unfold Kept; (cases b <;> decide +kernel)
  storageUnits := by unfold Kept; (cases b <;> decide +kernel)
  stores := by unfold Kept; (cases b <;> decide +kernel)
  capital := by
    intro k hk capa hc r hr _
    have : ∀ k ∈ pypsaKinds, ∀ r ∈ ((unitNet b).table k.ty).rows, k.capacity ≠ none → Kept (cellValue noText (r.2.get? "capital_cost")) := by
      unfold Kept
      cases b <;> decide +kernel
    exact this k hk r hr (by rw [hc]; simp)

/-- the library alone -/
def demoLibs : Dict String Library := [("pypsa_models", pypsaLibrary)]

theorem demoLibs_shipped : ShippedLibraries demoLibs := by
  intro k l h
  have := Dict.mem_of_get? h
  simp only [demoLibs, List.mem_cons, Prod.mk.injEq, List.not_mem_nil, or_false] at this
  obtain ⟨rfl, rfl⟩ := this
  exact ⟨pypsaInput, by simp, rfl, by decide +kernel⟩

/-- the network with a storage unit of given and symmetric capacity -/
abbrev demoNet : PNetwork := unitNet false

theorem demoNet_storage : demoNet.StorageUnitsFixed noText 2 := by
  unfold PNetwork.StorageUnitsFixed
  decide +kernel

/-- the only line of each table -/
def demoLine (ty : PType) : PLine := ((exNames ty).headD "", (exColumns (exKind ty)).map fun c => (c, unitCell false ty c))

theorem demo_rows (ty : PType) : (demoNet.table ty).rows = [demoLine ty] := by cases ty <;> rfl

/-- the numbers of the network -/
theorem demo_attrs (t : Nat) (ht : t < 2) :
    let A := fun ty a => demoNet.attr noText ty (demoLine ty) a t
    A .generators "sign" = 1 ∧ A .generators "p_min_pu" = 0 ∧ A .generators "p_max_pu" = 1 ∧ A .generators "marginal_cost" = 3 ∧
    A .generators "efficiency" = 1 ∧ A .loads "sign" = -1 ∧ A .loads "p_set" = 3 + t ∧
    A .links "p_min_pu" = 0 ∧ A .links "p_max_pu" = 1 ∧ A .links "marginal_cost" = 0 ∧ A .links "efficiency" = 1 ∧
    A .storageUnits "p_max_pu" = 1 ∧ A .storageUnits "p_min_pu" = -1 ∧ A .storageUnits "max_hours" = 1 ∧
    A .storageUnits "standing_loss" = 0 ∧ A .storageUnits "efficiency_store" = 1 ∧ A .storageUnits "efficiency_dispatch" = 1 ∧
    A .storageUnits "inflow" = 0 ∧ A .storageUnits "marginal_cost" = 0 ∧ A .storageUnits "spill_cost" = 0 ∧
    A .storageUnits "marginal_cost_storage" = 0 ∧ A .stores "e_min_pu" = 0 ∧ A .stores "e_max_pu" = 1 ∧ A .stores "standing_loss" = 0 ∧
    A .stores "marginal_cost" = 0 ∧ A .stores "marginal_cost_storage" = 0 := by
  revert t
  decide +kernel

theorem demo_fixed : Fixed "p_nom" (demoLine .generators).2 ∧ Fixed "p_nom" (demoLine .links).2 ∧ Fixed "p_nom" (demoLine .storageUnits).2 ∧
    Fixed "e_nom" (demoLine .stores).2 := by decide +kernel

theorem demo_attached (side : String) (ty : PType) (h : (ty, side) ∈ [(PType.generators, "bus"), (.loads, "bus"), (.links, "bus0"), (.links, "bus1"),
    (.storageUnits, "bus"), (.stores, "bus")]) : demoNet.attached ty side "N" = [demoLine ty] := by
  unfold PNetwork.attached
  rw [demo_rows]
  have : (demoLine ty).2.get? side = some (.str "N") := by
    revert h
    cases ty <;> intro h <;> simp at h <;> first | (subst h; decide +kernel) | (rcases h with rfl | rfl <;> decide +kernel)
  simp [this]

theorem demo_injection (x : PPlan) (t : Nat) (ht : t < 2) : demoNet.injection noText x "N" t =
    x.value .generators "G" "p" t - (3 + t) + (x.value .storageUnits "H" "p_dispatch" t - x.value .storageUnits "H" "p_store" t) +
      x.value .stores "B" "p" t := by
  unfold PNetwork.injection
  rw [demo_attached _ _ (by decide), demo_attached _ _ (by decide), demo_attached _ _ (by decide), demo_attached _ _ (by decide),
    demo_attached _ _ (by decide), demo_attached _ _ (by decide)]
  have A := demo_attrs t ht
  simp only at A
  obtain ⟨a1, -, -, -, -, a2, a3, -, -, -, a4, -⟩ := A
  simp only [List.map_cons, List.map_nil, List.sum_cons, List.sum_nil, a1, a2, a3, a4, one_mul]
  show x.value .generators "G" "p" t + 0 + (-1 * (3 + t) + 0) - (x.value .links "NN" "p0" t + 0) + (x.value .links "NN" "p0" t + 0) +
    (x.value .storageUnits "H" "p_dispatch" t - x.value .storageUnits "H" "p_store" t + 0) + (x.value .stores "B" "p" t + 0) = _
  ring

theorem demo_cost (x : PPlan) : demoNet.planCost noText 2 x = 3 * (x.value .generators "G" "p" 0 + x.value .generators "G" "p" 1) := by
  unfold PNetwork.planCost PNetwork.capitalCost
  have A0 := demo_attrs 0 (by decide)
  have A1 := demo_attrs 1 (by decide)
  simp only at A0 A1
  obtain ⟨-, -, -, a1, -, -, -, -, -, a2, -, -, -, -, -, -, -, -, a3, a4, a5, -, -, -, a6, a7⟩ := A0
  obtain ⟨-, -, -, b1, -, -, -, -, -, b2, -, -, -, -, -, -, -, -, b3, b4, b5, -, -, -, b6, b7⟩ := A1
  simp only [demo_rows, List.map_cons, List.map_nil, List.sum_cons, List.sum_nil, Finset.sum_range_succ, Finset.sum_range_zero, if_pos demo_fixed.1,
    if_pos demo_fixed.2.1, if_pos demo_fixed.2.2.1, if_pos demo_fixed.2.2.2, a1, a2, a3, a4, a5, a6, a7, b1, b2, b3, b4, b5, b6, b7]
  rw [show (demoLine .generators).1 = "G" from rfl]
  ring

/-- the generator covers the load, storage is not used -/
def demoPlan : PPlan where
  nominal _ _ := 7
  value ty _ v t := if ty = .generators ∧ v = "p" then 3 + t else 0

theorem demoPlan_admits : demoNet.Admits noText 2 demoPlan where
  generators r hr := by
    rw [demo_rows, List.mem_singleton] at hr
    subst hr
    refine ⟨⟨fun _ => by decide +kernel, fun h => absurd demo_fixed.1 h⟩, ?_, ?_, ?_⟩ <;> decide +kernel
  links r hr := by
    rw [demo_rows, List.mem_singleton] at hr
    subst hr
    refine ⟨⟨fun _ => by decide +kernel, fun h => absurd demo_fixed.2.1 h⟩, ?_⟩
    decide +kernel
  storageUnits r hr := by
    rw [demo_rows, List.mem_singleton] at hr
    subst hr
    refine ⟨⟨fun _ => by decide +kernel, fun h => absurd demo_fixed.2.2.1 h⟩, ?_⟩
    unfold PNetwork.UnitLimits
    decide +kernel
  stores r hr := by
    rw [demo_rows, List.mem_singleton] at hr
    subst hr
    refine ⟨⟨fun _ => by decide +kernel, fun h => absurd demo_fixed.2.2.2 h⟩, ?_⟩
    decide +kernel
  buses r hr t ht := by
    rw [demo_rows, List.mem_singleton] at hr
    subst hr
    rw [show (demoLine .buses).1 = "N" from rfl, demo_injection _ t ht]
    simp [demoPlan]
  emissions r hr q hq := by
    have : r = ("cap", [("type", .str "primary_energy"), ("carrier_attribute", .str "co2_emissions"), ("sense", .str "<="),
      ("constant", .num (.fin 50))]) := by simpa [unitNet, exNetwork] using hr
    subst this
    have : q = 50 := by
      have : some (Cell.num (.fin 50)) = some (.num (.fin q)) := hq
      cases this
      rfl
    subst this
    refine ⟨fun _ => ?_, fun h => ?_⟩
    · decide +kernel
    · have : some (Cell.str "<=") = some (.str "==") := h
      simp at this

theorem demoPlan_optimal (x : PPlan) (hx : demoNet.Admits noText 2 x) : demoNet.planCost noText 2 demoPlan ≤ demoNet.planCost noText 2 x := by
  rw [demo_cost, demo_cost]
  have hb : ∀ t < 2, _ = _ := fun t ht => (demo_injection x t ht).symm.trans (hx.buses (demoLine .buses) (by rw [demo_rows]; simp) t ht)
  have hs := (hx.storageUnits (demoLine .storageUnits) (by rw [demo_rows]; simp)).2
  have he := (hx.stores (demoLine .stores) (by rw [demo_rows]; simp)).2
  have A0 := demo_attrs 0 (by decide)
  have A1 := demo_attrs 1 (by decide)
  simp only at A0 A1
  obtain ⟨-, -, -, -, -, -, -, -, -, -, -, -, -, -, s1, s2, s3, s4, -, -, -, -, -, s5, -, -⟩ := A0
  obtain ⟨-, -, -, -, -, -, -, -, -, -, -, -, -, -, t1, t2, t3, t4, -, -, -, -, -, t5, -, -⟩ := A1
  have b0 := hb 0 (by decide)
  have b1 := hb 1 (by decide)
  obtain ⟨-, w0, h0⟩ := hs 0 (by decide)
  obtain ⟨-, w1, h1⟩ := hs 1 (by decide)
  obtain ⟨-, e0⟩ := he 0 (by decide)
  obtain ⟨-, e1⟩ := he 1 (by decide)
  rw [s1, s2, s3, s4] at h0
  rw [t1, t2, t3, t4] at h1
  rw [s5] at e0
  rw [t5] at e1
  simp only [show (demoLine .storageUnits).1 = "H" from rfl, show (demoLine .stores).1 = "B" from rfl, Nat.reduceAdd, Nat.reduceSub,
    Nat.reduceMod] at w0 w1 h0 h1 e0 e1
  simp only [demoPlan, true_and, if_true]
  push_cast at *
  linarith

/-- The hypotheses of C65 are met: any solution of the solver problem of this network costs 21. -/
example : ∃ s sys net db st, pypsaConvert noText demoNet = .ok s ∧ resolveSystem s.system demoLibs = .ok sys ∧ buildNetwork sys = .ok net ∧
    buildDataBase s.load s.system = .ok db ∧
    OptCtx.buildProblem { network := net, database := db, timesteps := [0, 1], scenarios := 1 } = .ok st ∧
    ∀ (pt : Nat → ℚ) (σ : TermKey → ℚ), (∀ k i, st.columns.get? k = some i → pt i = σ k) → st.solver.Feasible pt →
      (∀ pt', st.solver.Feasible pt' → st.solver.cost pt ≤ st.solver.cost pt') → st.solver.cost pt = 21 := by
  obtain ⟨s, sys, net, db, st, h1, h2, h3, h4, h5, h6⟩ := c65_problem_partial noText demoNet 2 (exNetwork_tables _ _ _) (unitNet_accepted false).1
    (unitNet_accepted false).2 (unitNet_names _) (unitNet_buses _) (unitNet_series _) (unitNet_sound _) demoNet_storage (unitNet_kept _) demoLibs demoLibs_shipped rfl
  refine ⟨s, sys, net, db, st, h1, h2, h3, h4, h5, fun pt σ hσ hf hm => ?_⟩
  obtain ⟨⟨-, e2⟩, e3⟩ := h6 pt σ hσ
  obtain ⟨a1, a2⟩ := e3.1 ⟨hf, hm⟩
  have l1 := a2 demoPlan demoPlan_admits
  have l2 := demoPlan_optimal _ a1
  rw [e2, le_antisymm l1 l2, demo_cost]
  norm_num [demoPlan]

/-! ## What the shipped model of storage units gets wrong -/

/-- the network whose storage unit can be extended and is not symmetric -/
abbrev skewNet : PNetwork := unitNet true

/-- the only line of each table -/
def skewLine (ty : PType) : PLine := ((exNames ty).headD "", (exColumns (exKind ty)).map fun c => (c, unitCell true ty c))

theorem skew_rows (ty : PType) : (skewNet.table ty).rows = [skewLine ty] := by cases ty <;> rfl

theorem skew_fixed : Fixed "p_nom" (skewLine .generators).2 ∧ Fixed "p_nom" (skewLine .links).2 ∧ ¬ Fixed "p_nom" (skewLine .storageUnits).2 ∧
    Fixed "e_nom" (skewLine .stores).2 := by decide +kernel

/-- decisions on this network: the nominal capacity of the storage unit, and the values of its quantities and of the generator -/
def skewPlan (nom : ℚ) (gen dispatch store soc spill : Nat → ℚ) : PPlan where
  nominal ty _ := if ty = .storageUnits then nom else 7
  value ty _ v t := if ty = .generators then gen t else if ty = .storageUnits then
    (if v = "p_dispatch" then dispatch t else if v = "p_store" then store t else if v = "state_of_charge" then soc t else spill t) else 0

/-- chosen capacity 1, dispatched power 3 -/
def planA : PPlan := skewPlan 1 (fun t => t) (fun _ => 3) (fun _ => 0) (fun _ => 0) (fun _ => 0)

/-- chosen capacity 10, stored power 6 -/
def planB : PPlan := skewPlan 10 (fun t => if t = 0 then 6 else 0) (fun t => if t = 0 then 3 else 4) (fun t => if t = 0 then 6 else 0)
  (fun t => if t = 0 then 6 else 0) (fun t => if t = 0 then 0 else 5)

theorem skew_largest : largest noText "p_nom" (skewLine .storageUnits) = 10 := by
  unfold largest
  rw [if_neg skew_fixed.2.2.1]
  decide +kernel

theorem skew_admits (x : PPlan) (hx : x ∈ [planA, planB]) : skewNet.AdmitsShipped noText 2 x where
  generators r hr := by
    rw [skew_rows, List.mem_singleton] at hr
    subst hr
    simp only [List.mem_cons, List.not_mem_nil, or_false] at hx
    rcases hx with rfl | rfl <;>
    · refine ⟨⟨fun _ => by decide +kernel, fun h => absurd skew_fixed.1 h⟩, ?_, ?_, ?_⟩ <;> decide +kernel
  links r hr := by
    rw [skew_rows, List.mem_singleton] at hr
    subst hr
    simp only [List.mem_cons, List.not_mem_nil, or_false] at hx
    rcases hx with rfl | rfl <;>
    · refine ⟨⟨fun _ => by decide +kernel, fun h => absurd skew_fixed.2.1 h⟩, ?_⟩
      decide +kernel
  storageUnits r hr := by
    rw [skew_rows, List.mem_singleton] at hr
    subst hr
    simp only [List.mem_cons, List.not_mem_nil, or_false] at hx
    rcases hx with rfl | rfl <;>
    · refine ⟨⟨fun h => absurd h skew_fixed.2.2.1, fun _ => by decide +kernel⟩, ?_⟩
      unfold PNetwork.ShippedUnitLimits
      rw [skew_largest]
      decide +kernel
  stores r hr := by
    rw [skew_rows, List.mem_singleton] at hr
    subst hr
    simp only [List.mem_cons, List.not_mem_nil, or_false] at hx
    rcases hx with rfl | rfl <;>
    · refine ⟨⟨fun _ => by decide +kernel, fun h => absurd skew_fixed.2.2.2 h⟩, ?_⟩
      decide +kernel
  buses := by
    simp only [List.mem_cons, List.not_mem_nil, or_false] at hx
    rcases hx with rfl | rfl <;> decide +kernel
  emissions r hr q hq := by
    have : r = ("cap", [("type", .str "primary_energy"), ("carrier_attribute", .str "co2_emissions"), ("sense", .str "<="),
      ("constant", .num (.fin 50))]) := by simpa [unitNet, exNetwork] using hr
    subst this
    have : q = 50 := by
      have : some (Cell.num (.fin 50)) = some (.num (.fin q)) := hq
      cases this
      rfl
    subst this
    refine ⟨fun _ => ?_, fun h => ?_⟩
    · simp only [List.mem_cons, List.not_mem_nil, or_false] at hx
      rcases hx with rfl | rfl <;> decide +kernel
    · have : some (Cell.str "<=") = some (.str "==") := h
      simp at this

/-- the solver accepts the plans `planA` and `planB` -/
theorem skew_solver (x : PPlan) (hx : x ∈ [planA, planB]) : ∃ s sys net db st, pypsaConvert noText skewNet = .ok s ∧
    resolveSystem s.system demoLibs = .ok sys ∧ buildNetwork sys = .ok net ∧ buildDataBase s.load s.system = .ok db ∧
    OptCtx.buildProblem { network := net, database := db, timesteps := [0, 1], scenarios := 1 } = .ok st ∧
    ∃ σ, PPlan.Agree skewNet (planOf σ) x ∧ ∀ pt : Nat → ℚ, (∀ k i, st.columns.get? k = some i → pt i = σ k) → st.solver.Feasible pt := by
  obtain ⟨s, sys, net, db, st, h1, h2, h3, h4, h5, h6⟩ := c65_actual noText skewNet 2 (exNetwork_tables _ _ _) (unitNet_accepted true).1
    (unitNet_accepted true).2 (unitNet_names _) (unitNet_buses _) (unitNet_series _) (unitNet_sound _) (unitNet_storage _) (unitNet_kept _)
    demoLibs demoLibs_shipped rfl
  obtain ⟨σ, hσ⟩ := exists_values (unitNet_names true) x
  exact ⟨s, sys, net, db, st, h1, h2, h3, h4, h5, σ, hσ, fun pt hpt => (h6 pt σ hpt).1.1.2 (hσ.symm.shipped (skew_admits x hx))⟩

/-- **C65, storage units that can be extended: the chosen capacity does not limit the dispatched power.** The shipped model repeats the limit
of the stored power instead.  In this network the solver accepts decisions with a nominal power of 1 and a dispatched power of 3, although
`p_max_pu` is 1: they are not admissible for the network. -/
theorem c65_extendable_storage : ∃ x : PPlan, skewNet.attr noText .storageUnits (skewLine .storageUnits) "p_max_pu" 0 = 1 ∧
    x.nominal .storageUnits "H" = 1 ∧ x.value .storageUnits "H" "p_dispatch" 0 = 3 ∧ ¬ skewNet.Admits noText 2 x ∧
    ∃ s sys net db st, pypsaConvert noText skewNet = .ok s ∧ resolveSystem s.system demoLibs = .ok sys ∧ buildNetwork sys = .ok net ∧
      buildDataBase s.load s.system = .ok db ∧
      OptCtx.buildProblem { network := net, database := db, timesteps := [0, 1], scenarios := 1 } = .ok st ∧
      ∃ σ, PPlan.Agree skewNet (planOf σ) x ∧ ∀ pt : Nat → ℚ, (∀ k i, st.columns.get? k = some i → pt i = σ k) → st.solver.Feasible pt := by
  refine ⟨planA, by decide +kernel, by decide +kernel, by decide +kernel, fun h => ?_, skew_solver _ (by simp)⟩
  obtain ⟨⟨-, h⟩, -⟩ := ((h.storageUnits (skewLine .storageUnits) (by rw [skew_rows]; simp)).2 0 (by decide)).1
  revert h
  decide +kernel

/-- **C65, storage units that are not symmetric: `p_min_pu` does not limit the stored power.** The shipped model declares the parameter but
takes `p_max_pu` instead.  In this network the solver accepts decisions with a nominal power of 10 and a stored power of 6, although `p_min_pu` is
`-1/2`: they are not admissible for the network. -/
theorem c65_storage_charge : ∃ x : PPlan, skewNet.attr noText .storageUnits (skewLine .storageUnits) "p_min_pu" 0 = -1/2 ∧
    x.nominal .storageUnits "H" = 10 ∧ x.value .storageUnits "H" "p_store" 0 = 6 ∧ ¬ skewNet.Admits noText 2 x ∧
    ∃ s sys net db st, pypsaConvert noText skewNet = .ok s ∧ resolveSystem s.system demoLibs = .ok sys ∧ buildNetwork sys = .ok net ∧
      buildDataBase s.load s.system = .ok db ∧
      OptCtx.buildProblem { network := net, database := db, timesteps := [0, 1], scenarios := 1 } = .ok st ∧
      ∃ σ, PPlan.Agree skewNet (planOf σ) x ∧ ∀ pt : Nat → ℚ, (∀ k i, st.columns.get? k = some i → pt i = σ k) → st.solver.Feasible pt := by
  refine ⟨planB, by decide +kernel, by decide +kernel, by decide +kernel, fun h => ?_, skew_solver _ (by simp)⟩
  obtain ⟨-, ⟨-, h⟩, -⟩ := ((h.storageUnits (skewLine .storageUnits) (by rw [skew_rows]; simp)).2 0 (by decide)).1
  revert h
  decide +kernel

/-- The relaxation applies to this network. -/
example {x : PPlan} (hx : skewNet.Admits noText 2 x) : skewNet.AdmitsShipped noText 2 x :=
  c65_relaxation (unitNet_storage true) (by decide +kernel) hx

end Verif.Props
