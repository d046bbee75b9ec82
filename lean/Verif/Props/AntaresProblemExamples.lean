import Verif.Props.AntaresProblem
import Verif.Props.ShippedStudy

/-! # C69: an example, and what goes wrong at the first hour -/

namespace Verif.Props
open Verif Verif.Expr Verif.OptCtx Verif.Shipped

/-- the study of the examples of C56, with a battery in `fr` -/
abbrev demoA : AStudy := demoStudy [demoFr, demoDe, demoZ]

/-- the data of its battery -/
def demoBattery : BatteryData :=
  ⟨.fin 200, [.fin 5, .fin 10], .fin 20, .fin (-9 / 10), 1, [.fin 5, .fin 10], [.fin 5, .fin 10], [.fin 5, .fin 10]⟩

/-- the gas plant -/
abbrev demoGas : AThermal := demoCluster "fr" "gas" (.fin 50)

/-- the tables on the disk -/
def demoDisk (name : String) : R Frame :=
  if name = "/study/input/thermal/series/fr/gas/series.txt" then .ok demoGas.series
  else if name = "/study/input/load/series/load_fr.txt" then .ok ⟨1, [[.fin 50], [.fin 60]]⟩
  else .ok ⟨1, [[.fin 30], [.fin 40]]⟩

theorem two_rows_finite (a b : ℚ) : (⟨1, [[.fin a], [.fin b]]⟩ : Frame).Finite := by
  intro row hr
  simp only [List.mem_cons, List.not_mem_nil, or_false] at hr
  rcases hr with rfl | rfl <;> exact ⟨rfl, fun v hv => ⟨_, List.mem_singleton.1 hv⟩⟩

theorem demo_values : demoA.areas.values = [demoFr, demoDe, demoZ] := rfl
theorem demo_links : demoA.links.values = [⟨"fr / de", "fr", "de"⟩, ⟨"fr / z_batteries", "fr", "z_batteries"⟩] := rfl

theorem demo_objects : demoA.objects = [.thermal demoFr demoGas, .load demoFr, .link ⟨"fr / de", "fr", "de"⟩] := by
  have h1 : ¬ IsBatteryCluster demoA demoFr.id demoGas.id := by
    rintro ⟨b, hb, ⟨e1, e2⟩ | ⟨e1, -⟩⟩
    · rw [← e1] at e2
      exact absurd (show "gas" = "fr" ++ "_batteries_inj" from e2) (by decide)
    · exact absurd (show "fr" = "z_batteries" from e1) (by decide)
  have h2 : IsBatteryCluster demoA demoFr.id (demoCluster "fr" "fr_batteries_inj" (.fin 20)).id := ⟨demoFr, by rw [demo_values]; simp, .inl ⟨rfl, by decide⟩⟩
  have h3 : IsBatteryCluster demoA demoZ.id (demoCluster "z_batteries" "z_batteries_batteries_fr_1" (.fin 200)).id := ⟨demoFr, by rw [demo_values]; simp, .inr ⟨rfl, .inl (by decide)⟩⟩
  have h4 : IsBatteryCluster demoA demoZ.id (demoCluster "z_batteries" "z_batteries_batteries_fr_2" (.fin 200)).id := ⟨demoFr, by rw [demo_values]; simp, .inr ⟨rfl, .inr (by decide)⟩⟩
  have h5 : HasData demoFr.load := ⟨_, rfl, by decide, _, List.mem_cons_self, _, List.mem_singleton.2 rfl, by decide⟩
  have h6 : ¬ HasData none := fun ⟨_, h, _⟩ => by cases h
  have h7 : IsBatteryLink demoA ⟨"fr / z_batteries", "fr", "z_batteries"⟩ := ⟨rfl, demoFr, by rw [demo_values]; simp, rfl⟩
  have h8 : ¬ IsBatteryLink demoA ⟨"fr / de", "fr", "de"⟩ := fun h => absurd h.1 (by decide)
  have t1 : demoFr.thermals.values = [demoGas, demoCluster "fr" "fr_batteries_inj" (.fin 20)] := rfl
  have t2 : demoDe.thermals.values = [] := rfl
  have t3 : demoZ.thermals.values = [demoCluster "z_batteries" "z_batteries_batteries_fr_1" (.fin 200),
    demoCluster "z_batteries" "z_batteries_batteries_fr_2" (.fin 200)] := rfl
  have r : ∀ a ∈ [demoFr, demoDe, demoZ], a.renewables.values = [] ∧ a.storages.values = [] ∧ a.wind = none ∧ a.solar = none := by
    intro a ha
    simp only [List.mem_cons, List.not_mem_nil, or_false] at ha
    rcases ha with rfl | rfl | rfl <;> exact ⟨rfl, rfl, rfl, rfl⟩
  have rf := r demoFr (by simp)
  have rd := r demoDe (by simp)
  have rz := r demoZ (by simp)
  have l2 : demoDe.load = none := rfl
  have l3 : demoZ.load = none := rfl
  unfold AStudy.objects
  rw [demo_values, demo_links]
  simp only [List.flatMap_cons, List.flatMap_nil, rf.1, rf.2.1, rd.1, rd.2.1, rz.1, rz.2.1, t1, t2, t3, List.map_nil, List.append_nil, List.nil_append]
  simp only [List.filter_cons, List.filter_nil, rf.2.2.1, rf.2.2.2, rd.2.2.1, rd.2.2.2, rz.2.2.1, rz.2.2.2, l2, l3, h5, h6, h7, h8]
  simp only [h1, h2, h3, h4]
  simp

theorem demo_batteries : demoA.Batteries [(demoFr, demoBattery)] where
  first := ⟨[demoDe], by rw [demo_values]; rfl, by
    intro a ha
    rw [List.mem_singleton] at ha
    rw [ha]
    exact demo_no_battery _⟩
  data := by
    intro x hx
    rw [List.mem_singleton] at hx
    subst hx
    constructor
    · exact ⟨demoFr, rfl⟩
    · exact ⟨demoZ, _, rfl, rfl, rfl⟩
    · exact ⟨_, rfl, by decide, rfl⟩
    · exact ⟨demoFr, _, rfl, rfl, rfl⟩
    · exact ⟨_, rfl, rfl⟩
    · exact ⟨_, rfl, rfl⟩
    · exact ⟨_, rfl, by decide, rfl⟩
    · exact ⟨_, rfl, by decide, rfl⟩
    · exact ⟨_, rfl, by decide, rfl⟩

theorem demo_distinct : demoA.Distinct [(demoFr, demoBattery)] where
  names := by
    rw [demo_objects]
    decide +kernel
  files := by
    rw [demo_objects]
    decide +kernel

theorem demo_gas_sound : demoGas.Sound 2 where
  capacity := ⟨50, rfl, by norm_num⟩
  numbers := by decide +kernel
  durations := ⟨⟨0, rfl⟩, ⟨0, rfl⟩⟩
  series := ⟨two_rows_finite _ _, by decide, by decide⟩
  single := rfl
  modulation := ⟨⟨by decide +kernel, by decide⟩, rfl⟩
  available := by decide +kernel

theorem demo_sound : demoA.SoundData demoDisk [(demoFr, demoBattery)] 2 1 where
  hours := by decide
  scenarios := by decide
  tables := by
    intro n f h
    unfold demoDisk at h
    split_ifs at h <;> cases h <;> unfold Frame.Rectangular <;> decide
  areas := by decide +kernel
  objects := by
    rw [demo_objects]
    intro o ho
    simp only [List.mem_cons, List.not_mem_nil, or_false] at ho
    rcases ho with rfl | rfl | rfl
    · exact ⟨demo_gas_sound, rfl, by decide +kernel⟩
    · exact ⟨_, rfl, ⟨two_rows_finite _ _, by decide, by decide⟩, by decide +kernel⟩
    · refine ⟨?_, by decide +kernel⟩
      intro n hn
      simp only [List.mem_cons, List.not_mem_nil, or_false] at hn
      rcases hn with rfl | rfl <;> exact ⟨⟨1, [[.fin 30], [.fin 40]]⟩, by decide +kernel, two_rows_finite _ _, by decide, by decide⟩
  batteries := by
    intro e he
    rw [List.mem_singleton] at he
    subst he
    exact {
      reservoir := ⟨200, rfl, by norm_num⟩
      withdrawal := ⟨20, rfl, by norm_num⟩
      weights := by decide +kernel
      injection := ⟨⟨by decide +kernel, by decide⟩, 10, ⟨by decide +kernel, by decide +kernel⟩, by norm_num⟩
      series := ⟨⟨by decide +kernel, by decide⟩, ⟨by decide +kernel, by decide⟩, ⟨by decide +kernel, by decide⟩⟩
      values := by decide +kernel }

theorem demo_supported : demoA.Supported demoDisk [(demoFr, demoBattery)] 2 1 none where
  plain := demo_plain (by simp)
  keys := demo_keys _
  connectable := demo_connectable
  noRenewables := by rw [demo_values]; decide +kernel
  readable := demo_readable _
  batteries := demo_batteries
  distinct := demo_distinct
  data := demo_sound
  period := fun p h => by cases h

theorem demo_kept : demoA.KeptData [(demoFr, demoBattery)] 2 1 where
  areas := by unfold PNetwork.Kept; decide +kernel
  thermals := by
    rw [demo_objects]
    intro a c h
    simp only [List.mem_cons, List.not_mem_nil, or_false, reduceCtorEq, AObject.thermal.injEq] at h
    obtain ⟨-, rfl⟩ := h
    unfold PNetwork.Kept
    decide +kernel
  storages := by
    rw [demo_objects]
    intro a c h
    simp at h
  batteries := by unfold PNetwork.Kept; decide +kernel

/-- the two libraries -/
def antaresLibs : Dict String Library := [("antares-historic", antaresLibrary), ("andromede-v1-models", andromedeLibrary)]

theorem antaresLibs_shipped : ShippedLibraries antaresLibs := by
  intro k l h
  have := Dict.mem_of_get? h
  simp only [antaresLibs, List.mem_cons, Prod.mk.injEq, List.not_mem_nil, or_false] at this
  rcases this with ⟨rfl, rfl⟩ | ⟨rfl, rfl⟩
  · exact ⟨antaresInput, by simp, rfl, by decide +kernel⟩
  · exact ⟨andromedeInput, by simp, rfl, by decide +kernel⟩

/-- `c69_builds`, `c69_actual` and `c69_problem_partial` are about studies like this one, with a cluster, a load, a link and a battery:
as many units are available at the two hours. -/
example : demoA.Supported demoDisk [(demoFr, demoBattery)] 2 1 none ∧ demoA.KeptData [(demoFr, demoBattery)] 2 1 ∧
    (∀ a c, .thermal a c ∈ demoA.objects → 2 ≤ comparedPeriod none ∧ c.units (2 - 1) 0 = c.units 0 0) ∧ ShippedLibraries antaresLibs ∧
    (Dict.get? antaresLibs "antares-historic").isSome = true ∧ (Dict.get? antaresLibs "andromede-v1-models").isSome = true := by
  refine ⟨demo_supported, demo_kept, ?_, antaresLibs_shipped, rfl, rfl⟩
  rw [demo_objects]
  intro a c h
  simp only [List.mem_cons, List.not_mem_nil, or_false, reduceCtorEq, AObject.thermal.injEq] at h
  obtain ⟨-, rfl⟩ := h
  decide +kernel

/-! ## The first hour -/

/-- a plant with one unit, that is not available at the first hour and must run for two hours at least -/
def outageGas : AThermal :=
  { id := "gas", areaId := "fr", modulation := [1, 1], series := ⟨1, [[.fin 0], [.fin 50]]⟩, unitCount := 1, nominalCapacity := .fin 50,
    minUpTime := .fin 2 }

/-- its area -/
def outageFr : AArea := { id := "fr", energyCostUnsupplied := .fin 1000, energyCostSpilled := .fin 10, thermals := [("gas", outageGas)] }

/-- the study with this area -/
def outageStudy : AStudy :=
  { path := "/study", areas := [("fr", outageFr)], readSeries := fun _ _ _ _ => .error (.exception "FileNotFoundError"),
    seriesDir := fun f a c s => "/study/input/" ++ f ++ "/" ++ a ++ "/" ++ c.getD "" ++ s.getD "" }

/-- its table -/
def outageDisk (_ : String) : R Frame := .ok outageGas.series

theorem outage_values : outageStudy.areas.values = [outageFr] := rfl

theorem outage_objects : outageStudy.objects = [.thermal outageFr outageGas] := by
  have h1 : ¬ IsBatteryCluster outageStudy outageFr.id outageGas.id := by
    rintro ⟨b, hb, ⟨e1, e2⟩ | ⟨e1, -⟩⟩
    · rw [← e1] at e2
      exact absurd (show "gas" = "fr" ++ "_batteries_inj" from e2) (by decide)
    · exact absurd (show "fr" = "z_batteries" from e1) (by decide)
  have h2 : ¬ HasData none := fun ⟨_, h, _⟩ => by cases h
  have t1 : outageFr.thermals.values = [outageGas] := rfl
  have r : outageFr.renewables.values = [] ∧ outageFr.storages.values = [] ∧ outageFr.wind = none ∧ outageFr.solar = none ∧
    outageFr.load = none := ⟨rfl, rfl, rfl, rfl, rfl⟩
  have l : outageStudy.links.values = [] := rfl
  unfold AStudy.objects
  rw [outage_values, l]
  simp only [List.flatMap_cons, List.flatMap_nil, r.1, r.2.1, t1, List.map_nil, List.append_nil, List.nil_append]
  simp only [List.filter_cons, List.filter_nil, r.2.2.1, r.2.2.2.1, r.2.2.2.2, h1, h2]
  simp

theorem outage_supported : outageStudy.Supported outageDisk [] 2 1 none where
  plain := by
    constructor
    · rw [outage_values]; decide
    · intro l hl; cases hl
  keys := by
    intro k a h
    simp only [outageStudy, List.mem_singleton, Prod.mk.injEq] at h
    obtain ⟨rfl, rfl⟩ := h
    rfl
  connectable := by
    constructor
    · rw [outage_values]; decide +kernel
    · intro l hl; cases hl
    · rw [outage_values]
      intro a ha
      rw [List.mem_singleton] at ha
      subst ha
      exact ⟨fun ⟨_, h, _⟩ => (by cases h), fun ⟨_, h, _⟩ => (by cases h)⟩
    · rw [outage_values]
      intro a ha hz
      rw [List.mem_singleton] at ha
      subst ha
      exact absurd hz (by decide)
    · intro l hl; cases hl
  noRenewables := by rw [outage_values]; decide +kernel
  readable := fun _ _ _ _ => .inr rfl
  batteries := {
    first := ⟨[outageFr], rfl, by
      intro a _ h
      obtain ⟨d, hd⟩ := h
      obtain ⟨b, h1, -⟩ := hd.linkWeight
      cases h1⟩
    data := fun x hx => by cases hx }
  distinct := {
    names := by rw [outage_objects]; decide +kernel
    files := by rw [outage_objects]; decide +kernel }
  data := {
    hours := by decide
    scenarios := by decide
    tables := by
      intro n f h
      cases h
      unfold Frame.Rectangular
      decide
    areas := by decide +kernel
    objects := by
      rw [outage_objects]
      intro o ho
      rw [List.mem_singleton] at ho
      subst ho
      refine ⟨?_, rfl, rfl⟩
      exact {
        capacity := ⟨50, rfl, by norm_num⟩
        numbers := by decide +kernel
        durations := ⟨⟨2, rfl⟩, ⟨0, rfl⟩⟩
        series := ⟨two_rows_finite _ _, by decide, by decide⟩
        single := rfl
        modulation := ⟨⟨by decide +kernel, by decide⟩, rfl⟩
        available := by decide +kernel }
    batteries := fun e he => by cases he }
  period := fun p h => by cases h

theorem outage_kept : outageStudy.KeptData [] 2 1 where
  areas := by unfold PNetwork.Kept; decide +kernel
  thermals := by
    rw [outage_objects]
    intro a c h
    simp only [List.mem_cons, List.not_mem_nil, or_false, AObject.thermal.injEq] at h
    obtain ⟨-, rfl⟩ := h
    unfold PNetwork.Kept
    decide +kernel
  storages := by
    rw [outage_objects]
    intro a c h
    simp at h
  batteries := fun e he => by cases he

/-- The unit fails at the first hour and starts at the second one. -/
def outagePlan : APlan := fun _ v t _ =>
  if v = "generation" ∨ v = "spillage" then (if t = 1 then 50 else 0)
  else if v = "nb_units_on" ∨ v = "nb_starting" then (if t = 1 then 1 else 0)
  else if v = "nb_stopping" ∨ v = "nb_failing" then (if t = 1 then 0 else 1)
  else 0

theorem outage_admits : outageStudy.Admits outageDisk [] 2 1 outagePlan where
  areas := by
    intro a ha
    have : a = outageFr := by
      simp only [AStudy.balanced, outage_values, List.mem_filter, List.mem_singleton] at ha
      exact ha.1
    subst this
    unfold AStudy.receives
    rw [outage_objects]
    decide +kernel
  objects := by
    rw [outage_objects]
    intro o ho t ht s hs
    rw [List.mem_singleton] at ho
    subst ho
    have hs0 : s = 0 := by omega
    subst hs0
    have hw : ∀ n : Int, Whole (n : ℚ) := fun n => ⟨n, rfl⟩
    have : t = 0 ∨ t = 1 := by omega
    rcases this with rfl | rfl
    · exact ⟨by decide +kernel, ⟨by decide +kernel, by decide +kernel, hw 0⟩, ⟨by decide +kernel, by decide +kernel, hw 0⟩,
        ⟨by decide +kernel, hw 1⟩, by decide +kernel, by decide +kernel, by decide +kernel, by decide +kernel, by decide +kernel⟩
    · exact ⟨by decide +kernel, ⟨by decide +kernel, by decide +kernel, hw 1⟩, ⟨by decide +kernel, by decide +kernel, hw 1⟩,
        ⟨by decide +kernel, hw 0⟩, by decide +kernel, by decide +kernel, by decide +kernel, by decide +kernel, by decide +kernel⟩
  batteries := fun e he => by cases he

theorem outage_none (x : APlan) : ¬ outageStudy.AdmitsWith outageDisk [] 2 1 (fun c => c.comparedWith none) x := by
  intro h
  have hmem : AObject.thermal outageFr outageGas ∈ outageStudy.objects := by rw [outage_objects]; exact List.mem_singleton.2 rfl
  have h0 : outageGas.Ok 2 (outageGas.comparedWith none) (x "gas") 0 0 := h.objects _ hmem 0 (by omega) 0 (by omega)
  have h1 : outageGas.Ok 2 (outageGas.comparedWith none) (x "gas") 1 0 := h.objects _ hmem 1 (by omega) 0 (by omega)
  have u0 : outageGas.units 0 0 = 0 := by decide +kernel
  have m1 : outageGas.unitsFor (outageGas.required 1 0) = 1 := by decide +kernel
  have l0 : outageGas.lost (outageGas.comparedWith none) 0 0 = 0 := by decide +kernel
  have l1 : outageGas.lost (outageGas.comparedWith none) 1 0 = 0 := by decide +kernel
  have e0 : earlier 2 0 1 = 1 := by decide
  have e1 : earlier 2 1 1 = 0 := by decide
  have e2 : earlier 2 0 0 = 0 := by decide
  have hh : AThermal.hours outageGas.minUpTime = 2 := by decide +kernel
  have on0 := h0.running.2.1
  have on1 := h1.running.1
  have f0 := h0.failing.2.2
  have f1 := h1.failing.2.2
  have s0 := h0.starting.1
  have p1 := h1.stopping.1
  have d1 := h1.dynamics
  have up := h0.minUp
  rw [hh, Finset.sum_range_succ, Finset.sum_range_one, e0, e2] at up
  rw [e1] at d1
  rw [u0] at on0
  rw [m1] at on1
  rw [l0] at f0
  rw [l1] at f1
  linarith

/-- **C69, violation: the first hour, in full.** There is a study that can be operated, and whose solver problem has no solution at all. -/
theorem c69_first_hour_infeasible : ∃ (st : AStudy) (disk : String → R Frame), st.Supported disk [] 2 1 none ∧ st.KeptData [] 2 1 ∧
    (∃ x, st.Admits disk [] 2 1 x) ∧ ∀ libs, ShippedLibraries libs → (Dict.get? libs "antares-historic").isSome = true →
    ∃ sys files rsys net db p, convertStudy st batteryTemplate none [] = .ok (sys, files) ∧ resolveSystem sys libs = .ok rsys ∧
      buildNetwork rsys = .ok net ∧ buildDataBase (AStudy.load disk files) sys = .ok db ∧
      OptCtx.buildProblem { network := net, database := db, timesteps := (List.range 2).map Int.ofNat, scenarios := 1 } = .ok p ∧
      ∀ pt, ¬ p.solver.Feasible pt := by
  refine ⟨outageStudy, outageDisk, outage_supported, outage_kept, ⟨_, outage_admits⟩, fun libs hl hp => ?_⟩
  obtain ⟨sys, files, rsys, net, db, p, e1, e2, e3, e4, e5, h⟩ := c69_actual outageStudy outageDisk [] 2 1 none [] outage_supported
    outage_kept libs hl ⟨hp, fun h => absurd rfl h⟩
  refine ⟨sys, files, rsys, net, db, p, e1, e2, e3, e4, e5, fun pt hpt => ?_⟩
  have := h pt (fun k => ((p.columns.get? k).map pt).getD 0) fun k i hk => by simp only [hk]; rfl
  exact outage_none _ (this.1.1.1 hpt)

/-! ## Studies that cannot be used -/

/-- `c69_wind` is about studies like this one -/
example : ∃ sys files, convertStudy demoWindStudy batteryTemplate none [] = .ok (sys, files) ∧ PlainAreas demoWindStudy ∧
    demoWind "fr" ∈ demoWindStudy.areas.values ∧ HasData (demoWind "fr").wind := by
  refine ⟨_, _, rfl, ⟨?_, fun l hl => by cases hl⟩, by simp [demoWindStudy, Dict.values], ⟨_, rfl, by decide, _, List.mem_singleton.2 rfl, _,
    List.mem_singleton.2 rfl, by decide⟩⟩
  intro a ha
  have : a = demoWind "fr" ∨ a = demoWind "de" := by simpa [demoWindStudy, Dict.values] using ha
  rcases this with rfl | rfl <;> decide

/-- an area with a renewable cluster -/
def sunFr : AArea :=
  { id := "fr", energyCostUnsupplied := .fin 1000, energyCostSpilled := .fin 10,
    renewables := [("sun", { id := "sun", areaId := "fr", unitCount := .fin 2, nominalCapacity := .fin 50 })] }

/-- its study -/
def sunStudy : AStudy :=
  { path := "/study", areas := [("fr", sunFr)], readSeries := fun _ _ _ _ => .error (.exception "FileNotFoundError"),
    seriesDir := fun _ _ _ _ => "" }

/-- the study that it is converted to -/
def sunSystem : InputSystem :=
  match convertStudy sunStudy batteryTemplate none [] with
  | .ok r => r.1
  | .error _ => {}

/-- `c69_renewable` is about studies like this one: everything goes well until the problem is built. -/
example : (∃ files, convertStudy sunStudy batteryTemplate none [] = .ok (sunSystem, files)) ∧ PlainAreas sunStudy ∧
    ((sunSystem.components ++ sunSystem.nodes).map (·.id)).Nodup ∧ sunFr.renewables.values ≠ [] ∧
    ∃ rsys net db, resolveSystem sunSystem antaresLibs = .ok rsys ∧ buildNetwork rsys = .ok net ∧
      buildDataBase (AStudy.load outageDisk []) sunSystem = .ok db := by
  refine ⟨⟨_, rfl⟩, ⟨?_, fun l hl => by cases hl⟩, by decide +kernel, by decide +kernel, ?_⟩
  · intro a ha
    have : a = sunFr := by simpa [sunStudy, Dict.values] using ha
    subst this
    decide
  · have : (match resolveSystem sunSystem antaresLibs with
      | .ok rsys => (match buildNetwork rsys, buildDataBase (AStudy.load outageDisk []) sunSystem with
        | .ok _, .ok _ => true
        | _, _ => false)
      | .error _ => false) = true := by decide +kernel
    split at this
    · next rsys h =>
      split at this
      · next net db h1 h2 => exact ⟨rsys, net, db, h, h1, h2⟩
      · cases this
    · cases this

/-- `c69_scenarios` is about studies like the first one, with two scenarios instead of one: everything goes well until the problem is
built. -/
example : ∃ sys files, convertStudy demoA batteryTemplate none [] = .ok (sys, files) ∧ PlainAreas demoA ∧ KeysAreIds demoA ∧
    demoA.Distinct [(demoFr, demoBattery)] ∧ ((sys.components ++ sys.nodes).map (·.id)).Nodup ∧ .thermal demoFr demoGas ∈ demoA.objects ∧
    0 < demoGas.series.rows.length ∧ ∃ rsys net db, resolveSystem sys antaresLibs = .ok rsys ∧ buildNetwork rsys = .ok net ∧
      buildDataBase (AStudy.load demoDisk files) sys = .ok db := by
  obtain ⟨sys, files, rsys, net, db, -, e1, e2, e3, e4, -⟩ := c69_builds demoA demoDisk _ 2 1 none [] demo_supported antaresLibs
    antaresLibs_shipped ⟨rfl, fun _ => rfl⟩
  obtain ⟨sys', files', e5, hn, hc⟩ := demo_first
  rw [e1] at e5
  cases e5
  refine ⟨sys, files, e1, demo_supported.plain, demo_supported.keys, demo_distinct, ?_, by rw [demo_objects]; exact List.mem_cons_self,
    by decide, rsys, net, db, e2, e3, e4⟩
  rw [List.map_append, hn, hc]
  decide

end Verif.Props
