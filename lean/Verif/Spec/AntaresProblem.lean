import Verif.Spec.Antares
import Verif.Spec.Thermal
import Verif.Spec.PypsaProblem

/-!
# What an Antares study means

The optimisation problem of an Antares study over the first `T` hours and `S` scenarios, read directly from the objects of the study and
from the tables on the disk: which decisions are admissible, and what they cost on average.  Nothing here refers to converted components,
written files, models, libraries or solver problems.  Hours are cyclic: the hour before the first one is the last one.
-/

namespace Verif

/-- The decisions: for the name of an area, of an object or of a battery (`battery_` and the name of its area), a quantity (such as
`generation`, `nb_units_on`, `p_injection`, `level`, `flow`, `spillage`), an hour and a scenario, a value. -/
abbrev APlan := String → String → Nat → Nat → ℚ

/-- entry of a table -/
def cellAt (f : Frame) (t s : Nat) : ℚ := ((f.at t s).map Num.toQ).getD 0

/-- entry of a table that may be missing -/
def seriesAt (f : Option Frame) (t s : Nat) : ℚ := (f.map fun f => cellAt f t s).getD 0

/-- the hour `k` hours before `t` -/
def earlier (T t k : Nat) : Nat := (((t : Int) - k) % T).toNat

namespace AStudy

/-- the file for a name below the directory `input` -/
def fileOf (st : AStudy) (name : String) : String := st.path ++ "/input/" ++ name ++ ".txt"

/-- entry of a table of the study on the disk -/
def onDisk (st : AStudy) (disk : String → R Frame) (name : String) (t s : Nat) : ℚ :=
  match disk (st.fileOf name) with
  | .ok f => cellAt f t s
  | .error _ => 0

end AStudy

/-! ## Thermal clusters -/

namespace AThermal

/-- the power that is available -/
def available (c : AThermal) (t s : Nat) : ℚ := cellAt c.series t s

/-- the power that must be generated: the part of the whole capacity given by the modulation, if it is available -/
def required (c : AThermal) (t s : Nat) : ℚ :=
  min ((c.modulation.getD t .nan).toQ * c.nominalCapacity.toQ * c.unitCount) (c.available t s)

/-- how many units it takes to provide `q` -/
def unitsFor (c : AThermal) (q : ℚ) : ℚ := ⌈q / c.nominalCapacity.toQ⌉

/-- how many units are available -/
def units (c : AThermal) (t s : Nat) : ℚ := c.unitsFor (c.available t s)

/-- how many units become unavailable at hour `t`, after the hour `prev t` -/
def lost (c : AThermal) (prev : Nat → Nat) (t s : Nat) : ℚ := max 0 (c.units (prev t) s - c.units t s)

/-- how many units become available at hour `t`, after the hour `prev t` -/
def gained (c : AThermal) (prev : Nat → Nat) (t s : Nat) : ℚ := max 0 (c.units t s - c.units (prev t) s)

/-- how many hours the periods of comparison have: those asked for, else a week -/
def _root_.Verif.comparedPeriod (period : Option Int) : Nat := if period = none ∨ period = some 0 then 168 else (period.getD 0).toNat

/-- the hour with which the converter compares availability: the hour before, in the sense of `previousHour` -/
def comparedWith (c : AThermal) (period : Option Int) (t : Nat) : Nat := previousHour c.series.rows.length (comparedPeriod period) t

/-- the duration, in hours -/
def hours (v : Num) : Nat := v.toQ.ceil.toNat

/-- The decisions `x` on a cluster are admissible at hour `t`. -/
structure Ok (c : AThermal) (T : Nat) (prev : Nat → Nat) (x : String → Nat → Nat → ℚ) (t s : Nat) : Prop where
  /-- power is between what is required and what is available -/
  power : c.required t s ≤ x "generation" t s ∧ x "generation" t s ≤ c.available t s
  /-- so is the number of units that run, a whole number -/
  running : c.unitsFor (c.required t s) ≤ x "nb_units_on" t s ∧ x "nb_units_on" t s ≤ c.units t s ∧ Whole (x "nb_units_on" t s)
  /-- units start and stop, whole numbers of them; some of those that stop fail -/
  starting : 0 ≤ x "nb_starting" t s ∧ x "nb_starting" t s ≤ c.units t s ∧ Whole (x "nb_starting" t s)
  stopping : 0 ≤ x "nb_stopping" t s ∧ Whole (x "nb_stopping" t s)
  failing : 0 ≤ x "nb_failing" t s ∧ x "nb_failing" t s ≤ x "nb_stopping" t s ∧ x "nb_failing" t s ≤ c.lost prev t s
  /-- each running unit generates between its minimal and its nominal power -/
  each : x "nb_units_on" t s * c.minStablePower.toQ ≤ x "generation" t s ∧ x "generation" t s ≤ x "nb_units_on" t s * c.nominalCapacity.toQ
  /-- running units are those of the hour before, plus those that start, minus those that stop -/
  dynamics : x "nb_units_on" t s = x "nb_units_on" (earlier T t 1) s + x "nb_starting" t s - x "nb_stopping" t s
  /-- units that have started in the last hours of the minimal duration still run, unless they have failed -/
  minUp : ∑ k ∈ Finset.range (hours c.minUpTime), (x "nb_starting" (earlier T t k) s - x "nb_failing" (earlier T t k) s) ≤ x "nb_units_on" t s
  /-- units that have stopped in the last hours of the minimal duration do not run -/
  minDown : ∑ k ∈ Finset.range (hours c.minDownTime), x "nb_stopping" (earlier T t k) s ≤
    c.units (earlier T t (hours c.minDownTime)) s - x "nb_units_on" t s +
      ∑ k ∈ Finset.range (hours c.minDownTime), c.gained prev (earlier T t k) s

/-- the cost of the decisions on a cluster at hour `t` -/
def cost (c : AThermal) (x : String → Nat → Nat → ℚ) (t s : Nat) : ℚ :=
  c.marginalCost.toQ * x "generation" t s + c.startupCost.toQ * x "nb_starting" t s + c.fixedCost.toQ * x "nb_units_on" t s

end AThermal

/-! ## Storages -/

/-- the name of a series of a storage -/
def AStorage.seriesName (u : AStorage) (name : String) : String := "st-storage/series/" ++ u.areaId ++ "/" ++ u.id ++ "/" ++ name

/-- The decisions `x` on a storage are admissible at hour `t`. -/
structure AStorage.Ok (st : AStudy) (disk : String → R Frame) (u : AStorage) (T : Nat) (x : String → Nat → Nat → ℚ) (t s : Nat) : Prop where
  injection : 0 ≤ x "p_injection" t s ∧
    x "p_injection" t s ≤ st.onDisk disk (u.seriesName "PMAX-injection") t s * u.injectionNominalCapacity.toQ
  withdrawal : 0 ≤ x "p_withdrawal" t s ∧
    x "p_withdrawal" t s ≤ st.onDisk disk (u.seriesName "PMAX-withdrawal") t s * u.withdrawalNominalCapacity.toQ
  level : st.onDisk disk (u.seriesName "lower-rule-curve") t s * u.reservoirCapacity.toQ ≤ x "level" t s ∧
    x "level" t s ≤ st.onDisk disk (u.seriesName "upper-rule-curve") t s * u.reservoirCapacity.toQ
  initial : x "level" 0 s = u.initialLevel.toQ * u.reservoirCapacity.toQ
  balance : x "level" ((t + 1) % T) s = x "level" t s + u.efficiency.toQ * x "p_injection" t s - x "p_withdrawal" t s +
    st.onDisk disk (u.seriesName "inflows") t s

/-! ## Links -/

/-- the name of the capacities of a link -/
def ALink.capacityName (l : ALink) (direction : String) : String := "links/" ++ l.areaFrom ++ "/capacities/" ++ l.areaTo ++ direction

/-- The decisions `x` on a link are admissible at hour `t`. -/
structure ALink.Ok (st : AStudy) (disk : String → R Frame) (l : ALink) (x : String → Nat → Nat → ℚ) (t s : Nat) : Prop where
  direct : 0 ≤ x "flow_direct" t s ∧ x "flow_direct" t s ≤ st.onDisk disk (l.capacityName "_direct") t s
  indirect : 0 ≤ x "flow_indirect" t s ∧ x "flow_indirect" t s ≤ st.onDisk disk (l.capacityName "_indirect") t s
  flow : x "flow" t s = x "flow_direct" t s - x "flow_indirect" t s

/-! ## Objects -/

/-- The decisions on an object are admissible at hour `t`. -/
def AObject.Ok (st : AStudy) (disk : String → R Frame) (T : Nat) (prev : AThermal → Nat → Nat) (x : APlan) (t s : Nat) : AObject → Prop
  | .thermal _ c => c.Ok T (prev c) (x c.id) t s
  | .storage _ u => u.Ok st disk T (x u.id) t s
  | .link l => l.Ok st disk (x l.id) t s
  | _ => True

/-- the power that an object brings to the area `b` at hour `t` -/
def AObject.brings (st : AStudy) (disk : String → R Frame) (x : APlan) (b : String) (t s : Nat) : AObject → ℚ
  | .renewable _ r => if r.areaId = b then st.onDisk disk ("renewables/series/" ++ r.areaId ++ "/" ++ r.id ++ "/series") t s else 0
  | .thermal a c => if a.id = b then x c.id "generation" t s else 0
  | .storage a u => if a.id = b then x u.id "p_withdrawal" t s - x u.id "p_injection" t s else 0
  | .load a => if a.id = b then - seriesAt a.load t s else 0
  | .wind a => if a.id = b then seriesAt a.wind t s else 0
  | .solar a => if a.id = b then seriesAt a.solar t s else 0
  | .link l => (if l.areaTo = b then x l.id "flow" t s else 0) - (if l.areaFrom = b then x l.id "flow" t s else 0)

/-- the cost of the decisions on an object at hour `t` -/
def AObject.cost (x : APlan) (t s : Nat) : AObject → ℚ
  | .thermal _ c => c.cost (x c.id) t s
  | _ => 0

/-! ## Batteries -/

/-- the value of a series at hour `t` -/
def valueAt (l : List Num) (t : Nat) : ℚ := (l.getD t .nan).toQ

/-- The decisions on a battery are admissible at hour `t`. -/
structure BatteryData.Ok (d : BatteryData) (T : Nat) (x : String → Nat → Nat → ℚ) (t s : Nat) : Prop where
  injection : 0 ≤ x "p_injection" t s ∧ x "p_injection" t s ≤ valueAt d.injection t
  withdrawal : 0 ≤ x "p_withdrawal" t s ∧ x "p_withdrawal" t s ≤ valueAt d.production t
  level : 0 ≤ x "level" t s ∧ x "level" t s ≤ valueAt d.level t
  balance : x "level" ((t + 1) % T) s = x "level" t s - d.linkWeight.toQ * x "p_injection" t s - d.clusterWeight.toQ * x "p_withdrawal" t s

/-- The areas with a battery are `B`, with their data; they come before the areas without one (else, see `c57_later_lost`). -/
structure AStudy.Batteries (st : AStudy) (B : List (AArea × BatteryData)) : Prop where
  first : ∃ rest, (st.areas.values.filter fun a => a.id ≠ "z_batteries" ∧ a.id ≠ "z_batteries_pcomp") = B.map (·.1) ++ rest ∧
    ∀ a ∈ rest, ¬ ∃ d, BatteryOf st a.id d
  data : ∀ x ∈ B, BatteryOf st x.1.id x.2

/-- the name of the battery of an area -/
def AArea.battery (a : AArea) : String := "battery_" ++ a.id

/-! ## The study -/

namespace AStudy

/-- the areas with a balance: `z_batteries` only stands for the batteries -/
def balanced (st : AStudy) : List AArea := st.areas.values.filter fun a => a.id ≠ "z_batteries"

/-- what an area receives at hour `t` -/
noncomputable def receives (st : AStudy) (disk : String → R Frame) (B : List (AArea × BatteryData)) (x : APlan) (b : String) (t s : Nat) : ℚ :=
  (st.objects.map fun o => o.brings st disk x b t s).sum +
  (B.map fun e => if e.1.id = b then x e.1.battery "p_withdrawal" t s - x e.1.battery "p_injection" t s else 0).sum

/-- The decisions are admissible over the first `T` hours and `S` scenarios, where `prev c t` is the hour with which the availability of
cluster `c` at hour `t` is compared. -/
structure AdmitsWith (st : AStudy) (disk : String → R Frame) (B : List (AArea × BatteryData)) (T S : Nat) (prev : AThermal → Nat → Nat)
    (x : APlan) : Prop where
  areas : ∀ a ∈ st.balanced, ∀ t < T, ∀ s < S, 0 ≤ x a.id "spillage" t s ∧ 0 ≤ x a.id "unsupplied_energy" t s ∧
    st.receives disk B x a.id t s + x a.id "unsupplied_energy" t s = x a.id "spillage" t s
  objects : ∀ o ∈ st.objects, ∀ t < T, ∀ s < S, o.Ok st disk T prev x t s
  batteries : ∀ e ∈ B, ∀ t < T, ∀ s < S, e.2.Ok T (x e.1.battery) t s

/-- The decisions are admissible over the first `T` hours and `S` scenarios. -/
abbrev Admits (st : AStudy) (disk : String → R Frame) (B : List (AArea × BatteryData)) (T S : Nat) (x : APlan) : Prop :=
  st.AdmitsWith disk B T S (fun _ t => earlier T t 1) x

/-- the cost at hour `t` in scenario `s` -/
noncomputable def costAt (st : AStudy) (B : List (AArea × BatteryData)) (x : APlan) (t s : Nat) : ℚ :=
  (st.balanced.map fun a => a.energyCostSpilled.toQ * x a.id "spillage" t s + a.energyCostUnsupplied.toQ * x a.id "unsupplied_energy" t s).sum +
  (st.objects.map fun o => o.cost x t s).sum +
  (B.map fun e => valueAt e.2.cost t * x e.1.battery "p_injection" t s).sum

/-- the cost over the first `T` hours, averaged over `S` scenarios -/
noncomputable def planCost (st : AStudy) (B : List (AArea × BatteryData)) (T S : Nat) (x : APlan) : ℚ :=
  (∑ s ∈ Finset.range S, ∑ t ∈ Finset.range T, st.costAt B x t s) / S

end AStudy

/-! ## Data that make sense -/

/-- a finite number -/
abbrev Fin' (v : Num) : Prop := v.isFin = true

/-- a table with finite numbers for `T` hours and `S` scenarios -/
structure Frame.Covers (f : Frame) (T S : Nat) : Prop where
  finite : f.Finite
  hours : T ≤ f.rows.length
  scenarios : S ≤ f.width

/-- a series with finite numbers for `T` hours -/
def SeriesCovers (l : List Num) (T : Nat) : Prop := (∀ v ∈ l, Fin' v) ∧ T ≤ l.length

/-- A cluster that makes sense over `T` hours. -/
structure AThermal.Sound (c : AThermal) (T : Nat) : Prop where
  capacity : ∃ q : ℚ, c.nominalCapacity = .fin q ∧ 0 < q
  numbers : Fin' c.minStablePower ∧ Fin' c.efficiency ∧ Fin' c.marginalCost ∧ Fin' c.fixedCost ∧ Fin' c.startupCost
  durations : (∃ n : Nat, c.minUpTime = .fin n) ∧ ∃ n : Nat, c.minDownTime = .fin n
  series : c.series.Covers T 1
  /-- one series: with more, see `c44_scenarios_merged` -/
  single : c.series.width = 1
  modulation : SeriesCovers c.modulation T ∧ c.modulation.length = c.series.rows.length
  available : ∀ t < T, 0 ≤ c.available t 0

/-- Data of an object that make sense over `T` hours and `S` scenarios. -/
def AObject.Sound (st : AStudy) (disk : String → R Frame) (T S : Nat) : AObject → Prop
  | .thermal _ c => c.Sound T ∧ S = 1 ∧ disk (st.fileOf ("thermal/series/" ++ c.areaId ++ "/" ++ c.id ++ "/series")) = .ok c.series
  | .storage _ u => Fin' u.efficiency ∧ Fin' u.initialLevel ∧ Fin' u.reservoirCapacity ∧ Fin' u.injectionNominalCapacity ∧
      Fin' u.withdrawalNominalCapacity ∧
      (∀ n ∈ ["inflows", "lower-rule-curve", "upper-rule-curve", "PMAX-injection", "PMAX-withdrawal"],
        ∃ f, disk (st.fileOf (u.seriesName n)) = .ok f ∧ f.Covers T S) ∧
      ∀ t < T, ∀ s < S, 0 ≤ st.onDisk disk (u.seriesName "PMAX-injection") t s * u.injectionNominalCapacity.toQ ∧
        0 ≤ st.onDisk disk (u.seriesName "PMAX-withdrawal") t s * u.withdrawalNominalCapacity.toQ ∧
        st.onDisk disk (u.seriesName "lower-rule-curve") t s * u.reservoirCapacity.toQ ≤
          st.onDisk disk (u.seriesName "upper-rule-curve") t s * u.reservoirCapacity.toQ
  | .load a => ∃ f, a.load = some f ∧ f.Covers T S ∧ disk (st.fileOf ("load/series/load_" ++ a.id)) = .ok f
  | .link l => (∀ n ∈ ["_direct", "_indirect"], ∃ f, disk (st.fileOf (l.capacityName n)) = .ok f ∧ f.Covers T S) ∧
      ∀ t < T, ∀ s < S, 0 ≤ st.onDisk disk (l.capacityName "_direct") t s ∧ 0 ≤ st.onDisk disk (l.capacityName "_indirect") t s
  | _ => True

/-- A battery that makes sense over `T` hours. -/
structure BatteryData.Sound (d : BatteryData) (T : Nat) : Prop where
  reservoir : ∃ q : ℚ, d.reservoir = .fin q ∧ q ≠ 0
  withdrawal : ∃ q : ℚ, d.withdrawal = .fin q ∧ q ≠ 0
  weights : Fin' d.linkWeight ∧ Fin' d.clusterWeight
  injection : SeriesCovers d.injection T ∧ ∃ q : ℚ, IsMaximum d.injection (.fin q) ∧ q ≠ 0
  series : SeriesCovers d.level T ∧ SeriesCovers d.production T ∧ SeriesCovers d.cost T
  values : ∀ t < T, 0 ≤ valueAt d.injection t ∧ 0 ≤ valueAt d.production t ∧ 0 ≤ valueAt d.level t

/-- the files of an object -/
def AObject.files (st : AStudy) (o : AObject) : List String :=
  o.params.filterMap fun p => match p.2 with
    | .inl _ => none
    | .inr f => some (st.fileOf f)

/-- the files that are written for the battery of an area -/
def batteryFileNames (st : AStudy) (area : String) : List String :=
  [levelDir st area ++ "/upper_rule_curve_z_batteries.txt", capacityDir st area ++ "/p_max_injection_modulation_" ++ area ++ ".txt",
   productionDir st area ++ "/p_max_withdrawal_modulation_" ++ area ++ ".txt", costDir st area ++ "/marginal_cost_" ++ area ++ ".txt"]

namespace AStudy

/-- Data that make sense over `T` hours and `S` scenarios. -/
structure SoundData (st : AStudy) (disk : String → R Frame) (B : List (AArea × BatteryData)) (T S : Nat) : Prop where
  hours : 0 < T
  scenarios : 0 < S
  /-- lines of tables have the same length -/
  tables : ∀ n f, disk n = .ok f → f.Rectangular
  areas : ∀ a ∈ st.balanced, Fin' a.energyCostUnsupplied ∧ Fin' a.energyCostSpilled
  objects : ∀ o ∈ st.objects, o.Sound st disk T S
  batteries : ∀ e ∈ B, e.2.Sound T

/-- Names and files do not clash. -/
structure Distinct (st : AStudy) (B : List (AArea × BatteryData)) : Prop where
  names : (st.balanced.map (·.id) ++ (st.objects.map AObject.name ++ B.map (·.1.battery))).Nodup
  files : (st.objects.flatMap (AObject.files st) ++
    (st.areas.values.filter fun a => a.id ≠ "z_batteries" ∧ a.id ≠ "z_batteries_pcomp").flatMap fun a => batteryFileNames st a.id).Nodup

/-- No coefficient of the problem is so small that it is dropped (see `c35_tiny_coefficient`). -/
structure KeptData (st : AStudy) (B : List (AArea × BatteryData)) (T S : Nat) : Prop where
  areas : ∀ a ∈ st.balanced, PNetwork.Kept (a.energyCostSpilled.toQ / S) ∧ PNetwork.Kept (a.energyCostUnsupplied.toQ / S)
  thermals : ∀ a c, .thermal a c ∈ st.objects → PNetwork.Kept c.nominalCapacity.toQ ∧ PNetwork.Kept c.minStablePower.toQ ∧
    PNetwork.Kept c.marginalCost.toQ ∧ PNetwork.Kept c.startupCost.toQ ∧ PNetwork.Kept c.fixedCost.toQ
  storages : ∀ a u, .storage a u ∈ st.objects → PNetwork.Kept u.efficiency.toQ
  batteries : ∀ e ∈ B, PNetwork.Kept e.2.linkWeight.toQ ∧ PNetwork.Kept e.2.clusterWeight.toQ ∧
    ∀ t < T, PNetwork.Kept (valueAt e.2.cost t / S)

/-- the table that is read for a name: the file that was written last, else the one on the disk -/
def load (disk : String → R Frame) (files : List (String × Frame)) (name : String) : R Frame :=
  match files.reverse.find? fun f => f.1 = name ++ ".txt" with
  | some f => .ok f.2
  | none => disk (name ++ ".txt")

/-- the converted study, over the first `T` hours and `S` scenarios -/
def input (disk : String → R Frame) (sys : InputSystem) (files : List (String × Frame)) (T S : Nat) : StudyInput where
  system := sys
  load := load disk files
  steps := (List.range T).map Int.ofNat
  scenarios := S

end AStudy

/-- the decisions that the values of the variables of the converted study stand for -/
def aPlanOf (σ : TermKey → ℚ) : APlan := fun name v t s => σ ⟨name, v, some t, some s⟩

end Verif
