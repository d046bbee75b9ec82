import Verif.Spec.Pypsa
import Verif.Spec.ShippedStudy

/-!
# What a PyPSA network means

The optimisation problem of a network, read directly from the tables and time series that the user gave: which decisions are admissible
over the first `T` snapshots, and what they cost.  Nothing here refers to converted components, models, libraries or solver problems.
Numbers of the tables are brought back into `[-1e20, 1e20]` (`clampNum`), as the converter announces.
-/

namespace Verif

/-- The decisions on a network: the nominal capacity of each component that has one, and the values of each operational quantity (`p` of
generators and stores, `p0` of links, `p_dispatch`, `p_store`, `state_of_charge` and `spill` of storage units, `e` of stores) at each
snapshot. -/
structure PPlan where
  nominal : PType → String → ℚ
  value : PType → String → String → Nat → ℚ

/-- one line of a table: the name of a component and its attributes -/
abbrev PLine := String × Dict String Cell

/-- the value of an entry, as a number -/
def cellValue (pf : String → Option Num) (c : Option Cell) : ℚ :=
  match c.bind (Cell.reads pf) with
  | some v => (clampNum v).toQ
  | none => 0

namespace PNetwork

/-- the time series of an attribute of a component, if there is one -/
def seriesOf (n : PNetwork) (ty : PType) (attr id : String) : Option (List Num) :=
  ((n.series ty).get? attr).bind fun cols => Dict.get? cols id

/-- an attribute of a component at snapshot `t`: its time series if there is one, else the number of the table -/
def attr (n : PNetwork) (pf : String → Option Num) (ty : PType) (r : PLine) (a : String) (t : Nat) : ℚ :=
  match n.seriesOf ty a r.1 with
  | some vs => (vs.getD t .nan).toQ
  | none => cellValue pf (r.2.get? a)

/-- the components of a type that the attribute `side` attaches to the bus `b` -/
def attached (n : PNetwork) (ty : PType) (side b : String) : List PLine :=
  (n.table ty).rows.filter fun r => r.2.get? side = some (.str b)

/-- The nominal capacity is admissible: the given one, unless the component can be extended, and then one between the given limits. -/
def NominalOk (pf : String → Option Num) (ty : PType) (capa : String) (x : PPlan) (r : PLine) : Prop :=
  (Fixed capa r.2 → x.nominal ty r.1 = cellValue pf (r.2.get? capa)) ∧
  (¬ Fixed capa r.2 → cellValue pf (r.2.get? (capa ++ "_min")) ≤ x.nominal ty r.1 ∧
    x.nominal ty r.1 ≤ cellValue pf (r.2.get? (capa ++ "_max")))

open Classical in
/-- only capacity that can be extended is paid for -/
noncomputable def capitalCost (pf : String → Option Num) (ty : PType) (capa : String) (x : PPlan) (r : PLine) : ℚ :=
  if Fixed capa r.2 then 0 else cellValue pf (r.2.get? "capital_cost") * x.nominal ty r.1

/-- what the components attached to a bus inject at snapshot `t` -/
def injection (n : PNetwork) (pf : String → Option Num) (x : PPlan) (b : String) (t : Nat) : ℚ :=
  ((n.attached .generators "bus" b).map fun r => n.attr pf .generators r "sign" t * x.value .generators r.1 "p" t).sum +
  ((n.attached .loads "bus" b).map fun r => n.attr pf .loads r "sign" t * n.attr pf .loads r "p_set" t).sum -
  ((n.attached .links "bus0" b).map fun r => x.value .links r.1 "p0" t).sum +
  ((n.attached .links "bus1" b).map fun r => n.attr pf .links r "efficiency" t * x.value .links r.1 "p0" t).sum +
  ((n.attached .storageUnits "bus" b).map fun r =>
    x.value .storageUnits r.1 "p_dispatch" t - x.value .storageUnits r.1 "p_store" t).sum +
  ((n.attached .stores "bus" b).map fun r => x.value .stores r.1 "p" t).sum

/-- the emissions of the generators that have a carrier at snapshot `t` -/
def emitted (n : PNetwork) (pf : String → Option Num) (x : PPlan) (t : Nat) : ℚ :=
  (((n.table .generators).rows.filter fun r => carrierOf r.2 ≠ some "null").map fun r =>
    x.value .generators r.1 "p" t * cellValue pf ((carrierOf r.2).map (emissionsOf n)) / n.attr pf .generators r "efficiency" t).sum

open Classical in
/-- the largest nominal capacity: the given one, unless the component can be extended -/
noncomputable def largest (pf : String → Option Num) (capa : String) (r : PLine) : ℚ :=
  if Fixed capa r.2 then cellValue pf (r.2.get? capa) else cellValue pf (r.2.get? (capa ++ "_max"))

/-- The limits of a storage unit at snapshot `t`: the nominal capacity limits what is dispatched, what is stored and the state of charge. -/
def UnitLimits (n : PNetwork) (pf : String → Option Num) (x : PPlan) (r : PLine) (t : Nat) : Prop :=
  let A := n.attr pf .storageUnits r
  let v := x.value .storageUnits r.1
  let nom := x.nominal .storageUnits r.1
  (0 ≤ v "p_dispatch" t ∧ v "p_dispatch" t ≤ A "p_max_pu" t * nom) ∧
  (0 ≤ v "p_store" t ∧ v "p_store" t ≤ - A "p_min_pu" t * nom) ∧
  (0 ≤ v "state_of_charge" t ∧ v "state_of_charge" t ≤ A "max_hours" t * nom)

/-- The limits of a storage unit as the shipped library has them: what is dispatched is limited by the largest nominal capacity, not by the
chosen one, and what is stored is limited by `p_max_pu`, not by `p_min_pu`. -/
def ShippedUnitLimits (n : PNetwork) (pf : String → Option Num) (x : PPlan) (r : PLine) (t : Nat) : Prop :=
  let A := n.attr pf .storageUnits r
  let v := x.value .storageUnits r.1
  let nom := x.nominal .storageUnits r.1
  (0 ≤ v "p_dispatch" t ∧ v "p_dispatch" t ≤ A "p_max_pu" t * largest pf "p_nom" r) ∧
  (0 ≤ v "p_store" t ∧ v "p_store" t ≤ A "p_max_pu" t * nom) ∧
  (0 ≤ v "state_of_charge" t ∧ v "state_of_charge" t ≤ A "max_hours" t * nom)

/-- The decisions are admissible over the first `T` snapshots, for storage units with the limits `limits`.  Storage is cyclic: the snapshot
before the first one is the last one. -/
structure AdmitsWith (n : PNetwork) (pf : String → Option Num) (T : Nat) (limits : PPlan → PLine → Nat → Prop) (x : PPlan) : Prop where
  generators : ∀ r ∈ (n.table .generators).rows,
    let A := n.attr pf .generators r
    let p := x.value .generators r.1 "p"
    let nom := x.nominal .generators r.1
    NominalOk pf .generators "p_nom" x r ∧ (∀ t < T, A "p_min_pu" t * nom ≤ p t ∧ p t ≤ A "p_max_pu" t * nom) ∧
    A "e_sum_min" 0 ≤ ∑ t ∈ Finset.range T, p t ∧ ∑ t ∈ Finset.range T, p t ≤ A "e_sum_max" 0
  links : ∀ r ∈ (n.table .links).rows,
    let A := n.attr pf .links r
    let p0 := x.value .links r.1 "p0"
    let nom := x.nominal .links r.1
    NominalOk pf .links "p_nom" x r ∧ ∀ t < T, A "p_min_pu" t * nom ≤ p0 t ∧ p0 t ≤ A "p_max_pu" t * nom
  storageUnits : ∀ r ∈ (n.table .storageUnits).rows,
    let A := n.attr pf .storageUnits r
    let v := x.value .storageUnits r.1
    NominalOk pf .storageUnits "p_nom" x r ∧ ∀ t < T, limits x r t ∧ 0 ≤ v "spill" t ∧
      v "state_of_charge" t = (1 - A "standing_loss" t) * v "state_of_charge" ((t + T - 1) % T) +
        A "efficiency_store" t * v "p_store" t - v "p_dispatch" t / A "efficiency_dispatch" t + A "inflow" t - v "spill" t
  stores : ∀ r ∈ (n.table .stores).rows,
    let A := n.attr pf .stores r
    let v := x.value .stores r.1
    let nom := x.nominal .stores r.1
    NominalOk pf .stores "e_nom" x r ∧ ∀ t < T,
      (A "e_min_pu" t * nom ≤ v "e" t ∧ v "e" t ≤ A "e_max_pu" t * nom) ∧
      v "e" t = (1 - A "standing_loss" t) * v "e" ((t + T - 1) % T) - v "p" t
  buses : ∀ r ∈ (n.table .buses).rows, ∀ t < T, n.injection pf x r.1 t = 0
  emissions : ∀ r ∈ n.globalConstraints.rows, ∀ q, r.2.get? "constant" = some (.num (.fin q)) →
    (r.2.get? "sense" = some (.str "<=") → ∑ t ∈ Finset.range T, n.emitted pf x t ≤ q) ∧
    (r.2.get? "sense" = some (.str "==") → ∑ t ∈ Finset.range T, n.emitted pf x t = q)

/-- The decisions are admissible over the first `T` snapshots. -/
abbrev Admits (n : PNetwork) (pf : String → Option Num) (T : Nat) (x : PPlan) : Prop := n.AdmitsWith pf T (n.UnitLimits pf) x

/-- The same, for the limits of storage units of the shipped library. -/
abbrev AdmitsShipped (n : PNetwork) (pf : String → Option Num) (T : Nat) (x : PPlan) : Prop := n.AdmitsWith pf T (n.ShippedUnitLimits pf) x

/-- the cost of the decisions over the first `T` snapshots -/
noncomputable def planCost (n : PNetwork) (pf : String → Option Num) (T : Nat) (x : PPlan) : ℚ :=
  ((n.table .generators).rows.map fun r => capitalCost pf .generators "p_nom" x r +
    ∑ t ∈ Finset.range T, n.attr pf .generators r "marginal_cost" t * x.value .generators r.1 "p" t).sum +
  ((n.table .links).rows.map fun r => capitalCost pf .links "p_nom" x r +
    ∑ t ∈ Finset.range T, n.attr pf .links r "marginal_cost" t * x.value .links r.1 "p0" t).sum +
  ((n.table .storageUnits).rows.map fun r => capitalCost pf .storageUnits "p_nom" x r + ∑ t ∈ Finset.range T,
    (n.attr pf .storageUnits r "marginal_cost" t * x.value .storageUnits r.1 "p_dispatch" t +
     n.attr pf .storageUnits r "spill_cost" t * x.value .storageUnits r.1 "spill" t +
     n.attr pf .storageUnits r "marginal_cost_storage" t * x.value .storageUnits r.1 "state_of_charge" t)).sum +
  ((n.table .stores).rows.map fun r => capitalCost pf .stores "e_nom" x r + ∑ t ∈ Finset.range T,
    (n.attr pf .stores r "marginal_cost" t * x.value .stores r.1 "p" t +
     n.attr pf .stores r "marginal_cost_storage" t * x.value .stores r.1 "e" t)).sum

/-- the attributes that may have a time series -/
def varyingAttrs : List String :=
  ["p_min_pu", "p_max_pu", "e_min_pu", "e_max_pu", "marginal_cost", "marginal_cost_storage", "spill_cost", "efficiency", "efficiency_store",
   "efficiency_dispatch", "standing_loss", "inflow", "p_set", "q_set", "v_mag_pu_set"]

/-- Data that make sense over the first `T` snapshots. -/
structure SoundData (n : PNetwork) (pf : String → Option Num) (T : Nat) : Prop where
  snapshots : 0 < T
  /-- the columns of a frame of time series have distinct names -/
  labels : ∀ ty a cols, (n.series ty).get? a = some cols → (cols.map (·.1)).Nodup
  /-- time series cover the snapshots, with finite numbers, and are given only for attributes that may vary -/
  series : ∀ k ∈ pypsaKinds, ∀ a ∈ k.params, ∀ id vs, HasSeries n k.ty a.1 id vs →
    T ≤ vs.length ∧ (∀ v ∈ vs, v.isFin = true) ∧ a.1 ∈ varyingAttrs
  /-- no number is missing -/
  numbers : ∀ k ∈ pypsaKinds, ∀ r ∈ (n.table k.ty).rows, ∀ a ∈ k.params, ∀ c, sourceCell n k.capacity r.2 a.1 = some c →
    c.reads pf ≠ some .nan
  /-- limits of emissions are finite numbers -/
  limits : ∀ r ∈ n.globalConstraints.rows, ∃ q, r.2.get? "constant" = some (.num (.fin q))
  /-- minimal capacities are below maximal ones -/
  capacities : ∀ k ∈ pypsaKinds, ∀ capa, k.capacity = some capa → ∀ r ∈ (n.table k.ty).rows, ¬ Fixed capa r.2 →
    cellValue pf (r.2.get? (capa ++ "_min")) ≤ cellValue pf (r.2.get? (capa ++ "_max"))
  /-- efficiencies that are divisors are not zero -/
  efficiencies : (∀ r ∈ (n.table .generators).rows, ∀ t < T, n.attr pf .generators r "efficiency" t ≠ 0) ∧
    ∀ r ∈ (n.table .storageUnits).rows, ∀ t < T, n.attr pf .storageUnits r "efficiency_dispatch" t ≠ 0

/-- Storage units with limits that make sense. -/
def StorageUnitsSound (n : PNetwork) (pf : String → Option Num) (T : Nat) : Prop :=
  ∀ r ∈ (n.table .storageUnits).rows, 0 ≤ largest pf "p_nom" r ∧
    ∀ t < T, 0 ≤ n.attr pf .storageUnits r "max_hours" t ∧ 0 ≤ n.attr pf .storageUnits r "p_max_pu" t

/-- Storage units for which the shipped model is right: the capacity is given, is not negative, and is the same in both directions. -/
def StorageUnitsFixed (n : PNetwork) (pf : String → Option Num) (T : Nat) : Prop :=
  ∀ r ∈ (n.table .storageUnits).rows, Fixed "p_nom" r.2 ∧ 0 ≤ cellValue pf (r.2.get? "p_nom") ∧
    ∀ t < T, 0 ≤ n.attr pf .storageUnits r "max_hours" t ∧ 0 ≤ n.attr pf .storageUnits r "p_max_pu" t ∧
      n.attr pf .storageUnits r "p_min_pu" t = - n.attr pf .storageUnits r "p_max_pu" t

/-- A coefficient that is not dropped: zero, or at least `1e-16` in absolute value. -/
def Kept (q : ℚ) : Prop := q = 0 ∨ 1 / 10 ^ 16 ≤ |q|

/-- No coefficient of the problem over the first `T` snapshots is so small that it is dropped (see `c35_tiny_coefficient`). -/
structure KeptData (n : PNetwork) (pf : String → Option Num) (T : Nat) : Prop where
  generators : ∀ r ∈ (n.table .generators).rows, ∀ t < T,
    let A := fun a => n.attr pf .generators r a t
    Kept (A "sign") ∧ Kept (A "p_min_pu") ∧ Kept (A "p_max_pu") ∧ Kept (A "marginal_cost") ∧
    (carrierOf r.2 ≠ some "null" → Kept (cellValue pf ((carrierOf r.2).map (emissionsOf n)) / A "efficiency"))
  links : ∀ r ∈ (n.table .links).rows, ∀ t < T,
    let A := fun a => n.attr pf .links r a t
    Kept (A "p_min_pu") ∧ Kept (A "p_max_pu") ∧ Kept (A "marginal_cost") ∧ Kept (A "efficiency") ∧
    (r.2.get? "bus0" = r.2.get? "bus1" → Kept (A "efficiency" - 1))
  storageUnits : ∀ r ∈ (n.table .storageUnits).rows, ∀ t < T,
    let A := fun a => n.attr pf .storageUnits r a t
    Kept (A "p_max_pu") ∧ Kept (A "max_hours") ∧ Kept (1 - A "standing_loss") ∧ Kept (A "efficiency_store") ∧
    Kept (1 / A "efficiency_dispatch") ∧ Kept (A "marginal_cost") ∧ Kept (A "spill_cost") ∧ Kept (A "marginal_cost_storage")
  stores : ∀ r ∈ (n.table .stores).rows, ∀ t < T,
    let A := fun a => n.attr pf .stores r a t
    Kept (A "e_min_pu") ∧ Kept (A "e_max_pu") ∧ Kept (1 - A "standing_loss") ∧ Kept (A "marginal_cost") ∧ Kept (A "marginal_cost_storage")
  capital : ∀ k ∈ pypsaKinds, ∀ capa, k.capacity = some capa → ∀ r ∈ (n.table k.ty).rows, ¬ Fixed capa r.2 →
    Kept (cellValue pf (r.2.get? "capital_cost"))

end PNetwork

/-- the table in a file of the converted study: one column -/
def PStudy.load (s : PStudy) (name : String) : R Frame :=
  match Dict.get? s.files name with
  | some vs => .ok ⟨1, vs.map fun v => [v]⟩
  | none => .error (.exception "FileNotFoundError")

/-- the converted study, over the first `T` snapshots -/
def PStudy.input (s : PStudy) (T : Nat) : StudyInput where
  system := s.system
  load := s.load
  steps := (List.range T).map Int.ofNat
  scenarios := 1

/-- the suffix that the converter adds to the names of a type -/
def PType.suffix : PType → String
  | .generators => "_generator"
  | .loads => "_load"
  | .buses => ""
  | .links => ""
  | .storageUnits => "_storage"
  | .stores => "_store"

/-- the attribute with the nominal capacity -/
def PType.capacity : PType → String
  | .stores => "e_nom"
  | _ => "p_nom"

/-- the decisions that the values of the variables of the converted study stand for -/
def planOf (σ : TermKey → ℚ) : PPlan where
  nominal ty id := σ ⟨id ++ ty.suffix, ty.capacity, none, none⟩
  value ty id v t := σ ⟨id ++ ty.suffix, v, some t, some 0⟩

end Verif
