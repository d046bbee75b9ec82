import Verif.Model.System
import Mathlib.Algebra.Order.Floor.Ring
import Mathlib.Data.Rat.Floor

/-!
# Thermal preprocessing

Models `input_converter/src/data_preprocessing/thermal.py`.  Data frames of `antares.craft` are `Frame`s (index `0, 1, ...`);
numpy follows IEEE for division by zero.
-/

namespace Verif

/-- The part of `antares.craft` `ThermalCluster` that is used: the fourth column of the modulation matrix, the series matrix and the
properties; `seriesPath` is `self.series_path` (thermal.py 20-30). -/
structure ThermalCluster where
  modulation : List Num
  series : Frame
  unitCount : Nat
  nominalCapacity : Num
  seriesPath : String

/-- `a / b` of numpy floats: dividing by zero gives an infinity or `nan`, without exception. -/
def npDiv (a b : Num) : Num :=
  match a.div b with
  | .ok v => v
  | .error _ => match a with
    | .nan => .nan
    | a => Num.ofSgn a.sgn

/-- `np.ceil`. -/
def npCeil : Num → Num
  | .fin q => .fin ⌈q⌉
  | v => v

/-- `a if a <= b else b`, for numbers that are not `nan` -/
def numMin (a b : Num) : Num := if a.le b then a else b

/-- `df.min(axis=1)` on one line: `nan` are skipped. -/
def rowMin (row : List Num) : Num :=
  match row.filter (· ≠ .nan) with
  | [] => .nan
  | v :: vs => vs.foldl numMin v

/-- One line of `pd.concat([scaled_modulation, series_data], axis=1)`: thermal.py 52-54; lines that one side has not are `nan`. -/
def concatRow (c : ThermalCluster) (h : Nat) : List Num :=
  (match c.modulation[h]? with
    | some m => m * c.nominalCapacity * .fin c.unitCount
    | none => .nan) ::
  (match c.series.rows[h]? with
    | some row => row
    | none => List.replicate c.series.width .nan)

/-- `_compute_p_min_cluster`: thermal.py 43-55. -/
def pMinCluster (c : ThermalCluster) : Frame :=
  ⟨1, (List.range (max c.modulation.length c.series.rows.length)).map fun h => [rowMin (concatRow c h)]⟩

/-- `np.ceil(df / x)`. -/
def ceilDiv (f : Frame) (x : Num) : Frame := ⟨f.width, f.rows.map fun row => row.map fun v => npCeil (npDiv v x)⟩

/-- `_compute_nb_units_min`: thermal.py 57-62. -/
def nbUnitsMin (c : ThermalCluster) : Frame := ceilDiv (pMinCluster c) c.nominalCapacity

/-- `_compute_nb_units_max`: thermal.py 64-69. -/
def nbUnitsMax (c : ThermalCluster) : Frame := ceilDiv c.series c.nominalCapacity

/-- `Direction`: thermal.py 12-14. -/
inductive Direction where
  | forward
  | backward
  deriving DecidableEq, Repr

/-- `a % b` of numpy integers: 0 when `b` is 0. -/
def npMod (a b : Int) : Int := if b = 0 then 0 else a.fmod b

/-- `a // b` of numpy integers: 0 when `b` is 0. -/
def npFloorDiv (a b : Int) : Int := if b = 0 then 0 else a.fdiv b

/-- `previous_indices` at position `i`: thermal.py 75-84; `n` is the number of lines. -/
def previousIndex (n : Nat) (period : Int) (i : Nat) : Int :=
  if i = 0 then 0 else min (npMod (i - 1) period + npFloorDiv i period * period) ((n : Int) - 1)

/-- `clip(lower=0)` on one number. -/
def clip0 : Num → Num
  | .nan => .nan
  | v => if v.lt 0 then 0 else v

/-- difference of two lines -/
def rowSub (a b : List Num) : List Num := List.zipWith (· - ·) a b

/-- One line of the variation: thermal.py 85-97. -/
def variationRow (d : Direction) (prev cur : List Num) : List Num :=
  match d with
  | .backward => (rowSub cur prev).map clip0
  | .forward => (rowSub prev cur).map clip0

/-- the lines of the variation; `iloc` fails when an index is out of bounds -/
def variationRows (d : Direction) (period : Int) (rows : List (List Num)) : List Nat → R (List (List Num))
  | [] => .ok []
  | i :: is => do
    let prev ← pyIndex rows (previousIndex rows.length period i)
    let cur ← pyIndex rows i
    let rest ← variationRows d period rows is
    .ok (variationRow d prev cur :: rest)

/-- `_compute_nb_units_max_variation`: thermal.py 71-100 (the new column name is not modelled; `columns[0]` fails without
columns). -/
def nbUnitsMaxVariation (c : ThermalCluster) (d : Direction) (period : Int) : R Frame := do
  let m := nbUnitsMax c
  let rows ← variationRows d period m.rows (List.range m.rows.length)
  if m.width = 0 then .error .indexError else .ok ⟨m.width, rows⟩

/-- the table `_prepro_parameter_functions`: thermal.py 31-41 -/
def preproFrame (c : ThermalCluster) (parameterId : String) (period : Int) : Option (R Frame) :=
  if parameterId = "p_min_cluster" then some (.ok (pMinCluster c))
  else if parameterId = "nb_units_min" then some (.ok (nbUnitsMin c))
  else if parameterId = "nb_units_max" then some (.ok (nbUnitsMax c))
  else if parameterId = "nb_units_max_variation_forward" then some (nbUnitsMaxVariation c .forward period)
  else if parameterId = "nb_units_max_variation_backward" then some (nbUnitsMaxVariation c .backward period)
  else none

/-- `generate_component_parameter`: thermal.py 102-122.  The result has the parameter and the file that is written (its path and
content). -/
def generateParameter (c : ThermalCluster) (parameterId : String) (period : Int := 0) : R (InputParam × String × Frame) :=
  match preproFrame c parameterId period with
  | none => .error (.valueError "Unsupported parameter_id")
  | some r => do
    let f ← r
    .ok ({ id := parameterId, timeDependent := true, scenarioDependent := true, value := .name (c.seriesPath ++ "/" ++ parameterId) },
      c.seriesPath ++ "/" ++ parameterId ++ ".txt", f)

end Verif
