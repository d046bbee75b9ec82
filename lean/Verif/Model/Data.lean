import Verif.Model.Network

/-!
# Data

Models `study/data.py`: kinds of data, the data base and its consistency check.
-/

namespace Verif

/-- A pandas `DataFrame` of floats, as read by `pd.read_csv(..., header=None)`: its lines and its number of columns
(shape = number of lines, width).  The index is `0, 1, ...`. -/
structure Frame where
  width : Nat
  rows : List (List Num)
  deriving Repr, DecidableEq

/-- `l[i]` with a Python integer index (also pandas `iloc`): a negative index counts from the end, outside
`-len .. len-1` is `IndexError`. -/
def pyIndex {α} (l : List α) (i : Int) : R α :=
  let j := if i < 0 then i + l.length else i
  if j < 0 then .error .indexError
  else match l[j.toNat]? with
    | some x => .ok x
    | none => .error .indexError

/-- `df.iloc[i, j]`. -/
def Frame.iloc (f : Frame) (i j : Int) : R Num := do
  let row ← pyIndex f.rows i
  pyIndex row j

/-- `Scenarization`: data.py 39-48. -/
abbrev Scenarization := Dict Int Int

/-- `get_scenario_for_year`: data.py 42-43. -/
def Scenarization.scenarioFor (z : Scenarization) (year : Int) : R Int := Dict.get z year

/-- `add_year`: data.py 45-48. -/
def Scenarization.addYear (z : Scenarization) (year scenario : Int) : R Scenarization :=
  if Dict.contains z year then .error (.valueError "the year is already defined") else .ok (Dict.set z year scenario)

/-- `AbstractDataStructure` and its subclasses: data.py 52-65 (abstract), 69-81 `ConstantData`, 85-105 `TimeSeriesData`,
109-132 `ScenarioSeriesData`, 179-205 `TimeScenarioSeriesData`, 209-221 `TreeData`.  `TimeIndex` and `ScenarioIndex`
keys are their integers. -/
inductive Data where
  | const (value : Num)
  | timeSeries (series : Dict Int Num)
  | scenarioSeries (series : Dict Int Num) (scenarization : Option Scenarization)
  | timeScenarioSeries (frame : Frame) (scenarization : Option Scenarization)
  | tree (data : List (String × Data))

/-- `if self.scenarization: scenario = self.scenarization.get_scenario_for_year(scenario)`: data.py 124-125, 196-197 (the
object has no length, so it is true unless it is `None`). -/
def applyScenarization : Option Scenarization → Int → R Int
  | none, s => .ok s
  | some z, s => z.scenarioFor s

mutual
/-- `get_value(timestep, scenario, node_id)`: data.py 72-75, 94-99, 119-126, 189-199, 212-215.  `float(str(x))` of a float
is the float (198-199). -/
def Data.getValue : Data → Option Int → Option Int → String → R Num
  | .const v, _, _, _ => .ok v
  | .timeSeries d, t, _, _ =>
    match t with
    | none => .error (.keyError "Time series data requires a time index.")
    | some t => d.get t
  | .scenarioSeries d z, _, s, _ =>
    match s with
    | none => .error (.keyError "Scenario series data requires a scenario index.")
    | some s => do
      let s ← applyScenarization z s
      d.get s
  | .timeScenarioSeries f z, t, s, _ =>
    match t with
    | none => .error (.keyError "Time scenario data requires a time index.")
    | some t =>
      match s with
      | none => .error (.keyError "Time scenario data requires a scenario index.")
      | some s => do
        let s ← applyScenarization z s
        f.iloc t s
  | .tree d, t, s, node => Data.getTree d t s node
/-- `self.data[node_id].get_value(timestep, scenario)`: data.py 215; the node is not passed on, so the default `""` is
used. -/
def Data.getTree : List (String × Data) → Option Int → Option Int → String → R Num
  | [], _, _, _ => .error (.keyError "")
  | (k, d) :: ds, t, s, node => if k = node then Data.getValue d t s "" else Data.getTree ds t s node
end

mutual
/-- `check_requirement`: data.py 78-81, 101-105, 128-132, 201-205, 217-221. -/
def Data.checkRequirement : Data → Bool → Bool → Bool
  | .const _, _, _ => true
  | .timeSeries _, t, _ => t
  | .scenarioSeries .., _, s => s
  | .timeScenarioSeries .., t, s => t && s
  | .tree d, t, s => Data.checkTree d t s
/-- `all(...)` over the values of the mapping -/
def Data.checkTree : List (String × Data) → Bool → Bool → Bool
  | [], _, _ => true
  | (_, d) :: ds, t, s => Data.checkRequirement d t s && Data.checkTree ds t s
end

/-- `dataframe_to_time_series`: data.py 150-159. -/
def Frame.toTimeSeries (f : Frame) : R (Dict Int Num) :=
  if f.width ≠ 1 then .error (.valueError "Expect data series with exactly one column")
  else do
    let vs ← appendAll (fun row => pyIndex row 0) f.rows
    .ok (Dict.ofItems ((List.range vs.length).zip vs |>.map fun p => (((p.1 : Nat) : Int), p.2)))

/-- `dataframe_to_scenario_series`: data.py 162-175. -/
def Frame.toScenarioSeries (f : Frame) : R (Dict Int Num) :=
  match f.rows with
  | [row] => .ok (Dict.ofItems ((List.range f.width).zip row |>.map fun p => (((p.1 : Nat) : Int), p.2)))
  | _ => .error (.valueError "Expect data series with exactly one line")

/-- `DataBase`: data.py 230-241, keyed by `ComponentParameterIndex` (225-227). -/
abbrev DataBase := Dict (String × String) Data

namespace DataBase

/-- `get_data`: data.py 243-244. -/
def getData (db : DataBase) (c p : String) : R Data := Dict.get db (c, p)

/-- `add_data`: data.py 246-249. -/
def addData (db : DataBase) (c p : String) (d : Data) : DataBase := Dict.set db (c, p) d

/-- `get_value`: data.py 251-257. -/
def getValue (db : DataBase) (c p : String) (t s : Int) : R Num :=
  match Dict.get? db (c, p) with
  | some d => d.getValue (some t) (some s) ""
  | none => .error (.keyError "Index not found.")

/-- the inner loop of `requirements_consistency`: data.py 261-270 -/
def checkParams (db : DataBase) (c : Component) : List Parameter → R Unit
  | [] => .ok ()
  | p :: ps => do
    let d ← db.getData c.id p.name
    let q ← c.model.parameters.get p.name
    if !d.checkRequirement q.structure_.time q.structure_.scenario then .error (.valueError "Data inconsistency")
    else checkParams db c ps

/-- the outer loop of `requirements_consistency`: data.py 260 -/
def checkComponents (db : DataBase) : List Component → R Unit
  | [] => .ok ()
  | c :: cs => do
    checkParams db c c.model.parameters.values
    checkComponents db cs

/-- `requirements_consistency`: data.py 259-270; `network.components` (network.py 148-150) does not contain the
nodes. -/
def requirementsConsistency (db : DataBase) (n : Network) : R Unit := checkComponents db n.components.values

end DataBase
end Verif
