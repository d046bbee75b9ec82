import Verif.Model.System

/-! # What data, data bases and systems should contain -/

namespace Verif

/-- element at a position counted from 0 -/
def atPos {α} (l : List α) (i : Int) : Option α := if 0 ≤ i then l[i.toNat]? else none

/-- the data scenario used for scenario `s` -/
def dataScenario : Option Scenarization → Int → Option Int
  | none, s => some s
  | some z, s => Dict.get? z s

mutual
/-- the entry stored for timestep `t`, scenario `s` and tree node `node` -/
def Data.entry : Data → Int → Int → String → Option Num
  | .const v, _, _, _ => some v
  | .timeSeries d, t, _, _ => Dict.get? d t
  | .scenarioSeries d z, _, s, _ => (dataScenario z s).bind fun s' => Dict.get? d s'
  | .timeScenarioSeries f z, t, s, _ =>
    (dataScenario z s).bind fun s' => (atPos f.rows t).bind fun row => atPos row s'
  | .tree d, t, s, node => Data.treeEntry d t s node
def Data.treeEntry : List (String × Data) → Int → Int → String → Option Num
  | [], _, _, _ => none
  | (k, d) :: ds, t, s, node => if k = node then Data.entry d t s node else Data.treeEntry ds t s node
end

mutual
/-- does reading the data need a timestep? -/
def Data.needsTime : Data → Bool
  | .const _ => false
  | .timeSeries _ => true
  | .scenarioSeries .. => false
  | .timeScenarioSeries .. => true
  | .tree d => Data.treeNeedsTime d
def Data.treeNeedsTime : List (String × Data) → Bool
  | [] => false
  | (_, d) :: ds => d.needsTime || Data.treeNeedsTime ds
end

mutual
/-- does reading the data need a scenario? -/
def Data.needsScenario : Data → Bool
  | .const _ => false
  | .timeSeries _ => false
  | .scenarioSeries .. => true
  | .timeScenarioSeries .. => true
  | .tree d => Data.treeNeedsScenario d
def Data.treeNeedsScenario : List (String × Data) → Bool
  | [] => false
  | (_, d) :: ds => d.needsScenario || Data.treeNeedsScenario ds
end

def Data.isTree : Data → Bool
  | .tree _ => true
  | _ => false

/-- scenarios chosen by the scenarization of a time-scenario table are not negative -/
def Data.NonNegScenarios : Data → Prop
  | .timeScenarioSeries _ (some z) => ∀ y s, Dict.get? z y = some s → 0 ≤ s
  | _ => True

/-- a tree of plain data (no tree inside the tree) with non-negative scenarios -/
def Data.Plain : Data → Prop
  | .tree ds => ∀ p ∈ ds, p.2.isTree = false ∧ p.2.NonNegScenarios
  | d => d.NonNegScenarios

/-- the last value written for a key in a history of writes -/
def lastWrite {α β} [DecidableEq α] (ops : List (α × β)) (k : α) : Option β :=
  (ops.reverse.find? fun w => w.1 = k).map Prod.snd

/-- is a scenario group given? -/
def hasGroup (g : Option String) : Prop := ∃ n, g = some n ∧ n ≠ ""

/-- the group a parameter should use: its own, else that of its component -/
def paramGroup (c : InputComponent) (p : InputParam) : Option String :=
  if p.scenarioGroup = none ∨ p.scenarioGroup = some "" then c.scenarioGroup else p.scenarioGroup

/-- the scenarization that a parameter should get -/
def expectedScenarization (zs : Dict String Scenarization) (c : InputComponent) (p : InputParam) : Option Scenarization :=
  (paramGroup c p).bind fun g => if g = "" then none else zs.get? g

/-- a table: every line has as many values as there are columns -/
def Frame.Rectangular (f : Frame) : Prop := ∀ row ∈ f.rows, row.length = f.width

/-- what a parameter declaration designates at timestep `t` and scenario `s`: its number, or the value of its file at
line `t` (the first line if it does not depend on time) and column `s` (the first one if it does not depend on the
scenario) -/
def declaredEntry (load : String → R Frame) (p : InputParam) (t s : Int) : Option Num :=
  match p.value with
  | .number v => some v
  | .name n =>
    match load n with
    | .error _ => none
    | .ok f => (atPos f.rows (if p.timeDependent then t else 0)).bind fun row =>
        atPos row (if p.scenarioDependent then s else 0)

/-- `library.model` designates a model -/
def Designates (libs : Dict String Library) (ref : String) (m : Model) : Prop :=
  ∃ lib name l, ref = lib ++ "." ++ name ∧ '.' ∉ lib.toList ∧ '.' ∉ name.toList ∧
    Dict.get? libs lib = some l ∧ Dict.get? l.models name = some m

/-- parameters are stored under their name -/
def Model.ParamsKeyed (m : Model) : Prop := ∀ k p, m.parameters.get? k = some p → p.name = k

end Verif
