import Verif.Model.Optim

/-!
# Output values

Models `simulation/output_values.py` (text rendering `__str__` is in `Model/OutputText.lean`).
-/

namespace Verif

/-- An element of the list given to or returned by `value`: output_values.py 84-122. -/
inductive OutItem where
  | num (v : Num)
  | row (l : List Num)
  deriving DecidableEq, Repr

/-- A value given to or returned by `value`: a number, or a list of numbers and lists of numbers
(output_values.py 85, 102). -/
inductive OutValue where
  | num (v : Num)
  | list (l : List OutItem)
  deriving DecidableEq, Repr

/-- `OutputValues.Variable`: output_values.py 30-44.  The keys are `TimeScenarioIndex(time, scenario)`; `size` is the
number of scenarios and of timesteps (sizes are never negative, see `setAt`). -/
structure OutVar where
  name : String
  value : Dict (Int × Int) Num := []
  size : Nat × Nat := (0, 0)
  ignore : Bool := false
  deriving DecidableEq, Repr

namespace OutVar

/-- the getter of `value`: output_values.py 84-99. -/
def read (v : OutVar) : R OutValue :=
  if v.size.2 = 1 then
    if v.size.1 = 1 then do
      let x ← v.value.get (0, 0)
      .ok (.num x)
    else do
      let xs ← appendAll (fun s : Nat => v.value.get (0, (s : Int))) (List.range v.size.1)
      .ok (.list (xs.map .num))
  else do
    let rows ← appendAll (fun s : Nat => appendAll (fun t : Nat => v.value.get ((t : Int), (s : Int))) (List.range v.size.2))
      (List.range v.size.1)
    .ok (.list (rows.map .row))

/-- the inner loop of the setter of `value`: output_values.py 110-112; `t` is the number of the first element. -/
def assignRow (s : Nat) : Nat → List Num → Dict (Int × Int) Num → Dict (Int × Int) Num
  | _, [], d => d
  | t, x :: xs, d => assignRow s (t + 1) xs (d.set ((t : Int), (s : Int)) x)

/-- the outer loop of the setter of `value`, returning the values and `size_t`: output_values.py 105-117. -/
def assignItems : Nat → List OutItem → Dict (Int × Int) Num → Nat → Dict (Int × Int) Num × Nat
  | _, [], d, sizeT => (d, sizeT)
  | s, .row l :: rest, d, _ => assignItems (s + 1) rest (assignRow s 0 l d) l.length
  | s, .num x :: rest, d, sizeT => assignItems (s + 1) rest (d.set (0, (s : Int)) x) sizeT

/-- the setter of `value`: output_values.py 101-122; the previous entries are not removed. -/
def assign (v : OutVar) : OutValue → OutVar
  | .list l =>
    let r := assignItems 0 l v.value 1
    { v with value := r.1, size := (l.length, r.2) }
  | .num x => { v with value := v.value.set (0, 0) x, size := (1, 1) }

/-- `_set`: output_values.py 124-135; `max(size, i + 1)` of a size and an integer. -/
def setAt (v : OutVar) (t s : Option Int) (x : Num) : OutVar :=
  let t := t.getD 0
  let s := s.getD 0
  let size := if v.value.contains (t, s) then v.size else (max v.size.1 (s + 1).toNat, max v.size.2 (t + 1).toNat)
  { v with value := v.value.set (t, s) x, size := size }

end OutVar

/-- `OutputValues.Component`: output_values.py 137-143. -/
structure OutComp where
  id : String
  variables_ : Dict String OutVar := []
  ignore : Bool := false
  deriving DecidableEq, Repr

/-- `OutputValues`: output_values.py 24-25, 175-178. -/
structure Output where
  components : Dict String OutComp := []
  deriving DecidableEq, Repr

/-- `var`: output_values.py 170-173; the component afterwards and the variable returned. -/
def OutComp.var (k : OutComp) (v : String) : OutComp × OutVar :=
  match k.variables_.get? v with
  | some w => (k, w)
  | none => ({ k with variables_ := k.variables_.set v ⟨v, [], (0, 0), false⟩ }, ⟨v, [], (0, 0), false⟩)

namespace Output

/-- `component`: output_values.py 213-216; the output afterwards and the component returned. -/
def component (o : Output) (c : String) : Output × OutComp :=
  match o.components.get? c with
  | some k => (o, k)
  | none => ({ o with components := o.components.set c ⟨c, [], false⟩ }, ⟨c, [], false⟩)

/-- `output.component(c).var(v)` followed by a modification `f` of the variable, which is seen in the output because
the objects are shared; the output afterwards. -/
def modifyVar (o : Output) (c v : String) (f : OutVar → OutVar) : Output :=
  let (o, k) := o.component c
  let (k, w) := k.var v
  { o with components := o.components.set c { k with variables_ := k.variables_.set v (f w) } }

/-- `output.component(c).var(v).value`: the output afterwards and the value. -/
def readVar (o : Output) (c v : String) : Output × R OutValue :=
  let (o, k) := o.component c
  let (k, w) := k.var v
  ({ o with components := o.components.set c k }, w.read)

/-- `_build_components`: output_values.py 202-211, for the registered columns and the solution values. -/
def ofColumns (cols : Dict TermKey Nat) (solution : Nat → Num) : Output :=
  cols.foldl (fun o (k, i) => o.modifyVar k.component k.var fun w => w.setAt k.time k.scenario (solution i)) {}

end Output

/-- Python `==` on dictionaries, with `==` of the values (simplification: two values that are the same object are
equal for Python without being compared, which matters for NaN only) -/
def dictEqb {κ α} [DecidableEq κ] (eq : α → α → Bool) (a b : Dict κ α) : Bool :=
  a.length == b.length && a.all fun (k, v) => match Dict.get? b k with
    | none => false
    | some w => eq v w

/-- `all(f(x) for x in l)` -/
def allR {α} (f : α → R Bool) : List α → R Bool
  | [] => .ok true
  | x :: xs => do
    let b ← f x
    if b then allR f xs else .ok false

/-- `math.isclose` with its check of the tolerances -/
def iscloseR (rel abs : ℚ) (a b : Num) : R Bool :=
  if rel < 0 ∨ abs < 0 then .error (.valueError "tolerances must be non-negative") else .ok (isclose abs rel a b)

/-- `Variable.__eq__`: output_values.py 46-53. -/
def OutVar.eqb (a b : OutVar) : Bool :=
  (a.ignore || b.ignore) || (decide (a.name = b.name) && decide (a.size = b.size) && dictEqb Num.eqb a.value b.value)

/-- `Variable.is_close`: output_values.py 55-77. -/
def OutVar.isClose (a b : OutVar) (rel abs : ℚ) : R Bool :=
  if a.ignore || b.ignore then .ok true
  else if a.name ≠ b.name then .ok false
  else if a.size ≠ b.size then .ok false
  else if !(dictEqb (fun _ _ => true) a.value b.value) then .ok false
  else allR (fun (k, x) => do
    let y ← b.value.get k
    iscloseR rel abs x y) a.value

/-- `_are_mappings_close`: output_values.py 222-250.  The common keys are a set, hence enumerated in any order; this
only matters for tolerances that raise. -/
def mappingsClose {α} (ign : α → Bool) (eq : α → α → R Bool) (close : α → α → ℚ → ℚ → R Bool) (lhs rhs : Dict String α)
    (rel abs : ℚ) : R Bool :=
  if lhs.any (fun (k, a) => !rhs.contains k && !ign a) then .ok false
  else if rhs.any (fun (k, b) => !lhs.contains k && !ign b) then .ok false
  else allR (fun (k, a) => match rhs.get? k with
    | none => .ok true
    | some b => if rel = abs ∧ abs = 0 then eq a b else close a b rel abs) lhs

/-- `Component.is_close`: output_values.py 150-162. -/
def OutComp.isClose (a b : OutComp) (rel abs : ℚ) : R Bool :=
  if a.ignore || b.ignore then .ok true
  else if a.id ≠ b.id then .ok false
  else mappingsClose OutVar.ignore (fun x y => .ok (x.eqb y)) OutVar.isClose a.variables_ b.variables_ rel abs

/-- `Component.__eq__`: output_values.py 145-148. -/
def OutComp.eqb (a b : OutComp) : R Bool := a.isClose b 0 0

/-- `OutputValues.is_close`: output_values.py 188-193. -/
def Output.isClose (a b : Output) (rel abs : ℚ) : R Bool :=
  mappingsClose OutComp.ignore OutComp.eqb OutComp.isClose a.components b.components rel abs

/-- `OutputValues.__eq__`: output_values.py 183-186. -/
def Output.eqb (a b : Output) : R Bool :=
  mappingsClose OutComp.ignore OutComp.eqb OutComp.isClose a.components b.components 0 0

/-- `BendersSolution`: output_values.py 253-255, reduced to the entries that the comparisons use
(`overall_cost` and `values` of `data["solution"]`, output_values.py 310-316), both present. -/
structure BendersSolution where
  overallCost : Num
  candidates : Dict String Num
  deriving DecidableEq, Repr

/-- `BendersSolution.__eq__`: output_values.py 257-263. -/
def BendersSolution.eqb (a b : BendersSolution) : Bool :=
  a.overallCost.eqb b.overallCost && dictEqb Num.eqb a.candidates b.candidates

/-- `BendersSolution.is_close`: output_values.py 265-286. -/
def BendersSolution.isClose (a b : BendersSolution) (rel abs : ℚ) : R Bool := do
  let c ← iscloseR rel abs a.overallCost b.overallCost
  if !c then .ok false
  else if !(dictEqb (fun _ _ => true) a.candidates b.candidates) then .ok false
  else allR (fun (k, x) => do
    let y ← b.candidates.get k
    iscloseR rel abs x y) a.candidates

end Verif
