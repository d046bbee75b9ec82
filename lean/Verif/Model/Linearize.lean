import Verif.Model.Expand
import Verif.Model.LinExpr

/-!
# Linearization

Models `simulation/linearize.py`.
-/

namespace Verif

/-- `ParameterGetter`: linearize.py 54-63. -/
abbrev ParamGetter := String → String → Option Int → Option Int → R Num

/-- `LinearExpressionData`: linearize.py 92-95; a `MutableTerm` (linearize.py 66-89) is a `Term`. -/
structure LinData where
  terms : List Term
  constant : Num
  deriving DecidableEq, Repr

/-- message of the two non-linearity errors: linearize.py 154-156, 166-168 -/
def Err.nonLinearMul : Err :=
  .valueError "At least one operand of a multiplication must be a constant expression."
def Err.nonLinearDiv : Err :=
  .valueError "The second operand of a division must be a constant expression."
/-- linearize.py 179 -/
def Err.cannotShift : Err := .valueError "Cannot shift a time-independent expression."

/-- multiply every coefficient: linearize.py 131-132, 158-159 -/
def scaleTerms (f : Num → Num) (ts : List Term) : List Term :=
  ts.map fun t => { t with coefficient := f t.coefficient }

/-- `t.coefficient /= divider` for every term: linearize.py 172-173 -/
def divTerms (d : Num) : List Term → R (List Term)
  | [] => .ok []
  | t :: ts => do
    let c ← Num.div t.coefficient d
    let ts' ← divTerms d ts
    .ok ({ t with coefficient := c } :: ts')

/-- `_get_timestep`: linearize.py 176-186. -/
def getTimestep (timestep : Option Int) : TIdx → R (Option Int)
  | .shift k =>
    match timestep with
    | none => .error .cannotShift
    | some t => .ok (some (t + k))
  | .step t => .ok (some t)
  | .none => .ok none

/-- `_get_scenario`: linearize.py 188-198. -/
def getScenario (scenario : Option Int) : SIdx → Option Int
  | .one s => some s
  | .current => scenario
  | .none => none

/-- fields of `LinearExpressionBuilder`: linearize.py 124-126 -/
structure LinCtx where
  timestep : Option Int
  scenario : Option Int
  provider : Option ParamGetter

mutual
/-- `LinearExpressionBuilder`: linearize.py 111-282. -/
def linData (x : LinCtx) : Expr → R LinData
  | .lit v => .ok ⟨[], v⟩
  | .var _ => .error (.valueError "Variables need to be associated with their component ID before linearization.")
  | .par _ => .error (.valueError "Parameters must be evaluated before linearization.")
  | .cvar .. => .error (.valueError "Variables need to be associated with their timestep/scenario before linearization.")
  | .cpar .. => .error (.valueError "Parameters need to be associated with their timestep/scenario before linearization.")
  | .pvar c n ti si => do
    let t ← getTimestep x.timestep ti
    .ok ⟨[⟨1, ⟨c, n, t, getScenario x.scenario si⟩⟩], 0⟩
  | .ppar c n ti si => do
    let t ← getTimestep x.timestep ti
    match x.provider with
    | none => .error (.valueError "A value provider must be specified to linearize a time operator node.")
    | some p => do
      let v ← p c n t (getScenario x.scenario si)
      .ok ⟨[], v⟩
  | .portField .. => .error (.valueError "Port fields must be replaced before linearization.")
  | .neg e => do
    let d ← linData x e
    .ok ⟨scaleTerms (fun c => -c) d.terms, -d.constant⟩
  | .add es => do
    let ds ← linDataList x es
    .ok ⟨(ds.map LinData.terms).flatten, ds.foldl (fun c d => c + d.constant) 0⟩
  | .mul l r => do
    let a ← linData x l
    let b ← linData x r
    if a.terms.isEmpty then .ok ⟨scaleTerms (· * a.constant) b.terms, b.constant * a.constant⟩
    else if b.terms.isEmpty then .ok ⟨scaleTerms (· * b.constant) a.terms, a.constant * b.constant⟩
    else .error .nonLinearMul
  | .div l r => do
    let a ← linData x l
    let b ← linData x r
    if !b.terms.isEmpty then .error .nonLinearDiv
    else do
      let c ← Num.div a.constant b.constant
      let ts ← divTerms b.constant a.terms
      .ok ⟨ts, c⟩
  | .cmp .. => .error (.valueError "Linear expression cannot contain a comparison operator.")
  | .shift .. => .error (.valueError "Time operators need to be expanded before linearization.")
  | .evalT .. => .error (.valueError "Time operators need to be expanded before linearization.")
  | .tsum .. => .error (.valueError "Time operators need to be expanded before linearization.")
  | .allsum .. => .error (.valueError "Time operators need to be expanded before linearization.")
  | .scen .. => .error (.valueError "Scenario operators need to be expanded before linearization.")
  | .agg .. => .error (.valueError "Port fields aggregators must be replaced before linearization.")

/-- the list comprehension of linearize.py 136 -/
def linDataList (x : LinCtx) : List Expr → R (List LinData)
  | [] => .ok []
  | e :: es => do
    let d ← linData x e
    let ds ← linDataList x es
    .ok (d :: ds)
end

/-- `LinearExpressionData.build`, aggregation loop: linearize.py 98-107. -/
def aggregate (ts : List Term) : Dict TermKey Term :=
  ts.foldl (fun (res : Dict TermKey Term) t =>
    match res.get? t.key with
    | some cur => res.set t.key { cur with coefficient := cur.coefficient + t.coefficient }
    | none => res.set t.key t) []

/-- `LinearExpressionData.build`: linearize.py 97-108. -/
def LinData.build (d : LinData) : LinExpr := LinExpr.ofDict (aggregate d.terms) d.constant

/-- `linearize_expression`: linearize.py 285-296. -/
def linearizeExpression (e : Expr) (timestep scenario : Option Int) (provider : Option ParamGetter) :
    R LinExpr := do
  let d ← linData ⟨timestep, scenario, provider⟩ e
  .ok d.build

end Verif
