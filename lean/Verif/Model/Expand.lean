import Verif.Model.Copy

/-!
# Expansion of time and scenario operators

Models `OperatorsExpansion` of `expression/operators_expansion.py`.
-/

namespace Verif

/-- Python `range(a, b)` on integers -/
def pyRange (a b : Int) : List Int := (List.range (b - a).toNat).map (fun (i : Nat) => a + i)

/-- fields of `OperatorsExpansion`: operators_expansion.py 63-66 -/
structure ExpandCtx where
  timesteps : Nat
  scenarios : Nat
  evaluator : Expr → R Int
  structs : StructProvider

/-- time index given to a component symbol: operators_expansion.py 72, 82 -/
def timeIndexOf (i : Idx) : TIdx := if i.time then .shift 0 else .none
/-- scenario index given to a component symbol: operators_expansion.py 73-75, 83-85 -/
def scenIndexOf (i : Idx) : SIdx := if i.scenario then .current else .none

mutual
/-- `OperatorsExpansion` (operators_expansion.py 50-128), a `CopyVisitor` whose time and scenario operators
are replaced by arithmetic. -/
def expand (x : ExpandCtx) : Expr → R Expr
  | .lit v => .ok (.lit v)
  | .var n => .ok (.var n)
  | .par n => .ok (.par n)
  | .cvar c n => do
    let i ← x.structs.cvar c n
    .ok (.pvar c n (timeIndexOf i) (scenIndexOf i))
  | .cpar c n => do
    let i ← x.structs.cpar c n
    .ok (.ppar c n (timeIndexOf i) (scenIndexOf i))
  | .pvar .. => .error (.valueError "Should not reach")
  | .ppar .. => .error (.valueError "Should not reach")
  | .portField p f => .ok (.portField p f)
  | .neg e => do
    let e' ← expand x e
    .ok e'.negOp
  | .add es => do
    let es' ← expandList x es
    foldAdd Expr.addOp es'
  | .mul l r => do
    let l' ← expand x l
    let r' ← expand x r
    .ok (l'.mulOp r')
  | .div l r => do
    let l' ← expand x l
    let r' ← expand x r
    .ok (l'.divOp r')
  | .cmp l r c => do
    let l' ← expand x l
    let r' ← expand x r
    .ok (.cmp l' r' c)
  | .shift e k => do
    let n ← x.evaluator k
    let e' ← expand x e
    applyTimeshift e' n
  | .evalT e k => do
    let n ← x.evaluator k
    let e' ← expand x e
    applyTimestep e' n
  | .tsum e a b => do
    let m ← x.evaluator a
    let n ← x.evaluator b
    let e' ← expand x e
    let nodes ← appendAll (fun t => applyTimeshift e' t) (pyRange m (n + 1))
    .ok (Expr.sumExpressions nodes)
  | .allsum e => do
    let e' ← expand x e
    let nodes ← appendAll (fun t => applyTimestep e' t (allowExisting := true)) (pyRange 0 x.timesteps)
    .ok (Expr.sumExpressions nodes)
  | .scen e op => do
    if op ≠ .expectation then .error (.valueError "Scenario operator not supported")
    else do
      let e' ← expand x e
      let nodes ← appendAll (fun s => applyScenario e' s) (pyRange 0 x.scenarios)
      .ok ((Expr.sumExpressions nodes).divOp (Expr.wrapNum (.fin x.scenarios)))
  | .agg e a => do
    let e' ← expand x e
    .ok (.agg e' a)

/-- the list comprehension of visitor.py 216 -/
def expandList (x : ExpandCtx) : List Expr → R (List Expr)
  | [] => .ok []
  | e :: es => do
    let e' ← expand x e
    let es' ← expandList x es
    .ok (e' :: es')
end

end Verif
