import Verif.Spec.Problem

/-!
# Studies that can be turned into a solver problem

Conditions on a study, stated on its models, connections and data, under which nothing should prevent the construction
of the problem: symbols are declared, data are complete, expressions are linear, divisors are not zero, time shifts are
whole numbers, bounds are not crossed.
-/

namespace Verif

namespace Expr

/-- a variable, or a reference to a port -/
def isUnknown : Expr → Bool
  | var _ => true
  | cvar .. => true
  | pvar .. => true
  | portField .. => true
  | agg .. => true
  | _ => false

/-- neither variable nor reference to a port inside -/
def Known (e : Expr) : Prop := ∀ y ∈ e.subs, y.isUnknown = false

/-- a number, a parameter or an arithmetic operation -/
def isArith : Expr → Bool
  | lit _ => true
  | par _ => true
  | neg _ => true
  | add es => !es.isEmpty
  | mul .. => true
  | div .. => true
  | _ => false

/-- arithmetic over numbers and parameters -/
def Arith (e : Expr) : Prop := ∀ y ∈ e.subs, y.isArith = true

mutual
/-- An expression that can be turned into a linear expression: numbers are finite, sums are not empty, products have a
factor without variable, divisors have no variable and are never zero, time shifts and bounds of time sums satisfy
`amount`, timesteps and scenarios are fixed at most once, the only scenario operator is the expectation; symbols and
references to ports satisfy `leaf`. -/
def Fits (leaf amount : Expr → Prop) (M : MCtx) : Expr → Prop
  | lit v => v.isFin = true
  | neg e => Fits leaf amount M e
  | add es => es ≠ [] ∧ FitsAll leaf amount M es
  | mul l r => Fits leaf amount M l ∧ Fits leaf amount M r ∧ (l.Known ∨ r.Known)
  | div l r => Fits leaf amount M l ∧ Fits leaf amount M r ∧ r.Known ∧ ∀ t s : Int, 0 ≤ s → s < M.D.S → mden M r t s ≠ 0
  | shift e k => Fits leaf amount M e ∧ amount k ∧ ∀ y ∈ e.subs, y.isTimeFixing = false
  | evalT e k => Fits leaf amount M e ∧ amount k ∧ ∀ y ∈ e.subs, y.isTimeFixing = false
  | tsum e a b => Fits leaf amount M e ∧ amount a ∧ amount b ∧ ∀ y ∈ e.subs, y.isTimeFixing = false
  | allsum e => Fits leaf amount M e
  | scen e o => Fits leaf amount M e ∧ o = .expectation ∧ ∀ y ∈ e.subs, y.isScen = false
  | .cmp .. => False
  | var n => leaf (var n)
  | par n => leaf (par n)
  | cvar c n => leaf (cvar c n)
  | cpar c n => leaf (cpar c n)
  | pvar c n ti si => leaf (pvar c n ti si)
  | ppar c n ti si => leaf (ppar c n ti si)
  | portField p f => leaf (portField p f)
  | agg e o => leaf (agg e o)
/-- all expressions of the list -/
def FitsAll (leaf amount : Expr → Prop) (M : MCtx) : List Expr → Prop
  | [] => True
  | e :: es => Fits leaf amount M e ∧ FitsAll leaf amount M es
end

end Expr

namespace OptCtx

/-- reading of the model expressions of component `c` when all variables are 0 -/
def constants (x : OptCtx) (c : Component) : MCtx := x.readIn (fun _ => 0) c

/-- The expression can be computed from the data of component `c` alone: arithmetic over finite numbers and declared
parameters, which vary only as `vary` says, with divisors that are never zero. -/
structure Computable (x : OptCtx) (c : Component) (vary : Idx) (e : Expr) : Prop where
  arith : e.Arith
  finite : Expr.FinLits e
  pars : ∀ n, Expr.par n ∈ e.subs → ∃ p, c.model.parameters.get? n = some p ∧ (p.structure_.time = true → vary.time = true) ∧
    (p.structure_.scenario = true → vary.scenario = true)
  divisors : ∀ l r, Expr.div l r ∈ e.subs → ∀ t s : Int, 0 ≤ s → s < x.scenarios → mden (x.constants c) r t s ≠ 0

/-- a usable time shift, timestep or bound of a time sum: a constant whole number -/
structure Amount (x : OptCtx) (c : Component) (k : Expr) : Prop where
  computable : x.Computable c ⟨false, false⟩ k
  whole : ∃ n : ℤ, mden (x.constants c) k 0 0 = n

/-- Symbols are those of the component: a selected variable, a declared parameter; a port field alone receives exactly one
value; the only aggregation is the sum over the connections of a port field. -/
def Leaf (x : OptCtx) (c : Component) : Expr → Prop
  | .var n => ∃ v ∈ x.strategy.getVariables c.model, v.name = n
  | .par n => ∃ p, c.model.parameters.get? n = some p
  | .portField p f => ((x.constants c).ports p f).length = 1
  | .agg e o => o = .portSum ∧ ∃ p f, e = .portField p f
  | _ => False

/-- the expression can be used in component `c` -/
def Usable (x : OptCtx) (c : Component) (e : Expr) : Prop := Expr.Fits (x.Leaf c) (x.Amount c) (x.constants c) e

/-- an optional bound: absent, infinite, or computed from the data -/
def BoundFits (x : OptCtx) (c : Component) (vary : Idx) (b : Option Expr) : Prop :=
  ∀ e, b = some e → e.IsInfinite ∨ x.Computable c vary e

/-- The study can be turned into a solver problem. -/
structure Buildable (x : OptCtx) : Prop where
  network : x.NetworkOk
  data : x.DataOk
  scenarios : 0 < x.scenarios
  /-- parameters are stored under their name, once -/
  parameters : ∀ c ∈ x.network.allComponents, (∀ n p, c.model.parameters.get? n = some p → p.name = n) ∧
    c.model.parameters.keys.Nodup
  /-- every parameter of every component has data for all timesteps of the block and all scenarios -/
  complete : ∀ c ∈ x.network.allComponents, ∀ n p, c.model.parameters.get? n = some p →
    ∃ d, x.database.get? (c.id, n) = some d ∧ d.checkRequirement p.structure_.time p.structure_.scenario = true ∧
      ∀ t ∈ x.timesteps, ∀ s : Nat, s < x.scenarios → ∃ v, d.getValue (atT p.structure_ t) (atS p.structure_ s) x.treeNode = .ok v
  /-- connections join components of the network, and carry usable expressions -/
  connections : ∀ k ∈ x.network.connections, ∀ r, r = k.port1 ∨ r = k.port2 → r.component ∈ x.network.allComponents ∧
    ∀ f d, r.fieldDef f = some d → x.Usable r.component d
  /-- bounds of variables can be computed and leave some room -/
  variables_ : ∀ c ∈ x.network.allComponents, ∀ v ∈ x.strategy.getVariables c.model,
    x.BoundFits c v.structure_ v.lowerBound ∧ x.BoundFits c v.structure_ v.upperBound ∧
    ∀ t s : Nat, t < x.T → s < x.scenarios →
      ∃ q, aboveOpt (x.constants c) v.lowerBound q t s ∧ belowOpt (x.constants c) v.upperBound q t s
  /-- constraints are usable, their bounds can be computed and are infinite only on the right side -/
  constraints : ∀ c ∈ x.network.allComponents, ∀ k ∈ x.strategy.getConstraints c.model, x.Usable c k.expression ∧
    x.BoundFits c ⟨true, true⟩ (some k.lowerBound) ∧ x.BoundFits c ⟨true, true⟩ (some k.upperBound) ∧
    k.lowerBound ≠ .lit .pinf ∧ k.upperBound ≠ .lit .ninf
  /-- objective contributions are usable, and are numbers independent of time and scenario -/
  objectives : ∀ c ∈ x.network.allComponents, ∀ e ∈ x.contributions c, x.Usable c e ∧ (∀ y ∈ e.subs, y.isPortRef = false) ∧
    computeIndexation c.model.structures e = .ok ⟨false, false⟩

end OptCtx
end Verif
