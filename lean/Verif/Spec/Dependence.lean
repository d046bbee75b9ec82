import Verif.Spec.Problem

/-!
# What an expression depends on

An expression depends on time (on the scenario) when a symbol that it mentions is declared so, except in parts that are about the whole block
or one timestep (about all scenarios).
-/

namespace Verif

/-- what the symbols and the port fields of an expression depend on -/
structure SymbolDep where
  var : String → Idx
  par : String → Idx
  cvar : String → String → Idx
  cpar : String → String → Idx
  port : String → String → Idx

/-- what depends on one thing or another depends on what they depend on -/
def Idx.both (a b : Idx) : Idx := ⟨a.time || b.time, a.scenario || b.scenario⟩

/-- the same, for any number of things -/
def Idx.all (l : List Idx) : Idx := ⟨l.any (·.time), l.any (·.scenario)⟩

mutual
/-- What an expression depends on: what it mentions depends on.  A sum over the block and the value at a timestep do not depend on time, an
expectation does not depend on the scenario; the number of timesteps of a shift and the ends of a sum over time are constants. -/
def depends (d : SymbolDep) : Expr → Idx
  | .lit _ => ⟨false, false⟩
  | .var n => d.var n
  | .par n => d.par n
  | .cvar c n => d.cvar c n
  | .cpar c n => d.cpar c n
  | .pvar .. => ⟨false, false⟩
  | .ppar .. => ⟨false, false⟩
  | .portField p f => d.port p f
  | .agg (.portField p f) _ => d.port p f
  | .agg _ _ => ⟨false, false⟩
  | .neg e => depends d e
  | .add es => dependsAny d es
  | .mul l r => (depends d l).both (depends d r)
  | .div l r => (depends d l).both (depends d r)
  | .cmp l r _ => (depends d l).both (depends d r)
  | .shift e _ => depends d e
  | .tsum e _ _ => depends d e
  | .evalT e _ => ⟨false, (depends d e).scenario⟩
  | .allsum e => ⟨false, (depends d e).scenario⟩
  | .scen e _ => ⟨(depends d e).time, false⟩
/-- what a sum depends on -/
def dependsAny (d : SymbolDep) : List Expr → Idx
  | [] => ⟨false, false⟩
  | e :: es => (depends d e).both (dependsAny d es)
end

namespace OptCtx

/-- the symbols of component `id`, as declared in its model, when its port fields depend on `port` -/
def symbols (x : OptCtx) (id : String) (port : String → String → Idx) : SymbolDep where
  var := x.varIdx id
  par := x.parIdx id
  cvar := x.varIdx
  cpar := x.parIdx
  port := port

/-- what field `f` of a connection depends on: its definition, by one of the two components -/
def fieldDepends (x : OptCtx) (k : PortsConnection) (f : String) : Idx :=
  match k.port1.fieldDef f with
  | some d => depends (x.symbols k.port1.component.id fun _ _ => ⟨false, false⟩) d
  | none =>
    match k.port2.fieldDef f with
    | some d => depends (x.symbols k.port2.component.id fun _ _ => ⟨false, false⟩) d
    | none => ⟨false, false⟩

/-- for each end of the connection that is port `port` of component `id`, what its field `f` depends on -/
def bringsDep (x : OptCtx) (k : PortsConnection) (id port f : String) : List Idx :=
  if k.hasField f then
    (if k.port1.component.id = id ∧ k.port1.portId = port then [x.fieldDepends k f] else []) ++
    (if k.port2.component.id = id ∧ k.port2.portId = port then [x.fieldDepends k f] else [])
  else []

/-- what field `f` of port `port` of component `id` depends on: what the connections bring to it -/
def portDepends (x : OptCtx) (id port f : String) : Idx :=
  Idx.all (x.network.connections.flatMap fun k => x.bringsDep k id port f)

/-- what expression `e` of component `c` depends on -/
def dependence (x : OptCtx) (c : Component) (e : Expr) : Idx := depends (x.symbols c.id (x.portDepends c.id)) e

/-- `(t, s)` is an index at which the program writes a constraint with this expression: any timestep if the expression depends on time, the
first one otherwise, and the same for scenarios. -/
def WrittenAt (x : OptCtx) (c : Component) (e : Expr) (t s : Nat) : Prop :=
  t < x.T ∧ s < x.scenarios ∧ ((x.dependence c e).time = false → t = 0) ∧ ((x.dependence c e).scenario = false → s = 0)

end OptCtx
end Verif
