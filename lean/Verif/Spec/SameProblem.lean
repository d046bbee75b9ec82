import Verif.Spec.Problem
import Verif.Spec.Rearranged

/-!
# Problems on the same network, built in another way, and on two networks side by side

As `Spec.Rearranged`, for networks of any models built with the API instead of studies written in files with the shipped libraries.
-/

namespace Verif

/-- the same component under the name that `ρ` gives it -/
def Component.called (ρ : String → String) (c : Component) : Component := ⟨c.model, ρ c.id⟩

/-- the same port of the same component under the name that `ρ` gives it -/
def PortRef.called (ρ : String → String) (r : PortRef) : PortRef := ⟨r.component.called ρ, r.portId⟩

/-- `k'` connects the same ports as `k` when components have the names that `ρ` gives them, from one end or from the other. -/
def SameLink (ρ : String → String) (k k' : PortsConnection) : Prop :=
  (k'.port1 = k.port1.called ρ ∧ k'.port2 = k.port2.called ρ) ∨ (k'.port1 = k.port2.called ρ ∧ k'.port2 = k.port1.called ρ)

namespace OptCtx

/-- the ends of the connections are components of the network -/
def Closed (x : OptCtx) : Prop :=
  ∀ k ∈ x.network.connections, k.port1.component ∈ x.network.allComponents ∧ k.port2.component ∈ x.network.allComponents

/-- the expressions that the problem takes from the models name symbols without a component (as model expressions do) -/
structure OwnSymbols (x : OptCtx) : Prop where
  bounds : ∀ c ∈ x.network.allComponents, ∀ v ∈ x.strategy.getVariables c.model, ∀ b, v.lowerBound = some b ∨ v.upperBound = some b →
    ∀ y ∈ b.subs, y.hasComponent = false
  constraints : ∀ c ∈ x.network.allComponents, ∀ k ∈ x.strategy.getConstraints c.model, ∀ e,
    e = k.expression ∨ e = k.lowerBound ∨ e = k.upperBound → ∀ y ∈ e.subs, y.hasComponent = false
  objectives : ∀ c ∈ x.network.allComponents, ∀ e ∈ x.contributions c, ∀ y ∈ e.subs, y.hasComponent = false

/-- `x` and `x'` have the same block of timesteps, number of scenarios, strategies and position in the tree. -/
structure SameFrame (x x' : OptCtx) : Prop where
  timesteps : x'.timesteps = x.timesteps
  scenarios : x'.scenarios = x.scenarios
  cycle : x'.cycle = x.cycle
  strategy : x'.strategy = x.strategy
  risk : x'.risk = x.risk
  treeNode : x'.treeNode = x.treeNode

/-- the value of parameter `n` of component `c` at timestep `t` of the block and in scenario `s` -/
def parameterAt (x : OptCtx) (c n : String) (t s : Int) : ℚ := x.dataValue c n (atT (x.parIdx c n) t) (atS (x.parIdx c n) s)

/-- `x'` is the problem `x` when components have the names that `ρ` gives them: distinct components keep distinct names, components and
connections come in any order, components are added as nodes or not, connections are made from one end or the other, and the data base
gives the same values to the parameters. -/
structure Renamed (ρ : String → String) (x x' : OptCtx) : Prop where
  frame : x.SameFrame x'
  distinct : ∀ c ∈ x.network.allComponents, ∀ c' ∈ x.network.allComponents, ρ c.id = ρ c'.id → c.id = c'.id
  components : (x.network.allComponents.map (Component.called ρ)).Perm x'.network.allComponents
  connections : Listed (SameLink ρ) x.network.connections x'.network.connections
  data : ∀ c ∈ x.network.allComponents, ∀ n t s, 0 ≤ s → x'.parameterAt (ρ c.id) n t s = x.parameterAt c.id n t s

/-- `x` is `x1` and `x2` side by side: they have no component in common, `x` has the components, the connections and the data of both. -/
structure SideBySide (x1 x2 x : OptCtx) : Prop where
  frame1 : x1.SameFrame x
  frame2 : x2.SameFrame x
  distinct : ∀ c ∈ x1.network.allComponents, ∀ c' ∈ x2.network.allComponents, c.id ≠ c'.id
  components : (x1.network.allComponents ++ x2.network.allComponents).Perm x.network.allComponents
  connections : (x1.network.connections ++ x2.network.connections).Perm x.network.connections
  data1 : ∀ c ∈ x1.network.allComponents, ∀ n t s, 0 ≤ s → x.parameterAt c.id n t s = x1.parameterAt c.id n t s
  data2 : ∀ c ∈ x2.network.allComponents, ∀ n t s, 0 ≤ s → x.parameterAt c.id n t s = x2.parameterAt c.id n t s

/-- the network is built by adding components and connecting their ports: everything is stored under its id, connections passed the checks -/
structure Assembled (x : OptCtx) : Prop where
  keyed : ∀ k c, (k, c) ∈ x.network.nodes ∨ (k, c) ∈ x.network.components → c.id = k
  made : ∀ k ∈ x.network.connections, PortsConnection.make k.port1 k.port2 = .ok k

end OptCtx
end Verif
