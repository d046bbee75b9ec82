import Verif.Spec.Meaning
import Verif.Model.Network

/-!
# Vocabulary on networks: definitions of port fields, values brought by connections
-/

namespace Verif

namespace Expr
mutual
/-- sub-expressions of `e` (itself included) that are not strictly inside a sum over connections -/
def plainSubs : Expr → List Expr
  | neg e => neg e :: plainSubs e
  | add es => add es :: plainSubsList es
  | mul l r => mul l r :: (plainSubs l ++ plainSubs r)
  | div l r => div l r :: (plainSubs l ++ plainSubs r)
  | .cmp l r c => .cmp l r c :: (plainSubs l ++ plainSubs r)
  | shift e k => shift e k :: (plainSubs e ++ plainSubs k)
  | evalT e k => evalT e k :: (plainSubs e ++ plainSubs k)
  | tsum e a b => tsum e a b :: (plainSubs e ++ plainSubs a ++ plainSubs b)
  | allsum e => allsum e :: plainSubs e
  | scen e op => scen e op :: plainSubs e
  | e => [e]
def plainSubsList : List Expr → List Expr
  | [] => []
  | e :: es => plainSubs e ++ plainSubsList es
end

mutual
/-- literals, symbols and port fields of an expression, from left to right -/
def leaves : Expr → List Expr
  | neg e => leaves e
  | add es => leavesList es
  | mul l r => leaves l ++ leaves r
  | div l r => leaves l ++ leaves r
  | .cmp l r _ => leaves l ++ leaves r
  | shift e k => leaves e ++ leaves k
  | evalT e k => leaves e ++ leaves k
  | tsum e a b => leaves e ++ leaves a ++ leaves b
  | allsum e => leaves e
  | scen e _ => leaves e
  | agg e _ => leaves e
  | e => [e]
def leavesList : List Expr → List Expr
  | [] => []
  | e :: es => leaves e ++ leavesList es
end

/-- the variable or parameter of component `c` designated by a bare symbol; other leaves are unchanged -/
def ofComponent (c : String) : Expr → Expr
  | var n => cvar c n
  | par n => cpar c n
  | e => e

/-- port field or sum over connections? -/
def isPortRef : Expr → Bool
  | portField .. => true
  | agg .. => true
  | _ => false

mutual
/-- sub-expressions of `e` (itself included) outside time shifts, timesteps and bounds of time sums -/
def bodySubs : Expr → List Expr
  | neg e => neg e :: bodySubs e
  | add es => add es :: bodySubsList es
  | mul l r => mul l r :: (bodySubs l ++ bodySubs r)
  | div l r => div l r :: (bodySubs l ++ bodySubs r)
  | .cmp l r c => .cmp l r c :: (bodySubs l ++ bodySubs r)
  | shift e k => shift e k :: bodySubs e
  | evalT e k => evalT e k :: bodySubs e
  | tsum e a b => tsum e a b :: bodySubs e
  | allsum e => allsum e :: bodySubs e
  | scen e op => scen e op :: bodySubs e
  | agg e a => agg e a :: bodySubs e
  | e => [e]
def bodySubsList : List Expr → List Expr
  | [] => []
  | e :: es => bodySubs e ++ bodySubsList es
end

/-- comparison? -/
def isCmp : Expr → Bool
  | .cmp .. => true
  | _ => false

/-- time shifts, timesteps and bounds of time sums are numbers or arithmetic on own parameters only (their
sub-expressions satisfy `P`) -/
def AmountsAll (P : Expr → Prop) (e : Expr) : Prop :=
  (∀ x k, shift x k ∈ e.subs → ∀ y ∈ k.subs, P y) ∧ (∀ x k, evalT x k ∈ e.subs → ∀ y ∈ k.subs, P y) ∧
    ∀ x a b, tsum x a b ∈ e.subs → (∀ y ∈ a.subs, P y) ∧ ∀ y ∈ b.subs, P y

/-- does the node carry a component? -/
def hasComponent : Expr → Bool
  | cvar .. => true
  | cpar .. => true
  | pvar .. => true
  | ppar .. => true
  | _ => false

end Expr

/-- Reading of model expressions in component `comp`, with values from `D`. -/
def componentCtx (D : DenCtx) (comp : String) (ports : String → String → List (Int → Int → ℚ)) : MCtx :=
  ⟨D, comp, ports⟩

/-- no connection -/
def noPorts : String → String → List (Int → Int → ℚ) := fun _ _ => []

/-- the definition that the model of a component gives to a field of one of its ports -/
def PortRef.fieldDef (r : PortRef) (f : String) : Option Expr :=
  (r.component.model.portFieldsDefinitions.get? ⟨r.portId, f⟩).map (·.definition)

/-- the type of the port, if it exists -/
def PortRef.type? (r : PortRef) : Option PortType :=
  (r.component.model.ports.get? r.portId).map (·.portType)

/-- the ports of the model are stored under their name (as `model()` does, `mkModel_portsKeyed`) -/
def Model.PortsKeyed (m : Model) : Prop := ∀ k p, m.ports.get? k = some p → p.portName = k

/-- the connection is the result of connecting two ports of components whose ports are stored under their name -/
structure PortsConnection.Accepted (c : PortsConnection) : Prop where
  made : PortsConnection.make c.port1 c.port2 = .ok c
  keyed1 : c.port1.component.model.PortsKeyed
  keyed2 : c.port2.component.model.PortsKeyed

/-- value brought by a connection to both its ports for field `f`: that of the definition given by the defining side -/
def PortsConnection.value (D : DenCtx) (c : PortsConnection) (f : String) : Int → Int → ℚ :=
  match c.port1.fieldDef f with
  | some d => mden (componentCtx D c.port1.component.id noPorts) d
  | none =>
    match c.port2.fieldDef f with
    | some d => mden (componentCtx D c.port2.component.id noPorts) d
    | none => fun _ _ => 0

/-- is `f` a field of the connected ports? -/
def PortsConnection.hasField (c : PortsConnection) (f : String) : Prop :=
  ∃ ty, c.port1.type? = some ty ∧ f ∈ ty.fields

instance (c : PortsConnection) (f : String) : Decidable (c.hasField f) := by
  unfold PortsConnection.hasField
  cases h : c.port1.type? with
  | none => exact isFalse (by simp)
  | some ty => exact decidable_of_iff (f ∈ ty.fields) (by simp)

/-- what the connection brings to field `f` of port `port` of component `id` -/
def PortsConnection.brings (D : DenCtx) (c : PortsConnection) (id port f : String) : List (Int → Int → ℚ) :=
  if c.hasField f then
    (if c.port1.component.id = id ∧ c.port1.portId = port then [c.value D f] else []) ++
    (if c.port2.component.id = id ∧ c.port2.portId = port then [c.value D f] else [])
  else []

/-- for each port and field of component `id`, the values brought by all connections -/
def attached (D : DenCtx) (cs : List PortsConnection) (id : String) (port f : String) : List (Int → Int → ℚ) :=
  cs.flatMap fun c => c.brings D id port f

end Verif
