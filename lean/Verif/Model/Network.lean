import Verif.Model.Model

/-!
# Networks

Models `study/network.py`.
-/

namespace Verif

/-- `Component`: study/network.py 27-34; `Node` (network.py 47-53) has the same fields. -/
structure Component where
  model : Model
  id : String
  deriving Repr

/-- `PortRef`: network.py 60-63. -/
structure PortRef where
  component : Component
  portId : String
  deriving Repr

/-- `PortsConnection`: network.py 66-70. -/
structure PortsConnection where
  port1 : PortRef
  port2 : PortRef
  masterPort : Dict String PortRef
  deriving Repr

/-- the loop of `__validate_ports`: network.py 88-108 -/
def masterPorts (r1 r2 : PortRef) (p1 p2 : ModelPort) : List String → Dict String PortRef → R (Dict String PortRef)
  | [], acc => .ok acc
  | f :: fs, acc =>
    let def1 := r1.component.model.portFieldsDefinitions.contains ⟨p1.portName, f⟩
    let def2 := r2.component.model.portFieldsDefinitions.contains ⟨p2.portName, f⟩
    if !def1 && !def2 then .error (.valueError "No definition for port field")
    else if def1 && def2 then .error (.valueError "Port field has 2 definitions.")
    else masterPorts r1 r2 p1 p2 fs (acc.set f (if def1 then r1 else r2))

/-- `PortsConnection.__post_init__` / `__validate_ports`: network.py 72-108. -/
def PortsConnection.make (r1 r2 : PortRef) : R PortsConnection :=
  match r1.component.model.ports.get? r1.portId, r2.component.model.ports.get? r2.portId with
  | some p1, some p2 =>
    if p1.portType ≠ p2.portType then .error (.valueError "Incompatible portTypes")
    else do
      let mp ← masterPorts r1 r2 p1 p2 p1.portType.fields []
      .ok ⟨r1, r2, mp⟩
  | _, _ => .error (.valueError "Missing port")

/-- `Network`: network.py 122-131. -/
structure Network where
  id : String
  nodes : Dict String Component := []
  components : Dict String Component := []
  connections : List PortsConnection := []
  deriving Repr

namespace Network

/-- `add_component`: network.py 137-139. -/
def addComponent (n : Network) (c : Component) : Network := { n with components := n.components.set c.id c }

/-- `add_node`: network.py 152-153. -/
def addNode (n : Network) (c : Component) : Network := { n with nodes := n.nodes.set c.id c }

/-- `get_component`: network.py 141-146 (a component is always true in a boolean context). -/
def getComponent (n : Network) (id : String) : R Component :=
  match n.components.get? id with
  | some c => .ok c
  | none => n.nodes.get id

/-- `get_node`: network.py 155-156. -/
def getNode (n : Network) (id : String) : R Component := n.nodes.get id

/-- `all_components`: network.py 162-167. -/
def allComponents (n : Network) : List Component := n.nodes.values ++ n.components.values

/-- `connect`: network.py 169-171. -/
def connect (n : Network) (r1 r2 : PortRef) : R Network := do
  let c ← PortsConnection.make r1 r2
  .ok { n with connections := n.connections ++ [c] }

/-- `is_empty`: network.py 180-181. -/
def isEmpty (n : Network) : Bool := n.nodes.isEmpty && n.components.isEmpty && n.connections.isEmpty

/-- the last loop of `Network.replicate`: network.py 192-193; `PortsConnection.replicate` (network.py 117-119) runs
`__post_init__` again on a fresh `master_port`. -/
def replicateConnections : List PortsConnection → R (List PortsConnection)
  | [] => .ok []
  | c :: cs => do
    let c' ← PortsConnection.make c.port1 c.port2
    let cs' ← replicateConnections cs
    .ok (c' :: cs')

/-- `Network.replicate()`: network.py 183-195.  `replace` keeps the id and resets the `init=False` fields. -/
def replicate (n : Network) : R Network := do
  let nodes := n.nodes.values.foldl (fun d c => Dict.set d c.id c) []
  let comps := n.components.values.foldl (fun d c => Dict.set d c.id c) []
  let cs ← replicateConnections n.connections
  .ok ⟨n.id, nodes, comps, cs⟩

end Network
end Verif
