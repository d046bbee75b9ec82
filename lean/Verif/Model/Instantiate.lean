import Verif.Model.Network
import Verif.Model.Copy

/-!
# Connections and instantiation of model expressions

Models the registration of port field expressions and `_instantiate_model_expression` of
`simulation/optimization.py`.
-/

namespace Verif

/-- `register_connection_fields_expressions`: optimization.py 295-305, with `get_or_add` (utils.py 38-48), which
replaces an absent or empty list by a new one before the append. -/
def registerExpr (ports : PortExprs) (key : PortFieldKey) (e : Expr) : PortExprs :=
  match ports.get? key with
  | some (x :: xs) => ports.set key (x :: xs ++ [e])
  | _ => ports.set key [e]

/-- the loop over the fields of one connection: optimization.py 589-613.  `None.definition` raises
`AttributeError`. -/
def registerFields (cnx : PortsConnection) : List (String × PortRef) → PortExprs → R PortExprs
  | [], ports => .ok ports
  | (f, master) :: rest, ports =>
    match master.component.model.portFieldsDefinitions.get? ⟨master.portId, f⟩ with
    | none => .error (.attributeError "definition")
    | some d => do
      let e ← addComponentContext master.component.id d.definition
      let ports := registerExpr ports ⟨cnx.port1.component.id, cnx.port1.portId, f⟩ e
      let ports := registerExpr ports ⟨cnx.port2.component.id, cnx.port2.portId, f⟩ e
      registerFields cnx rest ports

/-- `_register_connection_fields_definitions`: optimization.py 587-613. -/
def registerConnections : List PortsConnection → PortExprs → R PortExprs
  | [], ports => .ok ports
  | c :: cs, ports => do
    let ports ← registerFields c c.masterPort ports
    registerConnections cs ports

/-- `_instantiate_model_expression`: optimization.py 431-445. -/
def instantiate (e : Expr) (cid : String) (ports : PortExprs) : R Expr := do
  let e' ← addComponentContext cid e
  resolvePort e' cid ports

end Verif
