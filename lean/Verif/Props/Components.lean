import Verif.Lemmas.Resolve
import Verif.Lemmas.CopyEval

/-! # Properties C15, C16, C20, C21, C22: components, ports, connections and networks -/

namespace Verif
namespace Props
open Expr

/-! ## A concrete network used by the examples

A node with a `balance` port, a generator and a load connected to it.  The port type has one field `flow`; the
generator defines it as its variable `generation` times its parameter `k`, the load as minus its parameter `demand`. -/

def flowType : PortType := ⟨"balance_type", ["flow"]⟩
def nodeModel : Model := { id := "NODE", ports := [("balance", ⟨flowType, "balance"⟩)] }
def genModel : Model :=
  { id := "GEN"
    parameters := [("k", ⟨"k", .continuous, ⟨false, false⟩⟩)]
    variables_ := [("generation", ⟨"generation", .continuous, none, none, ⟨true, true⟩, .operational⟩)]
    ports := [("balance", ⟨flowType, "balance"⟩)]
    portFieldsDefinitions :=
      [(⟨"balance", "flow"⟩, ⟨⟨"balance", "flow"⟩, (par "k").mulOp (var "generation")⟩)] }
def loadModel : Model :=
  { id := "LOAD"
    parameters := [("demand", ⟨"demand", .continuous, ⟨true, true⟩⟩)]
    ports := [("balance", ⟨flowType, "balance"⟩)]
    portFieldsDefinitions := [(⟨"balance", "flow"⟩, ⟨⟨"balance", "flow"⟩, (par "demand").negOp⟩)] }
def node0 : Component := ⟨nodeModel, "N"⟩
def gen0 : Component := ⟨genModel, "G"⟩
def load0 : Component := ⟨loadModel, "D"⟩
def cnx1 : PortsConnection := ⟨⟨node0, "balance"⟩, ⟨gen0, "balance"⟩, [("flow", ⟨gen0, "balance"⟩)]⟩
def cnx2 : PortsConnection := ⟨⟨load0, "balance"⟩, ⟨node0, "balance"⟩, [("flow", ⟨load0, "balance"⟩)]⟩
/-- the balance of the node -/
def balance0 : Expr := agg (portField "balance" "flow") .portSum

theorem portsKeyed_single (m : Model) (k : String) (p : ModelPort) (h : m.ports = [(k, p)]) (hk : p.portName = k) :
    m.PortsKeyed := by
  intro k' p' h'
  rw [h] at h'
  simp only [Dict.get?] at h'
  split at h'
  · next he => cases h'; rw [hk, he]
  · cases h'

theorem cnx1_accepted : cnx1.Accepted :=
  ⟨rfl, portsKeyed_single _ "balance" ⟨flowType, "balance"⟩ rfl rfl, portsKeyed_single _ "balance" ⟨flowType, "balance"⟩ rfl rfl⟩
theorem cnx2_accepted : cnx2.Accepted :=
  ⟨rfl, portsKeyed_single _ "balance" ⟨flowType, "balance"⟩ rfl rfl, portsKeyed_single _ "balance" ⟨flowType, "balance"⟩ rfl rfl⟩

theorem defsClean0 : DefsClean [cnx1, cnx2] := by
  have key : ∀ (m : Model) (r : PortRef) (f : String) (d : Expr), r.component.model = m → r.fieldDef f = some d →
      ∃ k v, (k, v) ∈ m.portFieldsDefinitions ∧ v.definition = d := by
    rintro m r f d rfl h
    unfold PortRef.fieldDef at h
    rw [Option.map_eq_some_iff] at h
    obtain ⟨v, hv, rfl⟩ := h
    exact ⟨_, v, Dict.mem_of_get? hv, rfl⟩
  intro c hc r f d hr hd
  simp only [List.mem_cons, List.not_mem_nil, or_false] at hc
  rcases hc with rfl | rfl <;> rcases hr with rfl | rfl
  · obtain ⟨k, v, hm, _⟩ := key _ _ _ _ rfl hd; cases hm
  · obtain ⟨k, v, hm, rfl⟩ := key _ _ _ _ rfl hd
    simp only [cnx1, gen0, genModel, List.mem_singleton, Prod.mk.injEq] at hm
    obtain ⟨-, rfl⟩ := hm
    simp [mulOp, subs, isPortRef, isCmp, hasComponent]
  · obtain ⟨k, v, hm, rfl⟩ := key _ _ _ _ rfl hd
    simp only [cnx2, load0, loadModel, List.mem_singleton, Prod.mk.injEq] at hm
    obtain ⟨-, rfl⟩ := hm
    simp [negOp, subs, isPortRef, isCmp, hasComponent]
  · obtain ⟨k, v, hm, _⟩ := key _ _ _ _ rfl hd; cases hm

/-! ## C16 -/

/-- C16, value: the expression obtained by adding the component has, whatever the values of variables and parameters,
the timestep and the scenario, the value of the model expression where bare symbols are those of the component. -/
theorem c16_meaning (D : DenCtx) (c c' : String) (ports : String → String → List (Int → Int → ℚ)) (e e' : Expr)
    (ha : e.AggPort) (h : addComponentContext c e = .ok e') (t s : Int) :
    mden (componentCtx D c' ports) e' t s = mden (componentCtx D c ports) e t s :=
  addComponentContext_mden D c c' ports e e' ha h t s

/-- C16, value through the evaluation API: evaluating the result with component values gives what evaluating the model
expression with these values as bare values gives, failures included. -/
theorem c16_evaluate (p q : ValueProvider) (c : String) (hv : ∀ n, p.var n = q.cvar c n)
    (hp : ∀ n, p.par n = q.cpar c n) (e e' : Expr) (h : addComponentContext c e = .ok e') :
    evaluate q e' = evaluate p e := by
  refine (copyWith_eval (h := contextHooks c) ?_ e e' h).1
  constructor
  · intro n e h; cases h; exact ⟨by simp [evaluate, hv], by simp⟩
  · intro n e h; cases h; exact ⟨by simp [evaluate, hp], by simp⟩
  · intro _ n e h; cases h
  · intro _ n e h; cases h
  · intro _ n _ _ e h; cases h
  · intro _ n _ _ e h; cases h
  · intro p f e h; cases h; rfl
  · rfl

/-- C16, symbols: from left to right, each variable and parameter is replaced by the one of the component, and the other
leaves are unchanged. -/
theorem c16_symbols (c : String) (e e' : Expr) (h : addComponentContext c e = .ok e') :
    e'.leaves = e.leaves.map (ofComponent c) := addComponentContext_leaves c e e' h

/-- C16, acceptance: an expression is accepted exactly when no node carries a component already (a literal empty sum,
which no operator builds, is refused too); a refusal because of a component is a `ValueError`. -/
theorem c16_accepted_iff (c : String) (e : Expr) :
    ((∃ e', addComponentContext c e = .ok e') ↔ (∀ y ∈ e.subs, y.hasComponent = false) ∧ add [] ∉ e.subs) ∧
    (add [] ∉ e.subs → (∃ y ∈ e.subs, y.hasComponent = true) → ∃ m, addComponentContext c e = .error (.valueError m)) := by
  refine ⟨addComponentContext_ok_iff c e, fun hne ⟨y, hy, hc⟩ => ?_⟩
  cases h : addComponentContext c e with
  | ok e' =>
    have := ((addComponentContext_ok_iff c e).1 ⟨e', h⟩).1 y hy
    rw [hc] at this
    cases this
  | error x =>
    obtain ⟨z, hz, he⟩ := copyWith_error_node (visits_subs (h := contextHooks c) rfl) e x h
    cases z
    case add es => cases he.1; exact absurd hz hne
    all_goals
      simp only [NodeErr, contextHooks, copyHooks, reduceCtorEq, Except.error.injEq, false_and, exists_const] at he
    all_goals exact ⟨_, by rw [← he]⟩

/-- accepted, and read as the symbols of the component -/
example : addComponentContext "G" ((par "k").mulOp (shift (var "generation") (lit (-1)))) =
    .ok (mul (cpar "G" "k") (shift (cvar "G" "generation") (lit (-1)))) ∧
    ((par "k").mulOp (shift (var "generation") (lit (-1)))).AggPort := by
  refine ⟨rfl, ?_⟩
  intro x a h
  simp [mulOp, subs] at h
/-- refused -/
example : (∃ y ∈ ((var "x").addOp (cvar "other" "y")).subs, y.hasComponent = true) ∧
    add [] ∉ ((var "x").addOp (cvar "other" "y")).subs := by
  simp [addOp, operands, subs, subsList, hasComponent]

/-! ## C21 -/

/-- C21, acceptance: a connection is accepted exactly when both ports exist with the same type and each field of the
type is defined by exactly one of the two components; otherwise a `ValueError` is raised. -/
theorem c21_accepted_iff (r1 r2 : PortRef) (k1 : r1.component.model.PortsKeyed) (k2 : r2.component.model.PortsKeyed) :
    ((∃ c, PortsConnection.make r1 r2 = .ok c) ↔ ∃ ty, r1.type? = some ty ∧ r2.type? = some ty ∧
      ∀ f ∈ ty.fields, ((r1.fieldDef f).isSome ∧ r2.fieldDef f = none) ∨ (r1.fieldDef f = none ∧ (r2.fieldDef f).isSome)) ∧
    ∀ x, PortsConnection.make r1 r2 = .error x → ∃ m, x = .valueError m := by
  have side : ∀ (p1 p2 : ModelPort) (f : String), p1.portName = r1.portId → p2.portName = r2.portId →
      (oneSide r1 r2 p1 p2 f ↔ ((r1.fieldDef f).isSome ∧ r2.fieldDef f = none) ∨
        (r1.fieldDef f = none ∧ (r2.fieldDef f).isSome)) := by
    intro p1 p2 f h1 h2
    have e1 : ∀ (r : PortRef), (r.component.model.portFieldsDefinitions.contains ⟨r.portId, f⟩ = true) ↔ (r.fieldDef f).isSome := by
      intro r; simp [PortRef.fieldDef, Dict.contains]
    have e2 : ∀ (r : PortRef), (r.component.model.portFieldsDefinitions.contains ⟨r.portId, f⟩ = false) ↔ r.fieldDef f = none := by
      intro r; simp [PortRef.fieldDef, Dict.contains]
    unfold oneSide
    rw [h1, h2, e1, e1, e2, e2]
  refine ⟨⟨?_, ?_⟩, ?_⟩
  · rintro ⟨c, hc⟩
    obtain ⟨p1, p2, h1, h2, hty, hall, _⟩ := make_ok hc
    refine ⟨p1.portType, by simp [PortRef.type?, h1], by simp [PortRef.type?, h2, hty], fun f hf => ?_⟩
    exact (side p1 p2 f (k1 _ _ h1) (k2 _ _ h2)).1 (hall f hf)
  · rintro ⟨ty, h1, h2, hall⟩
    unfold PortRef.type? at h1 h2
    rw [Option.map_eq_some_iff] at h1 h2
    obtain ⟨p1, h1, rfl⟩ := h1
    obtain ⟨p2, h2, ht⟩ := h2
    refine ⟨⟨r1, r2, p1.portType.fields.foldl (fun d f => Dict.set d f (sideOf r1 r2 p1 f)) []⟩, ?_⟩
    unfold PortsConnection.make
    rw [h1, h2]
    simp only [ht, ne_eq, not_true_eq_false, if_false]
    rw [masterPorts_ok r1 r2 p1 p2 _ _ fun f hf => (side p1 p2 f (k1 _ _ h1) (k2 _ _ h2)).2 (hall f hf)]
    rfl
  · intro x hx
    unfold PortsConnection.make at hx
    split at hx
    · next p1 p2 h1 h2 =>
      split at hx
      · cases hx; exact ⟨_, rfl⟩
      · simp only [bind_error_iff, reduceCtorEq, and_false, exists_false, or_false] at hx
        by_cases hall : ∀ f ∈ p1.portType.fields, oneSide r1 r2 p1 p2 f
        · rw [masterPorts_ok _ _ _ _ _ _ hall] at hx; cases hx
        · push Not at hall
          obtain ⟨m, hm⟩ := masterPorts_error r1 r2 p1 p2 p1.portType.fields [] hall
          rw [hm] at hx
          cases hx
          exact ⟨m, rfl⟩
    · cases hx; exact ⟨_, rfl⟩

/-- C21, master side: it is recorded for exactly the fields of the port type, it is the side that defines the field, and
looking up its definition (as the construction of the problem does) succeeds. -/
theorem c21_master (c : PortsConnection) (hc : c.Accepted) :
    (∀ f, c.hasField f → ∃ m, c.masterPort.get? f = some m ∧ (m.fieldDef f).isSome ∧
      (m = c.port1 ∧ c.port2.fieldDef f = none ∨ m = c.port2 ∧ c.port1.fieldDef f = none)) ∧
    ∀ f, ¬ c.hasField f → c.masterPort.get? f = none := by
  obtain ⟨p1, p2, h1, h2, hty, hall, _, _, nd, hget⟩ := make_ok hc.made
  have k1 := hc.keyed1 _ _ h1
  have k2 := hc.keyed2 _ _ h2
  have hf : ∀ f, c.hasField f ↔ f ∈ p1.portType.fields := by
    intro f; simp [PortsConnection.hasField, PortRef.type?, h1]
  constructor
  · intro f h
    rw [hf] at h
    refine ⟨sideOf c.port1 c.port2 p1 f, by rw [hget, if_pos h], ?_, ?_⟩
    · obtain ⟨d, hd⟩ := sideOf_def k1 k2 (hall f h)
      simp [hd]
    · have e2 : ∀ (r : PortRef) n, n = r.portId → r.component.model.portFieldsDefinitions.contains ⟨n, f⟩ = false →
          r.fieldDef f = none := by
        rintro r n rfl h; simpa [PortRef.fieldDef, Dict.contains] using h
      unfold sideOf
      rcases hall f h with ⟨ha, hb⟩ | ⟨ha, hb⟩
      · rw [ha]; exact .inl ⟨rfl, e2 _ _ k2 hb⟩
      · rw [ha]; exact .inr ⟨rfl, e2 _ _ k1 ha⟩
  · intro f h
    rw [hget, if_neg (fun h' => h ((hf f).2 h'))]

/-- C21, later steps: when all connections are accepted and the definitions are as `port_field_def` intends them,
collecting the definitions of all connections never fails. -/
theorem c21_registration (cs : List PortsConnection) (hc : ∀ c ∈ cs, c.Accepted) (hd : DefsClean cs) :
    ∃ ports, registerConnections cs [] = .ok ports := registerConnections_ok cs hc hd []

theorem collectPorts_keyed (ps : List ModelPort) (acc acc' : Dict String ModelPort)
    (ha : ∀ k p, acc.get? k = some p → p.portName = k) (h : collectPorts ps acc = .ok acc') :
    ∀ k p, acc'.get? k = some p → p.portName = k := by
  induction ps generalizing acc with
  | nil => cases h; exact ha
  | cons q ps ih =>
    unfold collectPorts at h
    split at h
    · cases h
    · refine ih _ ?_ h
      intro k p hk
      rw [Dict.get?_set] at hk
      split at hk
      · next he => cases hk; exact he
      · exact ha k p hk

/-- the hypothesis on port names of C15 and C21 holds of every model built with `model()` -/
theorem c21_models_are_keyed (a : ModelArgs) (m : Model) (h : mkModel a = .ok m) : m.PortsKeyed := by
  unfold mkModel at h
  simp only [bind_ok_iff] at h
  obtain ⟨ports, hp, h⟩ := h
  unfold Model.make at h
  simp only [bind_ok_iff, Except.ok.injEq] at h
  obtain ⟨_, _, _, _, _, _, rfl⟩ := h
  exact collectPorts_keyed _ _ _ (by simp) hp

/-- the example connections are accepted; swapping the sides too; two nodes cannot be connected (no definition), two
generators neither (two definitions) -/
example : cnx1.Accepted ∧ cnx2.Accepted ∧ DefsClean [cnx1, cnx2] ∧ cnx1.hasField "flow" ∧
    (∃ m, PortsConnection.make ⟨node0, "balance"⟩ ⟨node0, "balance"⟩ = .error (.valueError m)) ∧
    (∃ m, PortsConnection.make ⟨gen0, "balance"⟩ ⟨gen0, "balance"⟩ = .error (.valueError m)) ∧
    (∃ m, PortsConnection.make ⟨gen0, "absent"⟩ ⟨node0, "balance"⟩ = .error (.valueError m)) :=
  ⟨cnx1_accepted, cnx2_accepted, defsClean0, ⟨flowType, rfl, by simp [flowType]⟩,
    ⟨"No definition for port field", rfl⟩, ⟨"Port field has 2 definitions.", rfl⟩, ⟨"Missing port", rfl⟩⟩

/-! ## C15 -/

/-- C15, value: after the connections are registered, resolving the port references of an expression in component `cid`
gives an expression with the same value, where `sum_connections(port.field)` is the sum over the attached connections of
the value of the definition given by the defining side, read in the component of that side, and a plain port field is
the value brought by its only connection. -/
theorem c15_meaning (D : DenCtx) (cs : List PortsConnection) (hc : ∀ c ∈ cs, c.Accepted) (hd : DefsClean cs)
    (ports : PortExprs) (h : registerConnections cs [] = .ok ports) (cid c' : String) (e e' : Expr) (ha : e.AggPort)
    (hr : resolvePort e cid ports = .ok e') (t s : Int) :
    mden (componentCtx D c' noPorts) e' t s = mden (componentCtx D c' (attached D cs cid)) e t s := by
  refine resolvePort_mden D cs hc ?_ ports h cid c' e e' ha hr t s
  intro c hc' r f d hr hd' x a hx
  have := ((hd c hc' r f d hr hd').1 _ hx).1
  simp [isPortRef] at this

theorem registered_length (D : DenCtx) (cs : List PortsConnection) (hc : ∀ c ∈ cs, c.Accepted) (hd : DefsClean cs)
    (ports : PortExprs) (h : registerConnections cs [] = .ok ports) (cid p f : String) :
    (registered ports ⟨cid, p, f⟩).length = (attached D cs cid p f).length := by
  have := registerConnections_values D cs hc (by
    intro c hc' r f d hr hd' x a hx
    have := ((hd c hc' r f d hr hd').1 _ hx).1
    simp [isPortRef] at this) [] ports h cid ⟨cid, p, f⟩
  have h2 := congrArg List.length this
  simpa [registered] using h2

/-- C15, acceptance: resolution succeeds exactly when each plain port field has exactly one attached connection (and
sums over connections apply to port fields, as `sum_connections` enforces); otherwise an exception is raised. -/
theorem c15_accepted_iff (D : DenCtx) (cs : List PortsConnection) (hc : ∀ c ∈ cs, c.Accepted) (hd : DefsClean cs)
    (ports : PortExprs) (h : registerConnections cs [] = .ok ports) (cid : String) (e : Expr)
    (hne : add [] ∉ e.plainSubs)
    (hg : ∀ x a, agg x a ∈ e.plainSubs → a = .portSum ∧ ∃ p f, x = portField p f) :
    ((∃ e', resolvePort e cid ports = .ok e') ↔
      ∀ p f, portField p f ∈ e.plainSubs → (attached D cs cid p f).length = 1) ∧
    ∀ x, resolvePort e cid ports = .error x → (∃ m, x = .valueError m) ∨ ∃ m, x = .keyError m := by
  refine ⟨?_, fun x hx => resolvePort_error e cid ports x hne hg hx⟩
  rw [resolvePort_ok_iff]
  simp only [registered_length D cs hc hd ports h]
  exact ⟨fun h => h.2.1, fun h => ⟨hne, h, hg⟩⟩

/-- C15, other nodes: an expression without port references is unchanged (up to the flattening of nested sums, see C02:
operators only build flat sums). -/
theorem c15_other_nodes (e : Expr) (cid : String) (ports : PortExprs) (hf : e.Flat)
    (hp : ∀ y ∈ e.subs, y.isPortRef = false) : resolvePort e cid ports = .ok e := resolvePort_id e cid ports hf hp

/-- C15 and C16 together: the instantiation of a model expression in a component (component symbols, then port
references) only contains problem-level nodes, and its value is that of the model expression read in the component with
the values brought by the connections. -/
theorem c15_instantiate (D : DenCtx) (cs : List PortsConnection) (hc : ∀ c ∈ cs, c.Accepted) (hd : DefsClean cs)
    (ports : PortExprs) (h : registerConnections cs [] = .ok ports) (cid : String) (e e' : Expr) (ha : e.AggPort)
    (hcmp : ∀ y ∈ e.subs, y.isCmp = false) (hr : instantiate e cid ports = .ok e') :
    (∀ y ∈ e'.subs, y.isModelLevel = false) ∧
    ∀ t s, den D.std e' t s = mden (componentCtx D cid (attached D cs cid)) e t s := by
  unfold instantiate at hr
  simp only [bind_ok_iff] at hr
  obtain ⟨e1, h1, h2⟩ := hr
  have hports : ∀ key, ∀ x ∈ registered ports key, ∀ y ∈ x.subs, y.isModelLevel = false := by
    intro key x hx
    rcases registerConnections_from cs hc h key x hx with hx | ⟨c, hc', r, f, d, hr, hd', hctx⟩
    · simp [registered] at hx
    · have hcl := (hd c hc' r f d hr hd').1
      exact addComponentContext_problem _ d x (fun y hy => ⟨(hcl y hy).1, (hcl y hy).2.1⟩) hctx
  have hagg := addComponentContext_aggPort cid e e1 ha h1
  have hprob := resolvePort_problem e1 e' cid ports hports (addComponentContext_levels cid e e1 hcmp h1) h2
  refine ⟨hprob, fun t s => ?_⟩
  rw [den_std D cid noPorts e' hprob]
  exact (c15_meaning D cs hc hd ports h cid cid e1 e' hagg h2 t s).trans
    (c16_meaning D cid cid _ e e1 ha h1 t s)

/-- The balance of the node of the example: the connections are accepted and registered, the instantiation succeeds, and
its value is `k_G * generation_G(t, s) - demand_D(t, s)`, one term per connection. -/
example (D : DenCtx) (hv : ∀ c n, D.vidx c n = ⟨true, true⟩) (hp : ∀ n, D.pidx "D" n = ⟨true, true⟩)
    (hk : ∀ n, D.pidx "G" n = ⟨false, false⟩) (t s : Int) :
    ∃ ports e', registerConnections [cnx1, cnx2] [] = .ok ports ∧ instantiate balance0 "N" ports = .ok e' ∧
      balance0.AggPort ∧ (∀ c ∈ [cnx1, cnx2], c.Accepted) ∧ DefsClean [cnx1, cnx2] ∧
      (∀ y ∈ balance0.subs, y.isCmp = false) ∧
      mden (componentCtx D "N" (attached D [cnx1, cnx2] "N")) balance0 t s =
        D.env.par "G" "k" none none * D.env.var "G" "generation" (some t) (some s) -
          D.env.par "D" "demand" (some t) (some s) := by
  refine ⟨_, _, rfl, rfl, ?_, ?_, defsClean0, ?_, ?_⟩
  · intro x a h
    simp only [balance0, subs, List.mem_cons, agg.injEq, reduceCtorEq, List.not_mem_nil, or_false] at h
    exact ⟨_, _, h.1⟩
  · intro c hc
    simp only [List.mem_cons, List.not_mem_nil, or_false] at hc
    rcases hc with rfl | rfl
    · exact cnx1_accepted
    · exact cnx2_accepted
  · simp [balance0, subs, isCmp]
  · have h1 : cnx1.hasField "flow" := ⟨flowType, rfl, by simp [flowType]⟩
    have h2 : cnx2.hasField "flow" := ⟨flowType, rfl, by simp [flowType]⟩
    simp only [balance0, mden, componentCtx, attached, List.flatMap_cons, List.flatMap_nil, PortsConnection.brings, h1, h2,
      if_true, List.append_nil]
    simp only [cnx1, cnx2, node0, gen0, load0, PortsConnection.value, PortRef.fieldDef, genModel, loadModel, nodeModel,
      Dict.get?]
    simp [mulOp, negOp, mden, componentCtx, atT, atS, hv, hp, hk, sub_eq_add_neg]

/-- a plain reference to the port of the node is refused (two connections), one to the port of the generator is
accepted (one connection) -/
example (D : DenCtx) : (attached D [cnx1, cnx2] "N" "balance" "flow").length = 2 ∧
    (attached D [cnx1, cnx2] "G" "balance" "flow").length = 1 := by
  have h1 : cnx1.hasField "flow" := ⟨flowType, rfl, by simp [flowType]⟩
  have h2 : cnx2.hasField "flow" := ⟨flowType, rfl, by simp [flowType]⟩
  simp only [attached, List.flatMap_cons, List.flatMap_nil, PortsConnection.brings, h1, h2, if_true, List.append_nil,
    List.length_append]
  constructor <;> simp [cnx1, cnx2, node0, gen0, load0]

/-! ## C20 -/

/-- C20: an accepted port field definition has no port reference, no comparison and no symbol of a component, outside
time shifts, timesteps and bounds of time sums; and conversely.  A refusal is a `ValueError`.
Missing from the full statement: the expressions that give time shifts, timesteps and bounds of time sums, which the code
does not check (`c20_amounts_not_checked`). -/
theorem c20_definition_partial (d : PortFieldDefinition) :
    (PortFieldDefinition.make d = .ok d ↔
      ∀ y ∈ d.definition.bodySubs, y.isPortRef = false ∧ y.isCmp = false ∧ y.hasComponent = false) ∧
    (∀ d', PortFieldDefinition.make d = .ok d' → d' = d) ∧
    ∀ x, PortFieldDefinition.make d = .error x → ∃ m, x = .valueError m := by
  have key : PortFieldDefinition.make d = .ok d ↔ checkPortExpr d.definition = .ok () := by
    unfold PortFieldDefinition.make
    cases checkPortExpr d.definition with
    | ok u => simp
    | error x => simp
  refine ⟨?_, ?_, ?_⟩
  · rw [key, checkPortExpr_ok]
    simp [refused, and_assoc]
  · intro d' h
    unfold PortFieldDefinition.make at h
    simp only [bind_ok_iff, Except.ok.injEq] at h
    obtain ⟨_, _, rfl⟩ := h
    rfl
  · intro x h
    unfold PortFieldDefinition.make at h
    simp only [bind_error_iff, reduceCtorEq, and_false, exists_false, or_false] at h
    exact checkPortExpr_error _ x h

/-- C20, anywhere in the expression, when time shifts, timesteps and bounds of time sums are themselves free of such
nodes. -/
theorem c20_anywhere_partial (d : PortFieldDefinition) (h : PortFieldDefinition.make d = .ok d)
    (ha : d.definition.AmountsAll fun y => y.isPortRef = false ∧ y.isCmp = false ∧ y.hasComponent = false) :
    ∀ y ∈ d.definition.subs, y.isPortRef = false ∧ y.isCmp = false ∧ y.hasComponent = false :=
  subs_of_body _ ha ((c20_definition_partial d).1.1 h)

/-- C20 is violated: `x[t - other_port.field]` is accepted as a definition, although it refers to another port field; and
so is `x[t + c.y]` with the symbol of another component. -/
theorem c20_amounts_not_checked :
    (PortFieldDefinition.make ⟨⟨"p", "f"⟩, shift (var "x") (portField "q" "g")⟩ =
      .ok ⟨⟨"p", "f"⟩, shift (var "x") (portField "q" "g")⟩ ∧
      ∃ y ∈ (shift (var "x") (portField "q" "g")).subs, y.isPortRef = true) ∧
    (PortFieldDefinition.make ⟨⟨"p", "f"⟩, shift (var "x") (cvar "c" "y")⟩ =
      .ok ⟨⟨"p", "f"⟩, shift (var "x") (cvar "c" "y")⟩ ∧
      ∃ y ∈ (shift (var "x") (cvar "c" "y")).subs, y.hasComponent = true) := by
  refine ⟨⟨rfl, ?_⟩, rfl, ?_⟩ <;> simp [subs, isPortRef, hasComponent]

/-- the second definition is accepted by the model and makes the construction of the problem fail -/
example : ∃ m, addComponentContext "G" (shift (var "x") (cvar "c" "y")) = .error (.valueError m) := ⟨_, rfl⟩

/-- accepted: `k * generation[t-1]`; refused: a sum over connections deep inside -/
example : PortFieldDefinition.make ⟨⟨"p", "f"⟩, mul (par "k") (shift (var "g") (lit (-1)))⟩ =
      .ok ⟨⟨"p", "f"⟩, mul (par "k") (shift (var "g") (lit (-1)))⟩ ∧
    (mul (par "k") (shift (var "g") (lit (-1)))).AmountsAll
      (fun y => y.isPortRef = false ∧ y.isCmp = false ∧ y.hasComponent = false) ∧
    ∃ m, PortFieldDefinition.make ⟨⟨"p", "f"⟩, mul (par "k") (neg (allsum balance0))⟩ = .error (.valueError m) := by
  refine ⟨rfl, ?_, ⟨"Port definition cannot contain port field aggregation.", rfl⟩⟩
  refine ⟨?_, ?_, ?_⟩
  · intro x k h y hy
    simp only [subs, List.mem_cons, List.mem_append, reduceCtorEq, List.not_mem_nil, or_false, false_or,
      shift.injEq] at h
    obtain ⟨-, rfl⟩ := h
    simp only [subs, List.mem_singleton] at hy
    subst hy
    exact ⟨rfl, rfl, rfl⟩
  · intro x k h; simp [subs] at h
  · intro x a b h; simp [subs] at h

/-! ## C22 -/

/-- operations on a network -/
inductive NetOp where
  | addNode (c : Component)
  | addComponent (c : Component)
  | connect (r1 r2 : PortRef)

/-- one operation; a failing connection raises and leaves the network unchanged -/
def NetOp.run (n : Network) : NetOp → Network
  | .addNode c => n.addNode c
  | .addComponent c => n.addComponent c
  | .connect r1 r2 => match n.connect r1 r2 with
    | .ok n' => n'
    | .error _ => n

/-- the network after a history -/
def afterHistory (id : String) (ops : List NetOp) : Network := ops.foldl NetOp.run ⟨id, [], [], []⟩

/-- the last component added under `id` in a history -/
def lastComponent (ops : List NetOp) (id : String) : Option Component :=
  (ops.filterMap fun o => match o with | .addComponent c => if c.id = id then some c else none | _ => none).getLast?
/-- the last node added under `id` in a history -/
def lastNode (ops : List NetOp) (id : String) : Option Component :=
  (ops.filterMap fun o => match o with | .addNode c => if c.id = id then some c else none | _ => none).getLast?
/-- the connections accepted in a history, in order -/
def acceptedConnections (ops : List NetOp) : List PortsConnection :=
  ops.filterMap fun o => match o with | .connect r1 r2 => (PortsConnection.make r1 r2).toOption | _ => none

theorem history_append (id : String) (ops : List NetOp) (o : NetOp) :
    afterHistory id (ops ++ [o]) = NetOp.run (afterHistory id ops) o := by simp [afterHistory]

theorem run_connect (n : Network) (r1 r2 : PortRef) :
    NetOp.run n (.connect r1 r2) =
      { n with connections := n.connections ++ (PortsConnection.make r1 r2).toOption.toList } := by
  simp only [NetOp.run, Network.connect]
  cases PortsConnection.make r1 r2 with
  | ok c => simp [Except.toOption]
  | error x => simp [Except.toOption]

theorem history_state (id : String) (ops : List NetOp) :
    (afterHistory id ops).id = id ∧
    (∀ k, (afterHistory id ops).components.get? k = lastComponent ops k) ∧
    (∀ k, (afterHistory id ops).nodes.get? k = lastNode ops k) ∧
    (afterHistory id ops).connections = acceptedConnections ops ∧
    (afterHistory id ops).components.keys.Nodup ∧ (afterHistory id ops).nodes.keys.Nodup ∧
    (∀ kv ∈ (afterHistory id ops).components, kv.1 = kv.2.id) ∧ (∀ kv ∈ (afterHistory id ops).nodes, kv.1 = kv.2.id) := by
  induction ops using List.reverseRecOn with
  | nil =>
    refine ⟨rfl, fun k => rfl, fun k => rfl, rfl, ?_, ?_, ?_, ?_⟩ <;> simp [afterHistory, Dict.keys]
  | append_singleton ops o ih =>
    obtain ⟨h0, h1, h2, h3, h4, h5, h6, h7⟩ := ih
    rw [history_append]
    cases o with
    | addNode c =>
      refine ⟨h0, fun k => ?_, fun k => ?_, ?_, h4, Dict.nodup_set h5 _ _, h6, ?_⟩
      · rw [show (NetOp.run (afterHistory id ops) (.addNode c)).components = (afterHistory id ops).components from rfl, h1]
        simp [lastComponent]
      · rw [show (NetOp.run (afterHistory id ops) (.addNode c)).nodes = (afterHistory id ops).nodes.set c.id c from rfl,
          Dict.get?_set, h2]
        by_cases hk : c.id = k <;> simp [lastNode, hk]
      · rw [show (NetOp.run (afterHistory id ops) (.addNode c)).connections = (afterHistory id ops).connections from rfl, h3]
        simp [acceptedConnections]
      · rintro ⟨k, v⟩ hkv
        rcases Dict.mem_set hkv with ⟨h, h'⟩ | h
        · simp [h, h']
        · exact h7 _ h
    | addComponent c =>
      refine ⟨h0, fun k => ?_, fun k => ?_, ?_, Dict.nodup_set h4 _ _, h5, ?_, h7⟩
      · rw [show (NetOp.run (afterHistory id ops) (.addComponent c)).components = (afterHistory id ops).components.set c.id c from rfl,
          Dict.get?_set, h1]
        by_cases hk : c.id = k <;> simp [lastComponent, hk]
      · rw [show (NetOp.run (afterHistory id ops) (.addComponent c)).nodes = (afterHistory id ops).nodes from rfl, h2]
        simp [lastNode]
      · rw [show (NetOp.run (afterHistory id ops) (.addComponent c)).connections = (afterHistory id ops).connections from rfl, h3]
        simp [acceptedConnections]
      · rintro ⟨k, v⟩ hkv
        rcases Dict.mem_set hkv with ⟨h, h'⟩ | h
        · simp [h, h']
        · exact h6 _ h
    | connect r1 r2 =>
      rw [run_connect]
      refine ⟨h0, fun k => ?_, fun k => ?_, ?_, h4, h5, h6, h7⟩
      · rw [h1]; simp [lastComponent]
      · rw [h2]; simp [lastNode]
      · simp only [h3, acceptedConnections, List.filterMap_append]
        congr 1

/-- C22, lookup: after any history, `get_component` returns the last component added under the id, else the last node
added under it, else raises `KeyError`; `get_node` only looks at nodes. -/
theorem c22_lookup (nid : String) (ops : List NetOp) (id : String) :
    (afterHistory nid ops).getComponent id =
      (match lastComponent ops id with
        | some c => .ok c
        | none => match lastNode ops id with
          | some c => .ok c
          | none => .error (.keyError "")) ∧
    (afterHistory nid ops).getNode id =
      (match lastNode ops id with
        | some c => .ok c
        | none => .error (.keyError "")) := by
  obtain ⟨_, h1, h2, _⟩ := history_state nid ops
  unfold Network.getComponent Network.getNode Dict.get
  rw [h1, h2]
  cases lastComponent ops id <;> cases lastNode ops id <;> exact ⟨rfl, rfl⟩

/-- C22, listing: after any history, `all_components` lists exactly the last node added under each id and the last
component added under each id; among nodes, and among components, each id is listed once. -/
theorem c22_listing (nid : String) (ops : List NetOp) :
    ∃ ns cs, (afterHistory nid ops).allComponents = ns ++ cs ∧
      (∀ c, c ∈ ns ↔ lastNode ops c.id = some c) ∧ (∀ c, c ∈ cs ↔ lastComponent ops c.id = some c) ∧
      (ns.map (·.id)).Nodup ∧ (cs.map (·.id)).Nodup := by
  obtain ⟨_, h1, h2, _, h4, h5, h6, h7⟩ := history_state nid ops
  have key : ∀ (d : Dict String Component) (last : String → Option Component), d.keys.Nodup →
      (∀ kv ∈ d, kv.1 = kv.2.id) → (∀ k, d.get? k = last k) →
      (∀ c, c ∈ d.values ↔ last c.id = some c) ∧ (d.values.map (·.id)).Nodup := by
    intro d last nd hid hget
    constructor
    · intro c
      rw [← hget, Dict.get?_eq_some_iff nd]
      constructor
      · intro hc
        obtain ⟨⟨k, v⟩, hkv, rfl⟩ := List.mem_map.1 hc
        have := hid _ hkv
        dsimp only at this ⊢
        rw [← this]
        exact hkv
      · intro hc
        exact List.mem_map.2 ⟨_, hc, rfl⟩
    · have : d.values.map (·.id) = d.keys := by
        unfold Dict.values Dict.keys
        rw [List.map_map]
        exact List.map_congr_left fun kv hkv => (hid kv hkv).symm
      rw [this]
      exact nd
  obtain ⟨a1, a2⟩ := key _ _ h5 h7 h2
  obtain ⟨b1, b2⟩ := key _ _ h4 h6 h1
  exact ⟨_, _, rfl, a1, b1, a2, b2⟩

/-- C22, listing: if no id is used both for a node and for a component, each id is listed exactly once. -/
theorem c22_listing_once_partial (nid : String) (ops : List NetOp)
    (hdis : ∀ id, lastNode ops id = none ∨ lastComponent ops id = none) :
    ((afterHistory nid ops).allComponents.map (·.id)).Nodup := by
  obtain ⟨ns, cs, h, h1, h2, h3, h4⟩ := c22_listing nid ops
  rw [h, List.map_append, List.nodup_append]
  refine ⟨h3, h4, ?_⟩
  intro a ha b hb hab
  subst hab
  obtain ⟨x, hx, hxa⟩ := List.mem_map.1 ha
  obtain ⟨y, hy, hya⟩ := List.mem_map.1 hb
  have hx' := (h1 x).1 hx
  have hy' := (h2 y).1 hy
  rw [hxa] at hx'
  rw [hya] at hy'
  rcases hdis a with h | h
  · rw [h] at hx'; cases hx'
  · rw [h] at hy'; cases hy'

/-- C22 is violated when the same id is given to a node and to a component: it is listed twice, and the node can no
longer be reached with `get_component`. -/
theorem c22_id_listed_twice : ∃ ops : List NetOp,
    (afterHistory "net" ops).allComponents.map (·.id) = ["N", "N"] ∧
    (afterHistory "net" ops).getComponent "N" = .ok ⟨genModel, "N"⟩ :=
  ⟨[.addNode ⟨nodeModel, "N"⟩, .addComponent ⟨genModel, "N"⟩], rfl, rfl⟩

theorem replicateConnections_of (cs : List PortsConnection)
    (h : ∀ c ∈ cs, PortsConnection.make c.port1 c.port2 = .ok c) : Network.replicateConnections cs = .ok cs := by
  induction cs with
  | nil => rfl
  | cons c cs ih =>
    simp [Network.replicateConnections, h c (by simp), ih fun c hc => h c (by simp [hc])]

theorem rebuild_eq (d : Dict String Component) (nd : d.keys.Nodup) (hid : ∀ kv ∈ d, kv.1 = kv.2.id) :
    d.values.foldl (fun d c => Dict.set d c.id c) [] = d := by
  have key : ∀ (l acc : Dict String Component), (acc ++ l).keys.Nodup → (∀ kv ∈ l, kv.1 = kv.2.id) →
      (Dict.values l).foldl (fun d c => Dict.set d c.id c) acc = acc ++ l := by
    intro l
    induction l with
    | nil => intro acc _ _; simp [Dict.values]
    | cons kv l ih =>
      intro acc hnd hl
      obtain ⟨k, c⟩ := kv
      have hk : k = c.id := hl (k, c) (by simp)
      have hnot : k ∉ acc.keys := by
        unfold Dict.keys at hnd ⊢
        rw [List.map_append, List.map_cons, List.nodup_append] at hnd
        intro hmem
        exact hnd.2.2 k hmem k (by simp) rfl
      have hset : Dict.set acc c.id c = acc ++ [(k, c)] := by
        rw [← hk]
        clear ih hnd hl hk
        induction acc with
        | nil => rfl
        | cons kv acc ih =>
          obtain ⟨k', v'⟩ := kv
          have h1 : k' ≠ k := by rintro rfl; exact hnot (by simp [Dict.keys])
          have h2 : k ∉ Dict.keys acc := fun h => hnot (by simp only [Dict.keys, List.map_cons, List.mem_cons]; exact .inr h)
          simp [Dict.set, h1, ih h2]
      simp only [Dict.values, List.map_cons, List.foldl_cons]
      rw [hset]
      have := ih (acc ++ [(k, c)]) (by simpa using hnd) fun kv hkv => hl kv (by simp [hkv])
      simpa [Dict.values] using this
  have := key d [] (by simpa using nd) hid
  simpa using this

/-- C22, replication: after any history, `replicate` gives a network with the same content. -/
theorem c22_replicate (nid : String) (ops : List NetOp) :
    (afterHistory nid ops).replicate = .ok (afterHistory nid ops) := by
  obtain ⟨h0, h1, h2, h3, h4, h5, h6, h7⟩ := history_state nid ops
  unfold Network.replicate
  dsimp only
  rw [rebuild_eq _ h5 h7, rebuild_eq _ h4 h6, replicateConnections_of]
  · rfl
  · intro c hc
    rw [h3] at hc
    simp only [acceptedConnections, List.mem_filterMap] at hc
    obtain ⟨o, _, ho⟩ := hc
    cases o with
    | connect r1 r2 =>
      cases hm : PortsConnection.make r1 r2 with
      | error x => simp [hm, Except.toOption] at ho
      | ok c' =>
        simp only [hm, Except.toOption, Option.some.injEq] at ho
        subst ho
        obtain ⟨_, _, _, _, _, _, e1, e2, _⟩ := make_ok hm
        rw [e1, e2]
        exact hm
    | _ => simp at ho

/-- C22, connections: the connections of the network are the accepted ones, in order. -/
theorem c22_connections (nid : String) (ops : List NetOp) :
    (afterHistory nid ops).connections = acceptedConnections ops := (history_state nid ops).2.2.2.1

/-- the example network: a history with an overwritten component and a refused connection -/
example : (afterHistory "net" [.addNode node0, .addComponent load0, .addComponent ⟨genModel, "D"⟩, .addComponent gen0,
      .connect ⟨node0, "balance"⟩ ⟨gen0, "balance"⟩, .connect ⟨gen0, "balance"⟩ ⟨gen0, "balance"⟩]).getComponent "D" =
        .ok ⟨genModel, "D"⟩ ∧
    (afterHistory "net" [.addNode node0, .addComponent load0, .addComponent ⟨genModel, "D"⟩, .addComponent gen0,
      .connect ⟨node0, "balance"⟩ ⟨gen0, "balance"⟩, .connect ⟨gen0, "balance"⟩ ⟨gen0, "balance"⟩]).connections = [cnx1] :=
  ⟨rfl, rfl⟩

end Props
end Verif
