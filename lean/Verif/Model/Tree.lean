import Verif.Model.Optim

/-!
# Decision trees

Models `simulation/decision_tree.py`, `simulation/time_block.py` and the part of `anytree.NodeMixin` it uses.

Nodes are mutable objects: a heap holds the nodes, the coupling networks and the coupling information; the object
number 0 of the last two kinds is the default argument of `DecisionTreeNode.__init__`, shared by all the calls.
The functions that only read a tree are defined on `DTree`, and `TreeAt` relates the two.
-/

namespace Verif

/-! ## Equality of models and components -/

/-- `==` of two optional expressions inside a dataclass comparison: two expressions give a `ComparisonNode`
(expression.py 89-90), which is true; comparing `None` with an expression raises `TypeError` (expression.py 127-132). -/
def objectiveEq : Option Expr → Option Expr → R Bool
  | none, none => .ok true
  | some _, some _ => .ok true
  | _, _ => .error (.typeError "Unable to wrap None into an expression node")

/-- `Variable.__eq__`: model/variable.py 45-54 (the context is not compared). -/
def Variable.eqb (a b : Variable) : R Bool := do
  if a.name ≠ b.name || a.dataType ≠ b.dataType then .ok false
  else do
    let l ← expressionsEqualIfPresent a.lowerBound b.lowerBound
    if !l then .ok false
    else do
      let u ← expressionsEqualIfPresent a.upperBound b.upperBound
      .ok (u && decide (a.structure_ = b.structure_))

/-- Python `==` on dicts, with the `==` of the values -/
def dictEqWith {κ α} [DecidableEq κ] (eq : α → α → R Bool) (a b : Dict κ α) : R Bool :=
  if a.length ≠ b.length then .ok false else go a
where
  go : List (κ × α) → R Bool
    | [] => .ok true
    | (k, v) :: rest =>
      match Dict.get? b k with
      | none => .ok false
      | some w => do
        let e ← eq v w
        if e then go rest else .ok false

/-- `Model.__eq__`, generated by the dataclass: model/model.py 91-109, the fields in order.  The definition of a port
field is an expression, so two definitions of the same field are always equal.  (Simplification: two fields that are the
same object are equal for Python without being compared; here they are compared.) -/
def Model.eqb (a b : Model) : R Bool := do
  if a.id ≠ b.id then .ok false else do
  let c ← dictEqWith (fun x y => .ok (Constraint.eqb x y)) a.constraints b.constraints
  if !c then .ok false else do
  let c ← dictEqWith (fun x y => .ok (Constraint.eqb x y)) a.bindingConstraints b.bindingConstraints
  if !c then .ok false else do
  if a.interBlockDyn ≠ b.interBlockDyn then .ok false else do
  let c ← dictEqWith (fun x y => .ok (decide (x = y))) a.parameters b.parameters
  if !c then .ok false else do
  let c ← dictEqWith Variable.eqb a.variables_ b.variables_
  if !c then .ok false else do
  let c ← objectiveEq a.objectiveOperational b.objectiveOperational
  if !c then .ok false else do
  let c ← objectiveEq a.objectiveInvestment b.objectiveInvestment
  if !c then .ok false else do
  let c ← dictEqWith (fun x y => .ok (decide (x = y))) a.ports b.ports
  if !c then .ok false else do
  dictEqWith (fun x y => .ok (decide (x.portField = y.portField))) a.portFieldsDefinitions b.portFieldsDefinitions

/-- `Component.__eq__`, generated by the dataclass: study/network.py 27-34. -/
def Component.eqb (a b : Component) : R Bool := do
  let m ← a.model.eqb b.model
  .ok (m && a.id == b.id)

/-- `c in l`, element by element -/
def componentIn (c : Component) : List Component → R Bool
  | [] => .ok false
  | d :: ds => do
    let e ← d.eqb c
    if e then .ok true else componentIn c ds

/-- `is_variable_in_model`: study/network.py 36-37. -/
def Component.isVariableInModel (c : Component) (v : String) : Bool := c.model.variables_.contains v

/-! ## Objects -/

/-- `TimeBlock`: time_block.py 31-40. -/
structure TimeBlock where
  id : Int
  timesteps : List Int
  deriving DecidableEq, Repr

/-- `InterDecisionTimeScenarioConfig`: decision_tree.py 29-32. -/
structure TreeConfig where
  blocks : List TimeBlock
  scenarios : Nat
  deriving DecidableEq, Repr

/-- `CouplingInfo`: decision_tree.py 35-38; the set is a list of its elements. -/
structure CouplingInfo where
  variables_ : List String := []
  constraints : Dict String Expr := []

/-- `DecisionTreeNode`: decision_tree.py 41-48; the references to other objects are their numbers.  `prob` is absent
as long as the constructor has not assigned it. -/
structure TNode where
  id : String
  config : TreeConfig
  network : Network
  prob : Option Num := none
  parent : Option Nat := none
  children : List Nat := []
  couplingNetwork : Nat := 0
  couplingInfo : Nat := 0

/-- all the objects -/
structure TreeHeap where
  nodes : List TNode := []
  networks : List Network := [{ id := "_Coupler" }]
  infos : List CouplingInfo := [{}]

namespace TreeHeap

def setNode (h : TreeHeap) (r : Nat) (n : TNode) : TreeHeap := { h with nodes := h.nodes.set r n }

/-- `child.parent = p` of a node that has no parent (anytree: the child is appended to the children of the parent) -/
def attach (h : TreeHeap) (child p : Nat) : TreeHeap :=
  match h.nodes[child]?, h.nodes[p]? with
  | some c, some q => (h.setNode child { c with parent := some p }).setNode p { q with children := q.children ++ [child] }
  | _, _ => h

/-- `child.parent = None` (anytree: the child is removed from the children of its parent) -/
def detach (h : TreeHeap) (child : Nat) : TreeHeap :=
  match h.nodes[child]? with
  | some c =>
    match c.parent with
    | some p =>
      match h.nodes[p]? with
      | some q => (h.setNode p { q with children := q.children.filter (· ≠ child) }).setNode child { c with parent := none }
      | none => h
    | none => h
  | none => h

/-- arguments of `DecisionTreeNode()`: decision_tree.py 50-60 -/
structure NodeArgs where
  id : String
  config : TreeConfig
  network : Network
  parent : Option Nat := none
  children : List Nat := []
  prob : Num := 1
  couplingNetwork : Nat := 0
  couplingInfo : Nat := 0

/-- `self.parent = parent`: decision_tree.py 66 -/
def withParent (h : TreeHeap) (r : Nat) : Option Nat → TreeHeap
  | none => h
  | some p => h.attach r p

/-- number of the parent of a node, if it has one -/
def up (h : TreeHeap) (r : Nat) : Option Nat := h.nodes[r]?.bind (·.parent)

/-- `iter_path_reverse` of anytree: the node, its parent, and so on.  (Simplification: the loop is cut after `k` nodes;
`path` gives more than there are nodes.) -/
def pathUp (h : TreeHeap) : Nat → Nat → List Nat
  | 0, _ => []
  | k + 1, r =>
    r :: match h.up r with
      | some p => h.pathUp k p
      | none => []

/-- the node and its ancestors -/
def path (h : TreeHeap) (r : Nat) : List Nat := h.pathUp (h.nodes.length + 1) r

/-- `for child in children: child.parent = self` (anytree): a node that is above its new parent is refused with
`LoopError`; otherwise it leaves its previous parent. -/
def adopt (h : TreeHeap) (r : Nat) : List Nat → TreeHeap × R Unit
  | [] => (h, .ok ())
  | c :: cs =>
    if c ∈ h.path r then (h, .error (.runtimeError "LoopError"))
    else ((h.detach c).attach c r).adopt r cs

/-- `del self.children` (anytree): every child becomes a root -/
def orphan (h : TreeHeap) (r : Nat) : TreeHeap :=
  match h.nodes[r]? with
  | some n => n.children.foldl detach h
  | none => h

/-- `self.children = children`: decision_tree.py 72-73.  anytree refuses a list with duplicates before any change; when
a child is refused, the previous children (none, for a new node) are put back and the exception goes on. -/
def withChildren (h : TreeHeap) (r : Nat) (children : List Nat) : TreeHeap × R Unit :=
  if ¬ children.Nodup then (h, .error (.runtimeError "TreeError"))
  else
    match h.adopt r children with
    | (h', .ok ()) => (h', .ok ())
    | (h', .error e) => (h'.orphan r, .error e)

/-- probability of the parent: `parent.prob if parent is not None else 1` (decision_tree.py 71) -/
def parentProb (h : TreeHeap) : Option Nat → R Num
  | none => .ok 1
  | some p =>
    match h.nodes[p]? with
    | some q =>
      match q.prob with
      | some v => .ok v
      | none => .error (.attributeError "prob")
    | none => .error (.attributeError "prob")

/-- the object with its first attributes: decision_tree.py 61-65 -/
def NodeArgs.fresh (a : NodeArgs) : TNode :=
  { id := a.id, config := a.config, network := a.network, couplingNetwork := a.couplingNetwork,
    couplingInfo := a.couplingInfo }

/-- the heap once the new object is attached to its parent: decision_tree.py 61-66 -/
def started (h : TreeHeap) (a : NodeArgs) : TreeHeap :=
  ({ h with nodes := h.nodes ++ [a.fresh] } : TreeHeap).withParent h.nodes.length a.parent

/-- `DecisionTreeNode.__init__`: decision_tree.py 50-73.  The node is attached to its parent before its probability is
checked, so the heap changes even when the exception is raised. -/
def create (h : TreeHeap) (a : NodeArgs) : TreeHeap × R Nat :=
  if a.prob.lt 0 || Num.lt 1 a.prob then
    (h.started a, .error (.valueError "Probability must be a value in the range [0, 1]"))
  else
    match (h.started a).parentProb a.parent with
    | .error e => (h.started a, .error e)
    | .ok p =>
      match ((h.started a).setNode h.nodes.length { a.fresh with parent := a.parent, prob := some (a.prob * p) }).withChildren
        h.nodes.length a.children with
      | (h', .ok ()) => (h', .ok h.nodes.length)
      | (h', .error e) => (h', .error e)

/-- arguments of `define_coupling_constraint`: decision_tree.py 97-104.  `Node` and `Component` are different classes,
whose instances are never equal: the flags say whether the given components are nodes. -/
structure CouplingArgs where
  componentPar : Component
  parIsNode : Bool := false
  cumulativePar : String
  componentChd : Component
  chdIsNode : Bool := false
  cumulativeChd : String
  incrementalChd : String

/-- `component in network.all_components`.  (Simplification: nodes are looked for among the nodes, the others among the
components.) -/
def inNetwork (c : Component) (isNode : Bool) (n : Network) : R Bool :=
  componentIn c (if isNode then n.nodes.values else n.components.values)

/-- `if self.parent and (component_par not in self.parent.network.all_components): raise`: decision_tree.py 113-116 -/
def checkParent (a : CouplingArgs) : Option TNode → R Unit
  | none => .ok ()
  | some p => do
    let i ← inNetwork a.componentPar a.parIsNode p.network
    if i then .ok () else .error (.runtimeError "Component not present in parent's network!")

/-- the checks of `define_coupling_constraint`: decision_tree.py 113-134 -/
def checkCoupling (parent : Option TNode) (self : TNode) (a : CouplingArgs) : R Unit := do
  checkParent a parent
  let i ← inNetwork a.componentChd a.chdIsNode self.network
  if !i then .error (.runtimeError "Component not present in network!")
  else if !a.componentPar.isVariableInModel a.cumulativePar then
    .error (.valueError "Cumulative variable not present in parent")
  else if !a.componentChd.isVariableInModel a.cumulativeChd then .error (.valueError "Cumulative variable not present")
  else if !a.componentChd.isVariableInModel a.incrementalChd then .error (.valueError "Incremental variable not present")
  else .ok ()

/-- add an element to a set -/
def setAdd (l : List String) (x : String) : List String := if l.contains x then l else l ++ [x]

/-- the updates of `define_coupling_constraint`: decision_tree.py 136-158 -/
def addCoupling (info : CouplingInfo) (parent : Option String) (selfId : String) (a : CouplingArgs) : CouplingInfo :=
  let prefixPar := match parent with
    | some p => p ++ "_" ++ a.componentPar.id
    | none => ""
  let cumulativePar := match parent with
    | some _ => prefixPar ++ "_" ++ a.cumulativePar
    | none => ""
  let vars := match parent with
    | some _ => setAdd info.variables_ cumulativePar
    | none => info.variables_
  let prefixChd := selfId ++ "_" ++ a.componentChd.id
  let cumulativeChd := prefixChd ++ "_" ++ a.cumulativeChd
  let incrementalChd := prefixChd ++ "_" ++ a.incrementalChd
  let rhs := if cumulativePar ≠ "" then Expr.var cumulativePar else Expr.lit 0
  { variables_ := setAdd (setAdd vars cumulativeChd) incrementalChd
    constraints := info.constraints.set
      (prefixPar ++ "_" ++ prefixChd ++ "_" ++ toString info.constraints.length)
      (Expr.eqOp ((Expr.var cumulativeChd).subOp (Expr.var incrementalChd)) rhs) }

/-- the parent of a node -/
def parentOf (h : TreeHeap) (n : TNode) : Option TNode := n.parent.bind fun p => h.nodes[p]?

/-- `define_coupling_constraint`: decision_tree.py 97-158. -/
def declare (h : TreeHeap) (self : Nat) (a : CouplingArgs) : R TreeHeap :=
  match h.nodes[self]? with
  | none => .error .indexError
  | some n =>
    match h.infos[n.couplingInfo]? with
    | none => .error .indexError
    | some info => do
      checkCoupling (h.parentOf n) n a
      .ok { h with infos := h.infos.set n.couplingInfo (addCoupling info ((h.parentOf n).map (·.id)) n.id a) }

end TreeHeap

/-! ## The coupling model -/

/-- the variable of the coupling model: decision_tree.py 178-184 -/
def couplingVariable (name : String) : R Variable :=
  floatVariable name (some (.lit 0)) none ⟨false, false⟩ .investment

/-- the constraint of the coupling model: decision_tree.py 188-192 -/
def couplingConstraint (kv : String × Expr) : R Constraint :=
  Constraint.make { name := kv.1, expression := kv.2, context := .investment }

/-- the model of the coupling component: decision_tree.py 160-201; `order` is the order in which the set of variables
is iterated. -/
def couplingModel (order : List String → List String) (info : CouplingInfo) : R Model := do
  let vs ← appendAll couplingVariable (order info.variables_)
  let cs ← appendAll couplingConstraint info.constraints
  mkModel { id := "", variables_ := vs, constraints := cs }

/-- `_add_coupling_constraints`: decision_tree.py 160-205, on the coupling network. -/
def addCouplingConstraints (order : List String → List String) (info : CouplingInfo) (n : Network) : R Network := do
  let m ← couplingModel order info
  .ok (n.addComponent ⟨m, "coupling"⟩)

/-! ## Trees -/

/-- A decision tree, as reached from its root. -/
inductive DTree where
  | node (id : String) (config : TreeConfig) (network : Network) (prob : Num) (children : List DTree)

namespace DTree

def id : DTree → String
  | node i _ _ _ _ => i
def config : DTree → TreeConfig
  | node _ c _ _ _ => c
def network : DTree → Network
  | node _ _ n _ _ => n
def prob : DTree → Num
  | node _ _ _ p _ => p
def children : DTree → List DTree
  | node _ _ _ _ cs => cs

theorem ind {P : DTree → Prop}
    (h : ∀ i c n p cs, (∀ t ∈ cs, P t) → P (.node i c n p cs)) : ∀ t, P t :=
  DTree.rec (motive_1 := P) (motive_2 := fun ts => ∀ t ∈ ts, P t)
    (fun i c n p cs hcs => h i c n p cs hcs)
    (by intro t ht; cases ht)
    (by
      intro t ts h hs x hx
      cases hx with
      | head => exact h
      | tail _ hx => exact hs x hx)

mutual
/-- `is_leaves_prob_sum_one`: decision_tree.py 80-93; `math.isclose` with its default tolerances. -/
def isLeavesProbSumOne : DTree → Bool
  | node _ _ _ p cs =>
    if cs.isEmpty then true
    else if !isclose 0 (1 / 10 ^ 9) p ((cs.map prob).foldl (· + ·) 0) then false
    else allLeavesProbSumOne cs
/-- the `all(...)` of decision_tree.py 93 -/
def allLeavesProbSumOne : List DTree → Bool
  | [] => true
  | t :: ts => t.isLeavesProbSumOne && allLeavesProbSumOne ts
end

mutual
/-- `size` of anytree: number of nodes -/
def size : DTree → Nat
  | node _ _ _ _ cs => sizeList cs + 1
def sizeList : List DTree → Nat
  | [] => 0
  | t :: ts => t.size + sizeList ts
end

theorem sizeList_append (a b : List DTree) : sizeList (a ++ b) = sizeList a + sizeList b := by
  induction a with
  | nil => simp [sizeList]
  | cons t a ih => simp [sizeList, ih]; omega

theorem sizeList_flatMap (ts : List DTree) : sizeList (ts.flatMap children) + ts.length = sizeList ts := by
  induction ts with
  | nil => rfl
  | cons t ts ih =>
    rcases t with ⟨i, c, n, p, cs⟩
    simp only [List.flatMap_cons, sizeList_append, children, List.length_cons, sizeList, size]
    omega

/-- the next level -/
def nextLevel (ts : List DTree) : List DTree := ts.flatMap children

/-- `LevelOrderIter._iter` of anytree: one level after the other, down to level `depth` when it is given -/
def levels (depth : Option Nat) (ts : List DTree) : List DTree :=
  if h : ts = [] then []
  else if depth = some 0 then []
  else ts ++ levels (depth.map (· - 1)) (nextLevel ts)
termination_by sizeList ts
decreasing_by
  have := sizeList_flatMap ts
  have : 0 < ts.length := List.length_pos_iff.2 h
  unfold nextLevel
  omega

/-- `traverse(depth)`: decision_tree.py 75-78. -/
def traverse (t : DTree) (depth : Option Nat := none) : List DTree := levels depth [t]

end DTree

/-- `TreeAt h r t`: the node number `r` of the heap is the root of the tree `t`. -/
inductive TreeAt (h : TreeHeap) : Nat → DTree → Prop where
  | node (r : Nat) (n : TNode) (p : Num) (cs : List DTree) (hn : h.nodes[r]? = some n) (hp : n.prob = some p)
      (hc : List.Forall₂ (TreeAt h) n.children cs) : TreeAt h r (.node n.id n.config n.network p cs)

end Verif
