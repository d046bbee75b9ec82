import Verif.Model.Tree
import Verif.Spec.Model
import Verif.Spec.Lin

/-!
# Decision trees: what probabilities and coupling constraints mean
-/

namespace Verif

/-! ## Probabilities -/

namespace DTree

mutual
/-- sum of the probabilities of the leaves -/
def leafSum : DTree → ℚ
  | node _ _ _ p [] => p.toQ
  | node _ _ _ _ (c :: cs) => c.leafSum + leafSumList cs
def leafSumList : List DTree → ℚ
  | [] => 0
  | t :: ts => t.leafSum + leafSumList ts
end

mutual
/-- number of edges of the longest branch -/
def height : DTree → Nat
  | node _ _ _ _ [] => 0
  | node _ _ _ _ (c :: cs) => max c.height (heightList cs) + 1
def heightList : List DTree → Nat
  | [] => 0
  | t :: ts => max t.height (heightList ts)
end

mutual
/-- all the nodes (as subtrees), a parent before its descendants, the first branch first -/
def nodes : DTree → List DTree
  | node i c n p cs => node i c n p cs :: nodesList cs
def nodesList : List DTree → List DTree
  | [] => []
  | t :: ts => t.nodes ++ nodesList ts
end

end DTree

/-- Successive calls of the constructor; the results are in the order of the calls. -/
def TreeHeap.createAll (h : TreeHeap) : List TreeHeap.NodeArgs → TreeHeap × List (R Nat)
  | [] => (h, [])
  | a :: as => (((h.create a).1.createAll as).1, (h.create a).2 :: ((h.create a).1.createAll as).2)

/-- A history in which nodes are created from the root down: the parent of a node has been created by a previous call
(the nodes are numbered in the order of the calls), no children are given, probabilities are numbers. -/
structure TopDown (hist : List TreeHeap.NodeArgs) : Prop where
  children : ∀ (r : Nat) (a : TreeHeap.NodeArgs), hist[r]? = some a → a.children = []
  parent : ∀ (r : Nat) (a : TreeHeap.NodeArgs) (p : Nat), hist[r]? = some a → a.parent = some p → p < r
  finite : ∀ (r : Nat) (a : TreeHeap.NodeArgs), hist[r]? = some a → ∃ q, a.prob = .fin q

/-- `ProbAt hist r q`: the probabilities given for node `r` and for its ancestors are all between 0 and 1, and their
product is `q`. -/
inductive ProbAt (hist : List TreeHeap.NodeArgs) : Nat → ℚ → Prop where
  | root (r : Nat) (a : TreeHeap.NodeArgs) (q : ℚ) (h : hist[r]? = some a) (hp : a.parent = none) (hq : a.prob = .fin q)
      (h0 : 0 ≤ q) (h1 : q ≤ 1) : ProbAt hist r q
  | child (r : Nat) (a : TreeHeap.NodeArgs) (p : Nat) (c q : ℚ) (h : hist[r]? = some a) (hp : a.parent = some p)
      (hc : a.prob = .fin c) (h0 : 0 ≤ c) (h1 : c ≤ 1) (hq : ProbAt hist p q) : ProbAt hist r (c * q)

/-- the calls that give `r` as parent, in order -/
def childCalls (hist : List TreeHeap.NodeArgs) (r : Nat) : List Nat :=
  (List.range hist.length).filter fun i => decide ((hist[i]?.bind (·.parent)) = some r)

/-! ## Links between nodes -/

/-- A history in which a call only gives nodes made by previous calls, as parent or as children. -/
structure KnownNodes (hist : List TreeHeap.NodeArgs) : Prop where
  parent : ∀ (r : Nat) (a : TreeHeap.NodeArgs) (p : Nat), hist[r]? = some a → a.parent = some p → p < r
  children : ∀ (r : Nat) (a : TreeHeap.NodeArgs) (c : Nat), hist[r]? = some a → c ∈ a.children → c < r

/-- The two directions of the links agree: a node is a child of exactly the node that is its parent, and it appears there
once. -/
structure LinksAgree (h : TreeHeap) : Prop where
  parent : ∀ (c p : Nat) (n : TNode), h.nodes[c]? = some n → n.parent = some p →
    ∃ m, h.nodes[p]? = some m ∧ c ∈ m.children
  child : ∀ (c p : Nat) (m : TNode), h.nodes[p]? = some m → c ∈ m.children →
    ∃ n, h.nodes[c]? = some n ∧ n.parent = some p
  once : ∀ (p : Nat) (m : TNode), h.nodes[p]? = some m → m.children.Nodup

/-- `Above h a r`: the node `a` is the parent of `r`, or the parent of its parent, and so on. -/
inductive Above (h : TreeHeap) (a : Nat) : Nat → Prop where
  | parent (r : Nat) (n : TNode) (hn : h.nodes[r]? = some n) (hp : n.parent = some a) : Above h a r
  | step (r p : Nat) (n : TNode) (hn : h.nodes[r]? = some n) (hp : n.parent = some p) (ha : Above h a p) : Above h a r

/-! ## Coupling -/

/-- Successive declarations of coupling constraints, with the node each one is made on.  A refused declaration leaves
the objects as they are: all the checks come before the first update (decision_tree.py 113-134 and 136-158). -/
def TreeHeap.declareAll (h : TreeHeap) : List (Nat × TreeHeap.CouplingArgs) → TreeHeap
  | [] => h
  | (r, a) :: ds =>
    match h.declare r a with
    | .ok h' => h'.declareAll ds
    | .error _ => h.declareAll ds

/-- name of a variable of a component in the problem of a tree node -/
def treeVariable (node : String) (c : String) (v : String) : String := node ++ "_" ++ c ++ "_" ++ v

/-- What a declaration made on node `n` (with parent `parent`) says of the values of the variables:
`cumulative of the parent = cumulative of the child - increment`, the first one being 0 at the root. -/
def CouplingHolds (parent : Option TNode) (n : TNode) (a : TreeHeap.CouplingArgs) (val : String → ℚ) : Prop :=
  (match parent with
    | some p => val (treeVariable p.id a.componentPar.id a.cumulativePar)
    | none => 0) =
  val (treeVariable n.id a.componentChd.id a.cumulativeChd) - val (treeVariable n.id a.componentChd.id a.incrementalChd)

end Verif
