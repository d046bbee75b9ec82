import Verif.Spec.Benders
import Verif.Spec.Tree
import Verif.Spec.Names

/-!
# What a study on a decision tree means, and what its decomposition means

The first part says, on the tree alone, which costs can be obtained: investments are decided at each node of the tree,
operations for each block of each node, and the cost is the sum over the nodes of their probability times the cost of
their investments and operations.  The second part says which costs the decomposition into a master problem and
subproblems can obtain, when these exchange the values of the variables that have the same name.
-/

namespace Verif

/-! ## The tree -/

namespace Expr

/-- a number, a variable, a parameter or an arithmetic operation -/
def isPlain : Expr → Bool
  | lit _ => true
  | var _ => true
  | par _ => true
  | neg _ => true
  | add _ => true
  | mul .. => true
  | div .. => true
  | _ => false

end Expr

/-- a variable whose value is decided with the investments -/
def Variable.IsDecision (v : Variable) : Prop := v.context ≠ .operational

/-- Arithmetic over numbers and over decision variables and parameters of the component that depend neither on time nor on
the scenario. -/
structure Component.Static (c : Component) (e : Expr) : Prop where
  plain : ∀ y ∈ e.subs, y.isPlain = true
  vars : ∀ n, Expr.var n ∈ e.subs → ∃ v, c.model.variables_.get? n = some v ∧ v.structure_ = ⟨false, false⟩ ∧ v.IsDecision
  pars : ∀ n, Expr.par n ∈ e.subs → ∃ p, c.model.parameters.get? n = some p ∧ p.structure_ = ⟨false, false⟩

/-- What is decided with the investments depends neither on time nor on the scenario: the variables that are not
operational and their bounds, the constraints that are not operational, the cost of the investments. -/
structure Network.Strategic (n : Network) : Prop where
  structure_ : ∀ c ∈ n.allComponents, ∀ v ∈ c.model.variables_.values, v.IsDecision → v.structure_ = ⟨false, false⟩
  bounds : ∀ c ∈ n.allComponents, ∀ v ∈ c.model.variables_.values, v.IsDecision → ∀ b,
    v.lowerBound = some b ∨ v.upperBound = some b → c.Static b
  constraints : ∀ c ∈ n.allComponents, ∀ k ∈ c.model.allConstraints, k.context ≠ .operational →
    c.Static k.expression ∧ c.Static k.lowerBound ∧ c.Static k.upperBound
  objective : ∀ c ∈ n.allComponents, ∀ e, c.model.objectiveInvestment = some e → c.Static e

/-- the study of a node of the tree over one of its blocks, in one piece: all variables, constraints and costs -/
def DTree.study (database : DataBase) (t : DTree) (b : TimeBlock) : OptCtx :=
  { network := t.network, database := database, timesteps := b.timesteps, scenarios := t.config.scenarios, treeNode := t.id }

/-- value of an optional cost of a component -/
def OptCtx.costIn (x : OptCtx) (σ : TermKey → ℚ) (c : Component) : Option Expr → ℚ
  | some e => mden (x.readIn σ c) e 0 0
  | none => 0

/-- cost of the investments of all components -/
def OptCtx.investmentCost (x : OptCtx) (σ : TermKey → ℚ) : ℚ :=
  (x.network.allComponents.map fun c => x.costIn σ c c.model.objectiveInvestment).sum

/-- cost of the operations of all components -/
def OptCtx.operationalCost (x : OptCtx) (σ : TermKey → ℚ) : ℚ :=
  (x.network.allComponents.map fun c => x.costIn σ c c.model.objectiveOperational).sum

/-- investments: the value of each decision variable, for a node of the tree, a component and a variable -/
abbrev Investments := String → String → String → ℚ

/-- the values of a study at node `t` take the investments as they are -/
def Follows (inv : Investments) (t : DTree) (σ : TermKey → ℚ) : Prop :=
  ∀ c ∈ t.network.allComponents, ∀ v ∈ c.model.variables_.values, v.IsDecision →
    σ ⟨c.id, v.name, none, none⟩ = inv t.id c.id v.name

/-- With these investments, the contribution of node `t` to the expected cost can be `q`: in each block there are
operations such that the study is satisfied; the cost of the investments, which is the same in all blocks, is paid once,
that of operations in each block, and all this is weighted by the probability of the node. -/
def DTree.NodeCost (database : DataBase) (inv : Investments) (t : DTree) (q : ℚ) : Prop :=
  ∃ (invested : ℚ) (σs : List (TermKey → ℚ)),
    List.Forall₂ (fun b σ => Follows inv t σ ∧ (t.study database b).MathFeasible σ ∧
      (t.study database b).investmentCost σ = invested) t.config.blocks σs ∧
    q = t.prob.toQ * (invested + (List.zipWith (fun b σ => (t.study database b).operationalCost σ) t.config.blocks σs).sum)

/-- The expected cost `q` can be obtained: some investments satisfy the coupling between nodes, and the contributions of
all nodes of the tree add up to `q`. -/
def DTree.Attains (database : DataBase) (coupled : Investments → Prop) (root : DTree) (q : ℚ) : Prop :=
  ∃ (inv : Investments) (costs : List ℚ), coupled inv ∧ List.Forall₂ (fun t cost => t.NodeCost database inv cost) root.nodes costs ∧
    q = costs.sum

/-- What a declaration made on node `n` (with parent `parent`) says of the investments: as `CouplingHolds`. -/
def InvestmentsCoupled (parent : Option TNode) (n : TNode) (a : TreeHeap.CouplingArgs) (inv : Investments) : Prop :=
  (match parent with
    | some p => inv p.id a.componentPar.id a.cumulativePar
    | none => 0) =
  inv n.id a.componentChd.id a.cumulativeChd - inv n.id a.componentChd.id a.incrementalChd

/-! ## Well-formed trees -/

/-- What is assumed of the study of a node over a block, as in C35; the costs are weighted by the probability of the
node. -/
structure StudyOk (database : DataBase) (t : DTree) (b : TimeBlock) : Prop where
  network : (t.study database b).NetworkOk
  data : (t.study database b).DataOk
  vars : (t.study database b).VarsOk
  constraints : (t.study database b).ConstraintsOk
  objectives : ({ t.study database b with risk := expectedValue t.prob } : OptCtx).ObjectivesOk

/-- Names that cannot be confused: tree nodes have different identifiers; those of nodes and components are not empty and
have no underscore; variables are not named like an instance; the constraints on investments of a component have different
names. -/
structure DTree.NamesOk (root : DTree) : Prop where
  distinct : (root.nodes.map DTree.id).Nodup
  node : ∀ t ∈ root.nodes, t.id ≠ "" ∧ '_' ∉ t.id.toList
  component : ∀ t ∈ root.nodes, ∀ c ∈ t.network.allComponents, c.id ≠ "" ∧ '_' ∉ c.id.toList
  variable_ : ∀ t ∈ root.nodes, ∀ c ∈ t.network.allComponents, ∀ v ∈ c.model.variables_.values, ¬ Props.EndsWithIndex v.name
  constraint : ∀ t ∈ root.nodes, ∀ c ∈ t.network.allComponents,
    ((c.model.allConstraints.filter fun k => k.context ≠ .operational).map (·.name)).Nodup

/-- A tree whose studies are well-formed, and each of whose nodes has a block; the data read outside of the tree are
numbers. -/
structure DTree.Ok (database : DataBase) (root : DTree) : Prop where
  names : root.NamesOk
  blocks : ∀ t ∈ root.nodes, t.config.blocks ≠ []
  strategic : ∀ t ∈ root.nodes, t.network.Strategic
  study : ∀ t ∈ root.nodes, ∀ b ∈ t.config.blocks, StudyOk database t b
  finite : ∀ c n d, database.get? (c, n) = some d → ∀ t s v, d.getValue t s "" = .ok v → v.isFin = true

/-- What the merge of the master problems requires (see C39): the decision variables are continuous, the investment costs
have no constant, and the constraints on the investments of each node can be satisfied. -/
structure DTree.MergeOk (database : DataBase) (root : DTree) : Prop where
  continuous : ∀ t ∈ root.nodes, ∀ c ∈ t.network.allComponents, ∀ v ∈ c.model.variables_.values, v.IsDecision →
    v.dataType = .continuous
  noConstant : ∀ t ∈ root.nodes, ∀ b ∈ t.config.blocks, (t.study database b).investmentCost (fun _ => 0) = 0
  satisfiable : ∀ t ∈ root.nodes, ∀ b ∈ t.config.blocks, ∃ σ, ∀ c ∈ t.network.allComponents, ∀ k ∈ c.model.allConstraints,
    k.context ≠ .operational → k.Holds ((t.study database b).readIn σ c) 0 0

/-- the variable is decided with the investments of node `t` -/
def DTree.Decides (t : DTree) (c v : String) : Prop :=
  ∃ k ∈ t.network.allComponents, k.id = c ∧ ∃ w ∈ k.model.variables_.values, w.name = v ∧ w.IsDecision

/-- the variables of a declaration are decision variables of nodes of the tree -/
structure CoupledIn (root : DTree) (parent : Option TNode) (n : TNode) (a : TreeHeap.CouplingArgs) : Prop where
  parent : ∀ p, parent = some p → ∃ t ∈ root.nodes, t.id = p.id ∧ t.Decides a.componentPar.id a.cumulativePar
  child : ∃ t ∈ root.nodes, t.id = n.id ∧ t.Decides a.componentChd.id a.cumulativeChd ∧
    t.Decides a.componentChd.id a.incrementalChd

/-! ## The decomposition -/

/-- The decomposed problem can obtain the cost `q`: the master and each subproblem accept some values, the columns of a
subproblem have the value of the column of the master with the same name if there is one (as the structure file says,
see C40), and the costs add up to `q`. -/
def Benders.Attains (b : Benders) (q : ℚ) : Prop :=
  ∃ (val : String → ℚ) (vals : List (String → ℚ)), b.master.state.solver.Holds val ∧
    List.Forall₂ (fun p w => p.state.solver.Holds w ∧ ∀ name ∈ p.names, name ∈ b.master.names → w name = val name)
      b.subproblems vals ∧
    q = b.master.state.solver.costOf val +
      (List.zipWith (fun p w => p.state.solver.costOf w) b.subproblems vals).sum

end Verif
