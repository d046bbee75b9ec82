import Verif.Model.Tree

/-!
# Merging of master problems, Benders decomposition

Models `fusion_problems` (`simulation/optimization.py` 791-850) and the parts of `simulation/benders_decomposed.py` that
build the problems and the structure file.
-/

namespace Verif

/-- `OptimizationProblem`: its name and the mutable part (optimization.py 567-570). -/
structure Problem where
  name : String
  state : OptState
  deriving DecidableEq, Repr

/-! ## `fusion_problems` -/

/-- The root problem while masters are merged into it.  `newRows` is `root_constraints`: it maps the name of each
constraint added to the root to this constraint; constraints are added to the solver when they enter this dict, so the
rows of the solver are those of the coupler followed by the values of the dict. -/
structure Fusion where
  root : OptState
  newRows : Dict String Row := []

/-- `root_vars`: the columns of the coupler by name (optimization.py 807-808); a later column replaces an earlier one of
the same name. -/
def rootVars (coupler : OptState) : Dict String Nat := Dict.ofItems ((coupler.solver.vars.zipIdx).map fun vi => (vi.1.name, vi.2))

/-- body of the loop on the constraints of a master, for its column `i` merged into column `col` of the root:
optimization.py 834-844 -/
def fuseRow (master : String) (i col : Nat) (rows : Dict String Row) (r : Row) : Dict String Row :=
  let coeff := coefOf r.coefs i
  if coeff.eqb 0 then rows
  else
    let key := master ++ "_" ++ r.name
    let row := (rows.get? key).getD ⟨key, [], r.lb, r.ub⟩
    rows.set key { row with coefs := row.coefs.set col coeff }

/-- the column of the root for a variable of a master, with its update: optimization.py 815-832.  `NumVar` creates a real
variable. -/
def fuseColumn (vars : Dict String Nat) (master : OptState) (root : OptState) (v : SolverVar) : R (OptState × Nat) := do
  let info ← master.infos.get v.name
  match vars.get? v.name with
  | none =>
    .ok ({ root with
      solver := { root.solver with vars := root.solver.vars ++ [⟨v.name, v.lb, v.ub, false⟩] }
      infos := root.infos.set v.name ⟨v.name, root.infos.length, info.isInObjective⟩ }, root.solver.vars.length)
  | some col => do
    let old ← root.infos.get v.name
    match root.solver.vars[col]? with
    | none => .error .indexError
    | some w =>
      .ok ({ root with
        solver := { root.solver with vars := root.solver.vars.set col { w with lb := v.lb, ub := v.ub } }
        infos := root.infos.set v.name { old with isInObjective := info.isInObjective } }, col)

/-- `if obj_coeff != 0: root_objective.SetCoefficient(root_var, obj_coeff)`: optimization.py 846-848 -/
def fuseObjective (master : Solver) (i col : Nat) (objective : Dict Nat Num) : Dict Nat Num :=
  let c := coefOf master.objective i
  if c.eqb 0 then objective else objective.set col c

/-- body of the loop on the variables of a master: optimization.py 814-848 -/
def fuseVariable (vars : Dict String Nat) (master : Problem) (f : Fusion) (vi : SolverVar × Nat) : R Fusion := do
  let rc ← fuseColumn vars master.state f.root vi.1
  let rows := master.state.solver.rows.foldl (fuseRow master.name vi.2 rc.2) f.newRows
  .ok { root := { rc.1 with solver := { rc.1.solver with
          objective := fuseObjective master.state.solver vi.2 rc.2 rc.1.solver.objective } }
        newRows := rows }

/-- body of the loop on the masters: optimization.py 810-848 -/
def fuseMaster (vars : Dict String Nat) (f : Fusion) (master : Problem) : R Fusion :=
  loop (fuseVariable vars master) master.state.solver.vars.zipIdx f

/-- `fusion_problems`: optimization.py 791-850. -/
def fusionProblems (masters : List Problem) (coupler : Problem) : R Problem :=
  match masters with
  | [m] => .ok m
  | _ => do
    let f ← loop (fuseMaster (rootVars coupler.state)) masters { root := coupler.state }
    .ok ⟨"master", { f.root with solver := { f.root.solver with rows := f.root.solver.rows ++ f.newRows.values } }⟩

/-! ## The structure file -/

/-- `f"{s:>n}"` -/
def padLeft (n : Nat) (s : String) : String := String.ofList (List.replicate (n - s.length) ' ') ++ s

/-- `problem_to_candidates`: benders_decomposed.py 87-105.  The name of each variable and its column. -/
def problemToCandidates (master : OptState) (subproblems : List Problem) : Dict String (Dict String Nat) :=
  let ofMaster := Dict.ofItems (master.infos.values.map fun i => (i.name, i.columnId))
  let candidates := ofMaster.keys
  subproblems.foldl (fun d p => d.set p.name
    (Dict.ofItems ((p.state.infos.values.filter fun i => candidates.contains i.name).map fun i => (i.name, i.columnId))))
    [("master", ofMaster)]

/-- a line of the structure file: benders_decomposed.py 110 -/
def structureLine (problem candidate : String) (index : Nat) : String :=
  padLeft 50 problem ++ padLeft 50 candidate ++ padLeft 10 (toString index) ++ "\n"

/-- the lines of the structure file: benders_decomposed.py 107-110 -/
def structureLines (d : Dict String (Dict String Nat)) : List (String × String × Nat) :=
  d.flatMap fun pc => pc.2.map fun ci => (pc.1, ci.1, ci.2)

/-- `export_structure`: benders_decomposed.py 77-112. -/
def exportStructure (master : OptState) (subproblems : List Problem) : R String :=
  if subproblems.isEmpty then .error (.runtimeError "Subproblem list must have at least one sub problem")
  else .ok (String.join ((structureLines (problemToCandidates master subproblems)).map fun l => structureLine l.1 l.2.1 l.2.2))

/-! ## `build_benders_decomposed_problem` -/

/-- `BendersDecomposedProblem`: the problems (benders_decomposed.py 49-50) -/
structure Benders where
  master : Problem
  subproblems : List Problem

/-- the arguments of `build_problem` for the coupler: benders_decomposed.py 246-256 -/
def couplerCtx (network : Network) (database : DataBase) : OptCtx :=
  { network := network, database := database, timesteps := [0], scenarios := 0, strategy := investmentStrategy,
    risk := expectedValue 0, fullVarName := false }

/-- the arguments of `build_problem` for the master of a tree node: benders_decomposed.py 264-276 -/
def masterCtx (database : DataBase) (t : DTree) : OptCtx :=
  { network := t.network, database := database, timesteps := [0], scenarios := 0, strategy := investmentStrategy,
    risk := expectedValue t.prob, treeNode := t.id }

/-- the arguments of `build_problem` for a block of a tree node: benders_decomposed.py 281-293 -/
def subproblemCtx (database : DataBase) (t : DTree) (b : TimeBlock) : OptCtx :=
  { network := t.network, database := database, timesteps := b.timesteps, scenarios := t.config.scenarios,
    strategy := operationalStrategy, risk := expectedValue t.prob, treeNode := t.id }

/-- `suffix_tree`: benders_decomposed.py 262 -/
def suffixTree (size : Nat) (t : DTree) : String := if size > 1 then "_" ++ t.id else ""

/-- `suffix_block`: benders_decomposed.py 279 -/
def suffixBlock (t : DTree) (b : TimeBlock) : String := if t.config.blocks.length > 1 then "_b" ++ toString b.id else ""

/-- one subproblem: benders_decomposed.py 278-293 -/
def buildSubproblem (database : DataBase) (size : Nat) (t : DTree) (b : TimeBlock) : R Problem := do
  let st ← (subproblemCtx database t b).buildProblem
  .ok ⟨"subproblem" ++ suffixTree size t ++ suffixBlock t b, st⟩

/-- body of the loop on the tree nodes: benders_decomposed.py 261-293 -/
def buildNode (database : DataBase) (size : Nat) (t : DTree) : R (Problem × List Problem) := do
  let st ← (masterCtx database t).buildProblem
  let subs ← appendAll (buildSubproblem database size t) t.config.blocks
  .ok (⟨"master" ++ suffixTree size t, st⟩, subs)

/-- `build_benders_decomposed_problem`: benders_decomposed.py 218-299.  `border_management` is accepted but not used (all
the problems get the default, the cycle).  `network` is the coupling network of the root before the call, `info` its
coupling information, `order` the order in which the set of coupling variables is iterated. -/
def buildBenders (order : List String → List String) (info : CouplingInfo) (network : Network) (database : DataBase)
    (root : DTree) : R Benders :=
  if !root.isLeavesProbSumOne then .error (.valueError "Decision tree leaves' probability must sum one!")
  else do
    let cn ← addCouplingConstraints order info network
    let coupler ← (couplerCtx cn database).buildProblem
    let built ← appendAll (buildNode database root.size) root.traverse
    let master ← fusionProblems (built.map Prod.fst) ⟨"coupler", coupler⟩
    .ok ⟨master, built.flatMap Prod.snd⟩

end Verif
