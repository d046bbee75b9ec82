import Verif.Model.Library
import Mathlib.Logic.Relation

/-! # What resolved libraries should contain -/

namespace Verif

/-- the library declared under an id (the last one, if the id is used several times) -/
def declaredLib (input : List InputLibrary) (k : String) : Option InputLibrary := input.reverse.find? fun l => l.id = k

/-- library `k` directly depends on library `d` -/
def DependsOn (input : List InputLibrary) (k d : String) : Prop := ∃ l, declaredLib input k = some l ∧ d ∈ l.dependencies

/-- no library depends on itself, directly or not -/
def Acyclic (input : List InputLibrary) : Prop := ∀ k, ¬ Relation.TransGen (DependsOn input) k k

/-- all the dependencies of the libraries are among them -/
def Closed (input : List InputLibrary) : Prop := ∀ k d, DependsOn input k d → ∃ l, declaredLib input d = some l

/-- the port type a library itself defines under an id -/
def ownPortType (l : InputLibrary) (id : String) : Option PortType :=
  (l.portTypes.reverse.find? fun p => p.id = id).map fun p => ⟨p.id, p.fields⟩

/-- port type `pt` is visible as `id` in library `k`: it comes from the preloaded libraries, from the library itself or
from one of its direct or transitive dependencies -/
inductive Visible (input : List InputLibrary) (preloaded : Dict String PortType) : String → String → PortType → Prop
  | preloaded {k id pt} : preloaded.get? id = some pt → Visible input preloaded k id pt
  | own {k l id pt} : declaredLib input k = some l → ownPortType l id = some pt → Visible input preloaded k id pt
  | dependency {k d id pt} : DependsOn input k d → Visible input preloaded d id pt → Visible input preloaded k id pt

/-- port type `pt` is visible as `id` in library `k` without being defined by it -/
def Inherited (input : List InputLibrary) (preloaded : Dict String PortType) (k id : String) (pt : PortType) : Prop :=
  preloaded.get? id = some pt ∨ ∃ d, DependsOn input k d ∧ Visible input preloaded d id pt

/-- an id never designates two different port types in a library -/
def NoConflict (input : List InputLibrary) (preloaded : Dict String PortType) : Prop :=
  ∀ k id pt pt', Visible input preloaded k id pt → Visible input preloaded k id pt' → pt = pt'

/-- two libraries with the same content: same id, models and port types -/
def Library.Same (l l' : Library) : Prop :=
  l.id = l'.id ∧ l.models = l'.models ∧ ∀ id, Dict.get? l.portTypes id = Dict.get? l'.portTypes id

/-- library `r` is library `k`, declared as `l`: it exposes exactly the port types visible in it and its models are those
declared, in order, resolved with these port types -/
structure IsResolved (parser : Parser) (input : List InputLibrary) (preloaded : Dict String PortType) (k : String)
    (l : InputLibrary) (r : Library) : Prop where
  id : r.id = k
  types : ∀ id pt, r.portTypes.get? id = some pt → Visible input preloaded k id pt
  all_types : ∀ id pt, Visible input preloaded k id pt → ∃ pt', r.portTypes.get? id = some pt'
  models : List.Forall₂ (fun im nm => nm.1 = im.id ∧ nm.2.id = im.id ∧ resolveModel parser r.portTypes im = .ok nm.2)
    l.models r.models

/-- the conditions on a library taken alone: it does not redefine a port type it inherits, its models have distinct ids
and each of them is accepted, given port types with the visible content -/
def WellFormed (parser : Parser) (input : List InputLibrary) (preloaded : Dict String PortType) (k : String)
    (l : InputLibrary) : Prop :=
  (∀ id pt pt', Inherited input preloaded k id pt → ownPortType l id ≠ some pt') ∧
  (l.models.map (·.id)).Nodup ∧
  ∀ types : Dict String PortType, (∀ id pt, types.get? id = some pt ↔ Visible input preloaded k id pt) →
    ∀ im ∈ l.models, ∃ m, resolveModel parser types im = .ok m

/-- expression read from an optional text: none if the text is absent or empty -/
def ParsedAs (parse : String → R Expr) (s : Option String) (e : Option Expr) : Prop :=
  ((s = none ∨ s = some "") ∧ e = none) ∨ ∃ t x, s = some t ∧ t ≠ "" ∧ parse t = .ok x ∧ e = some x

/-- the variable `v` stored under `n` is the one declared by `iv` -/
structure IsVariable (parse : String → R Expr) (iv : InputVariable) (n : String) (v : Variable) : Prop where
  key : n = iv.id
  name : v.name = iv.id
  structure_ : v.structure_ = ⟨iv.timeDependent, iv.scenarioDependent⟩
  type : (iv.variableType = "continuous" ∧ v.dataType = .continuous) ∨ (iv.variableType = "integer" ∧ v.dataType = .integer)
  context : v.context = .operational
  lower : ParsedAs parse iv.lowerBound v.lowerBound
  upper : ParsedAs parse iv.upperBound v.upperBound

/-- the constraint `c` stored under `n` is the one obtained from the declaration `ic` (see C17 for the meaning of
`Constraint.make`) -/
def IsConstraint (parse : String → R Expr) (ic : InputConstraint) (n : String) (c : Constraint) : Prop :=
  n = ic.id ∧ ∃ e lb ub, parse ic.expression = .ok e ∧ ParsedAs parse ic.lowerBound lb ∧ ParsedAs parse ic.upperBound ub ∧
    Constraint.make ⟨ic.id, e, lb.getD (.lit .ninf), ub.getD (.lit .pinf), .operational⟩ = .ok c

end Verif
