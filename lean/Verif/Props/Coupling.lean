import Verif.Spec.Tree
import Verif.Props.Models
import Verif.Props.Names

/-! Property C38: coupling constraints of decision trees. -/

namespace Verif.Props
open Verif Verif.OptCtx

/-! ## Names -/

/-- the i-th key of the constraints ends with `_i` -/
def IndexedKeys (info : CouplingInfo) : Prop :=
  ∀ (i : Nat) (kv : String × Expr), info.constraints[i]? = some kv → ∃ p : String, kv.1 = p ++ "_" ++ toString i

theorem underscore_index_inj {p q : String} {i j : Nat} (h : p ++ "_" ++ toString i = q ++ "_" ++ toString j) : i = j := by
  have hl := congrArg String.toList h
  have e : ∀ n : Nat, (toString n).toList = Nat.toDigits 10 n := fun n => by
    show n.repr.toList = _
    rw [Nat.toList_repr]
  simp only [String.toList_append, e, List.append_assoc] at hl
  have hr := congrArg List.reverse hl
  simp only [List.reverse_append] at hr
  have hd : ∀ n : Nat, ∀ d ∈ (Nat.toDigits 10 n).reverse, d.isDigit = true := fun n d hd =>
    Nat.isDigit_of_mem_toDigits (by decide) (by decide) (List.mem_reverse.1 hd)
  have hu : ("_" : String).toList.reverse = ['_'] := rfl
  rw [hu] at hr
  simp only [List.append_assoc, List.cons_append, List.nil_append] at hr
  obtain ⟨h1, -, -⟩ := digits_split (hd i) (hd j) (by decide) (by decide) hr
  have h2 : Nat.toDigits 10 i = Nat.toDigits 10 j := List.reverse_injective h1
  have h3 : (i : Int).repr = (j : Int).repr := by
    show i.repr = j.repr
    apply String.toList_inj.1
    rw [Nat.toList_repr, Nat.toList_repr, h2]
  exact_mod_cast Int.repr_injective h3

theorem indexedKeys_nodup {info : CouplingInfo} (h : IndexedKeys info) : info.constraints.keys.Nodup := by
  unfold Dict.keys
  rw [List.nodup_iff_injective_get]
  intro a b hab
  have get : ∀ a : Fin (info.constraints.map Prod.fst).length, ∃ p : String,
      (info.constraints.map Prod.fst).get a = p ++ "_" ++ toString a.1 := by
    intro a
    have ha : a.1 < info.constraints.length := by simpa using a.2
    obtain ⟨p, hp⟩ := h a.1 _ (List.getElem?_eq_getElem ha)
    exact ⟨p, by simpa using hp⟩
  obtain ⟨p, hp⟩ := get a
  obtain ⟨q, hq⟩ := get b
  rw [hp, hq] at hab
  exact Fin.ext (underscore_index_inj hab)

/-! ## One declaration -/

/-- the constraint a declaration on a node adds: `cumulative of the child - increment = cumulative of the parent (or 0)` -/
def declExpr (parent : Option TNode) (n : TNode) (a : TreeHeap.CouplingArgs) : Expr :=
  .cmp ((Expr.var (treeVariable n.id a.componentChd.id a.cumulativeChd)).subOp
      (.var (treeVariable n.id a.componentChd.id a.incrementalChd)))
    (match parent with
      | some p => .var (treeVariable p.id a.componentPar.id a.cumulativePar)
      | none => .lit 0) .eq

/-- the variables it mentions -/
def declVars (parent : Option TNode) (n : TNode) (a : TreeHeap.CouplingArgs) : List String :=
  (match parent with
    | some p => [treeVariable p.id a.componentPar.id a.cumulativePar]
    | none => []) ++
  [treeVariable n.id a.componentChd.id a.cumulativeChd, treeVariable n.id a.componentChd.id a.incrementalChd]

theorem treeVariable_ne (a b c : String) : treeVariable a b c ≠ "" := by
  unfold treeVariable
  intro h
  have := congrArg String.length h
  simp only [String.length_append] at this
  have h1 : ("_" : String).length = 1 := rfl
  have h2 : ("" : String).length = 0 := rfl
  omega

theorem setAdd_mem (l : List String) (x y : String) : y ∈ TreeHeap.setAdd l x ↔ y ∈ l ∨ y = x := by
  unfold TreeHeap.setAdd
  split
  · rename_i h
    have : x ∈ l := by simpa using h
    constructor
    · exact .inl
    · rintro (h | rfl)
      · exact h
      · exact this
  · simp

theorem setAdd_nodup {l : List String} (h : l.Nodup) (x : String) : (TreeHeap.setAdd l x).Nodup := by
  unfold TreeHeap.setAdd
  split
  · exact h
  · rename_i hx
    have : x ∉ l := by simpa using hx
    rw [List.nodup_append]
    exact ⟨h, by simp, fun a ha b hb => by simp at hb; rintro rfl; exact this (hb ▸ ha)⟩

theorem addCoupling_eq {info : CouplingInfo} (hi : IndexedKeys info) (parent : Option TNode) (n : TNode)
    (a : TreeHeap.CouplingArgs) :
    ∃ name : String, (∃ p : String, name = p ++ "_" ++ toString info.constraints.length) ∧ name ∉ info.constraints.keys ∧
      (TreeHeap.addCoupling info (parent.map (·.id)) n.id a).constraints =
        info.constraints ++ [(name, declExpr parent n a)] ∧
      (∀ x, x ∈ (TreeHeap.addCoupling info (parent.map (·.id)) n.id a).variables_ ↔
        x ∈ info.variables_ ∨ x ∈ declVars parent n a) ∧
      (info.variables_.Nodup → (TreeHeap.addCoupling info (parent.map (·.id)) n.id a).variables_.Nodup) := by
  have fresh : ∀ p : String, (p ++ "_" ++ toString info.constraints.length) ∉ info.constraints.keys := by
    intro p hp
    obtain ⟨kv, hkv, hk⟩ := List.mem_map.1 hp
    obtain ⟨i, hi', hget⟩ := List.getElem_of_mem hkv
    obtain ⟨q, hq⟩ := hi i kv (by rw [List.getElem?_eq_getElem hi', hget])
    rw [hq] at hk
    have := underscore_index_inj hk
    omega
  cases parent with
  | none =>
    refine ⟨"" ++ "_" ++ (n.id ++ "_" ++ a.componentChd.id) ++ "_" ++ toString info.constraints.length, ⟨_, rfl⟩, fresh _, ?_, ?_, ?_⟩
    · simp only [TreeHeap.addCoupling, Option.map_none]
      rw [Dict.set_of_notMem (fresh _)]
      simp only [declExpr, Expr.eqOp, treeVariable, ne_eq, not_true_eq_false, if_false]
    · intro x
      simp only [TreeHeap.addCoupling, Option.map_none, setAdd_mem, declVars, List.nil_append, List.mem_cons, List.not_mem_nil,
        or_false, treeVariable, or_assoc]
    · intro h
      exact setAdd_nodup (setAdd_nodup h _) _
  | some p =>
    refine ⟨(p.id ++ "_" ++ a.componentPar.id) ++ "_" ++ (n.id ++ "_" ++ a.componentChd.id) ++ "_" ++
      toString info.constraints.length, ⟨_, rfl⟩, fresh _, ?_, ?_, ?_⟩
    · simp only [TreeHeap.addCoupling, Option.map_some]
      rw [Dict.set_of_notMem (fresh _)]
      have := treeVariable_ne p.id a.componentPar.id a.cumulativePar
      unfold treeVariable at this
      simp only [declExpr, Expr.eqOp, treeVariable, if_pos this]
    · intro x
      simp only [TreeHeap.addCoupling, Option.map_some, setAdd_mem, declVars, List.cons_append, List.nil_append, List.mem_cons,
        List.not_mem_nil, or_false, treeVariable, or_assoc]
    · intro h
      exact setAdd_nodup (setAdd_nodup (setAdd_nodup h _) _) _

/-! ## Histories -/

/-- the node on which a declaration is made and its parent -/
def TreeHeap.site (h : TreeHeap) (r : Nat) : Option (Option TNode × TNode) :=
  h.nodes[r]?.map fun n => (h.parentOf n, n)

/-- the declaration is accepted, and belongs to the coupling information number `k` -/
def AcceptedOn (h : TreeHeap) (k : Nat) (d : Nat × TreeHeap.CouplingArgs) : Prop :=
  (∃ h', h.declare d.1 d.2 = .ok h') ∧ ∃ n, h.nodes[d.1]? = some n ∧ n.couplingInfo = k

/-- the declarations of a history that are accepted and belong to the coupling information number `k`, in order -/
noncomputable def acceptedOn (h : TreeHeap) (k : Nat) (ds : List (Nat × TreeHeap.CouplingArgs)) :
    List (Nat × TreeHeap.CouplingArgs) :=
  open Classical in ds.filter fun d => decide (AcceptedOn h k d)

/-- the constraint a declaration adds, in a heap -/
def exprAt (h : TreeHeap) (d : Nat × TreeHeap.CouplingArgs) : Option Expr :=
  h.nodes[d.1]?.map fun n => declExpr (h.parentOf n) n d.2

/-- the variables it mentions -/
def varsAt (h : TreeHeap) (d : Nat × TreeHeap.CouplingArgs) : List String :=
  match h.nodes[d.1]? with
  | some n => declVars (h.parentOf n) n d.2
  | none => []

theorem declare_ok {h h' : TreeHeap} {r : Nat} {a : TreeHeap.CouplingArgs} (hd : h.declare r a = .ok h') :
    ∃ n info, h.nodes[r]? = some n ∧ h.infos[n.couplingInfo]? = some info ∧
      TreeHeap.checkCoupling (h.parentOf n) n a = .ok () ∧
      h' = { h with infos := h.infos.set n.couplingInfo (TreeHeap.addCoupling info ((h.parentOf n).map (·.id)) n.id a) } := by
  unfold TreeHeap.declare at hd
  split at hd
  · cases hd
  · rename_i n hn
    split at hd
    · cases hd
    · rename_i info hinfo
      rw [bind_ok_iff] at hd
      obtain ⟨u, hu, he⟩ := hd
      cases he
      exact ⟨n, info, hn, hinfo, hu, rfl⟩

/-- a declaration that raises changes nothing, one that succeeds keeps the nodes and networks -/
theorem declare_nodes {h h' : TreeHeap} {r : Nat} {a : TreeHeap.CouplingArgs} (hd : h.declare r a = .ok h') :
    h'.nodes = h.nodes ∧ h'.networks = h.networks ∧ h'.infos.length = h.infos.length := by
  obtain ⟨n, info, -, -, -, rfl⟩ := declare_ok hd
  exact ⟨rfl, rfl, by simp⟩

theorem accepted_congr {h h' : TreeHeap} (hn : h'.nodes = h.nodes) (hl : h'.infos.length = h.infos.length)
    (r : Nat) (a : TreeHeap.CouplingArgs) : (∃ x, h'.declare r a = .ok x) ↔ ∃ x, h.declare r a = .ok x := by
  have hp : ∀ n, h'.parentOf n = h.parentOf n := fun n => by unfold TreeHeap.parentOf; rw [hn]
  have key : ∀ (g : TreeHeap), (∃ x, g.declare r a = .ok x) ↔ ∃ n, g.nodes[r]? = some n ∧ n.couplingInfo < g.infos.length ∧
      TreeHeap.checkCoupling (g.parentOf n) n a = .ok () := by
    intro g
    constructor
    · rintro ⟨x, hx⟩
      obtain ⟨n, info, h1, h2, h3, -⟩ := declare_ok hx
      refine ⟨n, h1, ?_, h3⟩
      by_contra hlt
      rw [List.getElem?_eq_none (by omega)] at h2
      cases h2
    · rintro ⟨n, h1, h2, h3⟩
      unfold TreeHeap.declare
      rw [h1]
      simp only [List.getElem?_eq_getElem h2, h3, ok_bind]
      exact ⟨_, rfl⟩
  rw [key h', key h, hn, hl]
  constructor
  · rintro ⟨n, h1, h2, h3⟩
    exact ⟨n, h1, h2, by rw [← hp]; exact h3⟩
  · rintro ⟨n, h1, h2, h3⟩
    exact ⟨n, h1, h2, by rw [hp]; exact h3⟩

theorem acceptedOn_congr {h h' : TreeHeap} (hn : h'.nodes = h.nodes) (hl : h'.infos.length = h.infos.length) (k : Nat)
    (ds : List (Nat × TreeHeap.CouplingArgs)) : acceptedOn h' k ds = acceptedOn h k ds := by
  have : AcceptedOn h' k = AcceptedOn h k := by
    funext d
    unfold AcceptedOn
    rw [accepted_congr hn hl, hn]
  unfold acceptedOn
  rw [this]

/-- **C38 (histories).**  For every set of trees and every sequence of declarations made on their nodes, starting from
coupling information whose names were generated in this way (the empty one for instance): the constraints recorded by
each coupling information are those it had, unchanged and in the same order, followed by one constraint for each accepted
declaration on a node that uses it, in the order of the declarations, under pairwise distinct names.  Refused declarations
and declarations that belong to other coupling information leave no trace; the recorded variables are those of the
accepted declarations; nodes and networks are unchanged. -/
theorem c38_history (h : TreeHeap) (hi : ∀ info ∈ h.infos, IndexedKeys info) (ds : List (Nat × TreeHeap.CouplingArgs))
    (k : Nat) (info : CouplingInfo) (hk : h.infos[k]? = some info) :
    (h.declareAll ds).nodes = h.nodes ∧ (h.declareAll ds).networks = h.networks ∧
    ∃ info' new, (h.declareAll ds).infos[k]? = some info' ∧ info'.constraints = info.constraints ++ new ∧
      new.map (fun kv => some kv.2) = (acceptedOn h k ds).map (exprAt h) ∧
      info'.constraints.keys.Nodup ∧ IndexedKeys info' ∧
      (∀ x, x ∈ info'.variables_ ↔ x ∈ info.variables_ ∨ ∃ d ∈ acceptedOn h k ds, x ∈ varsAt h d) ∧
      (info.variables_.Nodup → info'.variables_.Nodup) := by
  induction ds generalizing h info with
  | nil =>
    have hik := hi info (List.mem_of_getElem? hk)
    exact ⟨rfl, rfl, info, [], hk, by simp, by simp [acceptedOn], indexedKeys_nodup hik, hik, by simp [acceptedOn], fun h => h⟩
  | cons d ds ih =>
    obtain ⟨r, a⟩ := d
    simp only [TreeHeap.declareAll]
    cases hd : h.declare r a with
    | error e =>
      simp only
      obtain ⟨h1, h2, info', new, h3, h4, h5, h6, h7, h8, h9⟩ := ih h hi info hk
      have hna : ¬ AcceptedOn h k (r, a) := by
        rintro ⟨⟨h', hh'⟩, -⟩
        simp only [hd] at hh'
        cases hh'
      have hf : acceptedOn h k ((r, a) :: ds) = acceptedOn h k ds := by
        unfold acceptedOn
        rw [List.filter_cons, if_neg (by simpa using hna)]
      exact ⟨h1, h2, info', new, h3, h4, by rw [h5, hf], h6, h7, by rw [hf]; exact h8, h9⟩
    | ok h' =>
      simp only
      obtain ⟨n, inf, hn, hinf, hcheck, hh'⟩ := declare_ok hd
      obtain ⟨hnodes, hnets, hlen⟩ := declare_nodes hd
      obtain ⟨name, ⟨p, hp⟩, hfresh, hcons, hvars, hnd⟩ :=
        addCoupling_eq (hi inf (List.mem_of_getElem? hinf)) (h.parentOf n) n a
      generalize hadd : TreeHeap.addCoupling inf ((h.parentOf n).map (·.id)) n.id a = inf' at *
      have hlt : n.couplingInfo < h.infos.length := by
        by_contra hx
        rw [List.getElem?_eq_none (by omega)] at hinf; cases hinf
      have hi' : IndexedKeys inf' := by
        intro i kv hkv
        rw [hcons] at hkv
        by_cases hil : i < inf.constraints.length
        · rw [List.getElem?_append_left hil] at hkv
          exact hi inf (List.mem_of_getElem? hinf) i kv hkv
        · by_cases hie : i = inf.constraints.length
          · subst hie
            simp at hkv
            subst hkv
            exact ⟨p, hp⟩
          · rw [List.getElem?_eq_none (by simp; omega)] at hkv
            cases hkv
      have hih : ∀ info ∈ h'.infos, IndexedKeys info := by
        intro x hx
        rw [hh'] at hx
        rcases List.mem_or_eq_of_mem_set hx with hx | rfl
        · exact hi x hx
        · exact hi'
      have hpar : ∀ m, h'.parentOf m = h.parentOf m := fun m => by unfold TreeHeap.parentOf; rw [hnodes]
      have hexpr : exprAt h' = exprAt h := by
        funext d
        unfold exprAt
        rw [hnodes]
        simp only [hpar]
      have hvarsAt : varsAt h' = varsAt h := by
        funext d
        unfold varsAt
        rw [hnodes]
        simp only [hpar]
      have hacc := acceptedOn_congr hnodes hlen k ds
      by_cases hkn : n.couplingInfo = k
      · subst hkn
        rw [hinf] at hk
        cases hk
        have hget : h'.infos[n.couplingInfo]? = some inf' := by rw [hh']; simp [hlt]
        obtain ⟨h1, h2, info', new, h3, h4, h5, h6, h7, h8, h9⟩ := ih h' hih inf' hget
        have hya : AcceptedOn h n.couplingInfo (r, a) := ⟨⟨h', hd⟩, n, hn, rfl⟩
        have hf : acceptedOn h n.couplingInfo ((r, a) :: ds) = (r, a) :: acceptedOn h n.couplingInfo ds := by
          unfold acceptedOn
          rw [List.filter_cons, if_pos (by simpa using hya)]
        refine ⟨h1.trans hnodes, h2.trans hnets, info', (name, declExpr (h.parentOf n) n a) :: new, h3, ?_, ?_, h6, h7, ?_, ?_⟩
        · rw [h4, hcons]; simp
        · rw [hf, List.map_cons, List.map_cons, h5, hacc, hexpr]
          simp [exprAt, hn]
        · intro x
          rw [h8, hvars, hf, hacc, hvarsAt]
          simp only [List.mem_cons, exists_eq_or_imp, or_assoc]
          simp [varsAt, hn]
        · exact fun h => h9 (hnd h)
      · have hget : h'.infos[k]? = some info := by rw [hh']; simp [List.getElem?_set, hkn, hk]
        obtain ⟨h1, h2, info', new, h3, h4, h5, h6, h7, h8, h9⟩ := ih h' hih info hget
        have hna : ¬ AcceptedOn h k (r, a) := by
          rintro ⟨-, m, hm, hmk⟩
          simp only at hm
          rw [hn] at hm
          cases hm
          exact hkn hmk
        have hf : acceptedOn h k ((r, a) :: ds) = acceptedOn h k ds := by
          unfold acceptedOn
          rw [List.filter_cons, if_neg (by simpa using hna)]
        exact ⟨h1.trans hnodes, h2.trans hnets, info', new, h3, h4, by rw [hf, h5, hacc, hexpr], h6, h7,
          by rw [hf, ← hacc, ← hvarsAt]; exact h8, h9⟩

/-- nothing in the network compares equal to `c`: no node if `c` is a node, else no other component -/
def NotInNetwork (c : Component) (isNode : Bool) (n : Network) : Prop :=
  (isNode = true → ∀ id k, (id, k) ∈ n.nodes → k.eqb c ≠ .ok true) ∧ (isNode = false → ∀ id k, (id, k) ∈ n.components → k.eqb c ≠ .ok true)

theorem componentIn_false {c : Component} {l : List Component} (h : ∀ k ∈ l, k.eqb c ≠ .ok true) : componentIn c l ≠ .ok true := by
  induction l with
  | nil => simp [componentIn]
  | cons d l ih =>
    unfold componentIn
    have h1 := h d (by simp)
    have h2 := ih fun k hk => h k (by simp [hk])
    cases hd : d.eqb c with
    | error e => simp
    | ok b =>
      cases b with
      | true => exact absurd hd h1
      | false => simpa using h2

theorem notIn_false {c : Component} {isNode : Bool} {n : Network} (h : NotInNetwork c isNode n) : TreeHeap.inNetwork c isNode n ≠ .ok true := by
  unfold TreeHeap.inNetwork
  apply componentIn_false
  intro k hk
  cases isNode with
  | true =>
    obtain ⟨⟨id, k'⟩, hm, rfl⟩ := List.mem_map.1 hk
    exact h.1 rfl id k' hm
  | false =>
    obtain ⟨⟨id, k'⟩, hm, rfl⟩ := List.mem_map.1 hk
    exact h.2 rfl id k' hm

/-- **C38 (refusals).**  A declaration is refused when a component is not in the network of the node (or of its parent),
or when a variable is not in the model of its component.  (The heap has no other effect: `declare` returns no heap.) -/
theorem c38_refused (h : TreeHeap) (r : Nat) (a : TreeHeap.CouplingArgs) (n : TNode) (hn : h.nodes[r]? = some n)
    (hbad : (∃ p, h.parentOf n = some p ∧ NotInNetwork a.componentPar a.parIsNode p.network) ∨
      NotInNetwork a.componentChd a.chdIsNode n.network ∨
      a.cumulativePar ∉ a.componentPar.model.variables_.keys ∨ a.cumulativeChd ∉ a.componentChd.model.variables_.keys ∨
      a.incrementalChd ∉ a.componentChd.model.variables_.keys) : ∃ e, h.declare r a = .error e := by
  cases hd : h.declare r a with
  | error e => exact ⟨e, rfl⟩
  | ok h' =>
    exfalso
    obtain ⟨m, info, hm, -, hc, -⟩ := declare_ok hd
    rw [hn] at hm
    cases hm
    unfold TreeHeap.checkCoupling at hc
    rw [bind_ok_iff] at hc
    obtain ⟨u, hu, hc⟩ := hc
    rw [bind_ok_iff] at hc
    obtain ⟨i, hi, hc⟩ := hc
    have hcont : ∀ (c : Component) (v : String), c.isVariableInModel v = true ↔ v ∈ c.model.variables_.keys :=
      fun c v => Dict.contains_iff
    cases i with
    | false => simp at hc
    | true =>
      simp only [Bool.not_true, Bool.false_eq_true, if_false] at hc
      split_ifs at hc with h1 h2 h3
      simp only [Bool.not_eq_true', Bool.not_eq_false, hcont] at h1 h2 h3
      rcases hbad with ⟨p, hp, hb⟩ | hb | hb | hb | hb
      · rw [hp] at hu
        simp only [TreeHeap.checkParent, bind_ok_iff] at hu
        obtain ⟨i, hi', hu⟩ := hu
        cases i with
        | true => exact notIn_false hb hi'
        | false => simp at hu
      · exact notIn_false hb hi
      · exact hb h1
      · exact hb h2
      · exact hb h3

/-! ## The coupling model -/

theorem declExpr_meaning (parent : Option TNode) (n : TNode) (a : TreeHeap.CouplingArgs) (name : String) :
    ∃ c, couplingConstraint (name, declExpr parent n a) = .ok c ∧ c.name = name ∧ c.context = .investment ∧
      ∀ (M : MCtx) (t s : Int), c.Holds M t s ↔ CouplingHolds parent n a (fun v => mden M (.var v) t s) := by
  obtain ⟨c, hc, h1, h2, h3⟩ := c17_comparison name
    ((Expr.var (treeVariable n.id a.componentChd.id a.cumulativeChd)).subOp
      (.var (treeVariable n.id a.componentChd.id a.incrementalChd)))
    (match parent with
      | some p => .var (treeVariable p.id a.componentPar.id a.cumulativePar)
      | none => .lit 0) .eq .investment
  refine ⟨c, hc, h1, h2, fun M t s => ?_⟩
  rw [h3]
  unfold CouplingHolds
  simp only [Cmp.holds, mden_subOp]
  cases parent with
  | none => exact eq_comm
  | some p => exact eq_comm

theorem couplingVariable_ok (name : String) : couplingVariable name =
    .ok ⟨name, .continuous, some (.lit 0), none, ⟨false, false⟩, .investment⟩ := rfl

theorem appendAll_couplingVariable (l : List String) :
    appendAll couplingVariable l = .ok (l.map fun name => ⟨name, .continuous, some (.lit 0), none, ⟨false, false⟩, .investment⟩) := by
  induction l with
  | nil => rfl
  | cons x l ih => simp [appendAll, couplingVariable_ok, ih]

/-- **C38 (meaning).**  After any sequence of declarations, starting from empty coupling information, the coupling model
can be built, in whatever order the set of variables is iterated; its variables are exactly those of the accepted
declarations, non-negative reals of the investment problem that do not depend on time or scenario; and its constraints
are satisfied exactly when every accepted declaration holds. -/
theorem c38_meaning (h : TreeHeap) (hi : ∀ info ∈ h.infos, IndexedKeys info) (ds : List (Nat × TreeHeap.CouplingArgs))
    (k : Nat) (hk : h.infos[k]? = some {}) (order : List String → List String) (horder : ∀ l, (order l).Perm l) :
    ∃ info m, (h.declareAll ds).infos[k]? = some info ∧ couplingModel order info = .ok m ∧
      (∀ x, x ∈ m.variables_.keys ↔ ∃ d ∈ acceptedOn h k ds, x ∈ varsAt h d) ∧
      (∀ x v, m.variables_.get? x = some v → v = ⟨x, .continuous, some (.lit 0), none, ⟨false, false⟩, .investment⟩) ∧
      m.constraints.length = (acceptedOn h k ds).length ∧ (∀ c ∈ m.constraints.values, c.context = .investment) ∧
      ∀ (M : MCtx) (t s : Int), (∀ c ∈ m.constraints.values, c.Holds M t s) ↔
        ∀ d ∈ acceptedOn h k ds, ∀ n, h.nodes[d.1]? = some n →
          CouplingHolds (h.parentOf n) n d.2 (fun v => mden M (.var v) t s) := by
  obtain ⟨-, -, info, new, h3, h4, h5, h6, -, h8, h9⟩ := c38_history h hi ds k {} hk
  simp only [List.nil_append] at h4
  rw [h4] at h6
  have hnd := h9 (by simp)
  have hacc : ∀ d ∈ acceptedOn h k ds, ∃ n, h.nodes[d.1]? = some n := by
    intro d hd
    unfold acceptedOn at hd
    rw [List.mem_filter] at hd
    have := @of_decide_eq_true _ (Classical.propDecidable _) hd.2
    obtain ⟨-, n, hn, -⟩ := this
    exact ⟨n, hn⟩
  -- the constraints
  have hcs : ∀ (new : List (String × Expr)) (acc : List (Nat × TreeHeap.CouplingArgs)),
      (∀ d ∈ acc, ∃ n, h.nodes[d.1]? = some n) →
      new.map (fun kv => some kv.2) = acc.map (exprAt h) →
      ∃ cs, appendAll couplingConstraint new = .ok cs ∧ cs.map Constraint.name = new.map Prod.fst ∧
        (∀ c ∈ cs, c.context = .investment) ∧
        ∀ (M : MCtx) (t s : Int), (∀ c ∈ cs, c.Holds M t s) ↔
          ∀ d ∈ acc, ∀ n, h.nodes[d.1]? = some n → CouplingHolds (h.parentOf n) n d.2 (fun v => mden M (.var v) t s) := by
    intro new
    induction new with
    | nil =>
      intro acc hacc heq
      have : acc = [] := by simpa using heq.symm
      subst this
      exact ⟨[], rfl, rfl, by simp, by simp⟩
    | cons kv new ih =>
      intro acc hacc heq
      cases acc with
      | nil => simp at heq
      | cons d acc =>
        simp only [List.map_cons, List.cons.injEq] at heq
        obtain ⟨cs, h1, h2, h3, h4⟩ := ih acc (fun d hd => hacc d (by simp [hd])) heq.2
        obtain ⟨n, hn⟩ := hacc d (by simp)
        have he : kv.2 = declExpr (h.parentOf n) n d.2 := by
          have := heq.1
          simpa [exprAt, hn] using this
        obtain ⟨c, hc, hc1, hc2, hc3⟩ := declExpr_meaning (h.parentOf n) n d.2 kv.1
        rw [← he] at hc
        refine ⟨c :: cs, ?_, ?_, ?_, ?_⟩
        · simp only [appendAll, hc, h1, ok_bind]
        · simp [hc1, h2]
        · intro x hx
          rcases List.mem_cons.1 hx with rfl | hx
          · exact hc2
          · exact h3 x hx
        · intro M t s
          rw [List.forall_mem_cons, List.forall_mem_cons, h4, hc3]
          constructor
          · rintro ⟨a, b⟩
            exact ⟨fun m hm => by rw [hn] at hm; cases hm; exact a, b⟩
          · rintro ⟨a, b⟩
            exact ⟨a n hn, b⟩
  obtain ⟨cs, hc1, hc2, hc3, hc4⟩ := hcs new (acceptedOn h k ds) hacc h5
  -- the variables
  set vs := (order info.variables_).map fun name =>
    (⟨name, .continuous, some (.lit 0), none, ⟨false, false⟩, .investment⟩ : Variable) with hvs
  have hvkeys : (vs.map fun v => (v.name, v)).map Prod.fst = order info.variables_ := by
    rw [hvs]
    simp [List.map_map, Function.comp_def]
  have hvnd : ((vs.map fun v => (v.name, v)).map Prod.fst).Nodup := by
    rw [hvkeys]
    exact (horder _).nodup_iff.2 hnd
  have hcsnd : ((cs.map fun c => (c.name, c)).map Prod.fst).Nodup := by
    rw [List.map_map]
    show (cs.map Constraint.name).Nodup
    rw [hc2]; exact h6
  have hmodel : couplingModel order info = .ok
      { id := "", constraints := cs.map fun c => (c.name, c), variables_ := vs.map fun v => (v.name, v) } := by
    unfold couplingModel
    rw [appendAll_couplingVariable, h4, hc1]
    simp only [ok_bind, mkModel, collectPorts, List.map_nil]
    rw [Dict.ofItems_of_nodup hcsnd, Dict.ofItems_of_nodup hvnd]
    rfl
  refine ⟨info, _, h3, hmodel, ?_, ?_, ?_, ?_, ?_⟩
  · intro x
    show x ∈ ((vs.map fun v => (v.name, v)).map Prod.fst) ↔ _
    rw [hvkeys, (horder _).mem_iff, h8]
    simp
  · intro x v hv
    have := Dict.mem_of_get? hv
    rw [List.mem_map] at this
    obtain ⟨w, hw, hwe⟩ := this
    rw [hvs, List.mem_map] at hw
    obtain ⟨name, -, rfl⟩ := hw
    simp only [Prod.mk.injEq] at hwe
    obtain ⟨rfl, rfl⟩ := hwe
    rfl
  · have : cs.length = new.length := by
      have := congrArg List.length hc2
      simpa using this
    simp only [List.length_map, this]
    have := congrArg List.length h5
    simpa using this
  · intro c hc
    have hval : Dict.values (cs.map fun c => (c.name, c)) = cs := by simp [Dict.values, List.map_map, Function.comp_def]
    simp only [hval] at hc
    exact hc3 c hc
  · intro M t s
    have hval : Dict.values (cs.map fun c => (c.name, c)) = cs := by simp [Dict.values, List.map_map, Function.comp_def]
    simp only [hval]
    exact hc4 M t s

/-- a model with an invested capacity and its increment -/
def couplModel : Model :=
  { id := "cap", variables_ := [("cumul", ⟨"cumul", .continuous, some (.lit 0), none, ⟨false, false⟩, .coupling⟩),
      ("delta", ⟨"delta", .continuous, some (.lit 0), none, ⟨false, false⟩, .investment⟩)] }

def capComp : Component := ⟨couplModel, "G"⟩
def capNet : Network := { id := "n", components := [("G", capComp)] }

/-- a root and its child -/
def capHeap : TreeHeap := (({} : TreeHeap).createAll
  [{ id := "2020", config := ⟨[⟨0, [0]⟩], 1⟩, network := capNet },
   { id := "2030", config := ⟨[⟨0, [0]⟩], 1⟩, network := capNet, parent := some 0 }]).1

def capArgs : TreeHeap.CouplingArgs :=
  { componentPar := capComp, cumulativePar := "cumul", componentChd := capComp, cumulativeChd := "cumul", incrementalChd := "delta" }

theorem exists_of_isOk {α} {x : R α} (h : x.isOk = true) : ∃ a, x = .ok a := by
  cases x with
  | ok a => exact ⟨a, rfl⟩
  | error e => cases h

theorem capHeap_root : ∃ h', capHeap.declare 0 capArgs = .ok h' := exists_of_isOk (by decide +kernel)
theorem capHeap_child : ∃ h', capHeap.declare 1 capArgs = .ok h' := exists_of_isOk (by decide +kernel)

/-- declarations on the root and on its child; between them, one that is refused -/
def capHistory : List (Nat × TreeHeap.CouplingArgs) := [(0, capArgs), (1, { capArgs with incrementalChd := "unknown" }), (1, capArgs)]

/-- the names and the variables recorded -/
example : ((capHeap.declareAll capHistory).infos.map fun i => (i.variables_, i.constraints.keys)) =
    [(["2020_G_cumul", "2020_G_delta", "2030_G_cumul", "2030_G_delta"], ["_2020_G_0", "2020_G_2030_G_1"])] := by
  decide +kernel

/-- the hypotheses of the two theorems above are met -/
example : (∀ info ∈ capHeap.infos, IndexedKeys info) ∧ capHeap.infos[0]? = some ({} : CouplingInfo) ∧ AcceptedOn capHeap 0 (0, capArgs) ∧
    AcceptedOn capHeap 0 (1, capArgs) ∧ ¬ AcceptedOn capHeap 0 (1, { capArgs with incrementalChd := "unknown" }) := by
  have hinfos : capHeap.infos = [{}] := by with_unfolding_all rfl
  refine ⟨?_, by rw [hinfos]; rfl, ⟨capHeap_root, _, rfl, rfl⟩, ⟨capHeap_child, _, rfl, rfl⟩, ?_⟩
  · intro info hi
    rw [hinfos, List.mem_singleton] at hi
    subst hi
    intro i kv hkv
    simp at hkv
  · rintro ⟨⟨h', hh⟩, -⟩
    obtain ⟨e, he⟩ := c38_refused capHeap 1 { capArgs with incrementalChd := "unknown" } _ rfl
      (.inr (.inr (.inr (.inr (by decide)))))
    rw [he] at hh
    cases hh

/-! ## Names of the coupled variables -/

/-- **C38 (variables meant).**  The name used in a coupling constraint for a variable of a component in a tree node is the
name of the solver variable in the problem of that node: for a problem of one timestep and at most one scenario, such as
those of the master problems. -/
theorem c38_names_match (x : OptCtx) (n : Inst) (hf : x.fullVarName = true) (hid : n.comp.id ≠ "") (hnode : x.treeNode ≠ "")
    (hT : x.T ≤ 1) (hS : x.scenarios ≤ 1) : x.instName n = treeVariable x.treeNode n.comp.id n.var.name := by
  rw [instName_eq x n hf hid, if_pos hnode]
  have h1 : decide (x.T > 1) = false := by simp; omega
  have h2 : decide (x.scenarios > 1) = false := by simp; omega
  have hs : ∀ c i, indexSuffix c false i = "" := by
    intro c i
    cases i <;> rfl
  rw [h1, h2, hs, hs, String.append_empty, String.append_empty]
  unfold treeVariable
  simp only [String.append_assoc]

theorem split_underscore {a a' b b' : List Char} (ha : '_' ∉ a) (ha' : '_' ∉ a') (h : a ++ '_' :: b = a' ++ '_' :: b') :
    a = a' ∧ b = b' := by
  induction a generalizing a' with
  | nil =>
    cases a' with
    | nil => simpa using h
    | cons c a' =>
      simp only [List.nil_append, List.cons_append, List.cons.injEq] at h
      exact absurd (by rw [h.1]; simp) ha'
  | cons c a ih =>
    cases a' with
    | nil =>
      simp only [List.nil_append, List.cons_append, List.cons.injEq] at h
      exact absurd (by rw [← h.1]; simp) ha
    | cons c' a' =>
      simp only [List.cons_append, List.cons.injEq] at h
      obtain ⟨h1, h2⟩ := ih (fun hh => ha (by simp [hh])) (fun hh => ha' (by simp [hh])) h.2
      exact ⟨by rw [h.1, h1], h2⟩

/-- **C38 (variables not mixed up), partial.**  Different variables of different components or tree nodes have different
names, if the identifiers of tree nodes and components have no underscore. -/
theorem c38_variables_distinct_partial {n n' c c' v v' : String} (hn : '_' ∉ n.toList) (hn' : '_' ∉ n'.toList)
    (hc : '_' ∉ c.toList) (hc' : '_' ∉ c'.toList) (h : treeVariable n c v = treeVariable n' c' v') :
    n = n' ∧ c = c' ∧ v = v' := by
  have hl := congrArg String.toList h
  unfold treeVariable at hl
  have hu : ("_" : String).toList = ['_'] := rfl
  simp only [String.toList_append, hu, List.append_assoc, List.cons_append, List.nil_append] at hl
  obtain ⟨h1, h2⟩ := split_underscore hn hn' hl
  obtain ⟨h3, h4⟩ := split_underscore hc hc' h2
  exact ⟨String.toList_inj.1 h1, String.toList_inj.1 h3, String.toList_inj.1 h4⟩

/-! ## Where C38 fails -/

/-- **C38 fails: names can coincide.**  Variables of different components of different tree nodes share one name. -/
theorem c38_variables_mixed_up : treeVariable "a_b" "c" "v" = treeVariable "a" "b_c" "v" := by decide

/-- **C38 fails: a declaration on one tree affects another tree.**  Two trees built without giving coupling information
share the default one: a constraint declared on the first is a constraint of the second. -/
theorem c38_trees_share :
    let h : TreeHeap := (({} : TreeHeap).createAll
      [{ id := "first", config := ⟨[⟨0, [0]⟩], 1⟩, network := capNet }, { id := "second", config := ⟨[⟨0, [0]⟩], 1⟩, network := capNet }]).1
    let keys := fun (h : TreeHeap) => h.nodes.map fun n => (n.id, h.infos[n.couplingInfo]?.map fun i => i.constraints.keys)
    h.nodes.map (·.parent) = [none, none] ∧ (h.declare 0 capArgs).isOk = true ∧
    keys h = [("first", some []), ("second", some [])] ∧
    keys (h.declareAll [(0, capArgs)]) = [("first", some ["_first_G_0"]), ("second", some ["_first_G_0"])] := by
  decide +kernel

/-- **C38 fails: a tree node with an empty identifier.**  The coupling constraint uses a name that is not the one of the
solver variable. -/
theorem c38_empty_id (x : OptCtx) (n : Inst) (hf : x.fullVarName = true) (hid : n.comp.id ≠ "") (hnode : x.treeNode = "")
    (hT : x.T ≤ 1) (hS : x.scenarios ≤ 1) :
    treeVariable x.treeNode n.comp.id n.var.name = "_" ++ x.instName n ∧
    x.instName n ≠ treeVariable x.treeNode n.comp.id n.var.name := by
  have e : treeVariable x.treeNode n.comp.id n.var.name = "_" ++ x.instName n := by
    rw [instName_eq x n hf hid, if_neg (by simp [hnode])]
    have h1 : decide (x.T > 1) = false := by simp; omega
    have h2 : decide (x.scenarios > 1) = false := by simp; omega
    have hs : ∀ c i, indexSuffix c false i = "" := by
      intro c i
      cases i <;> rfl
    rw [h1, h2, hs, hs, String.append_empty, String.append_empty, hnode]
    unfold treeVariable
    simp only [String.append_assoc, String.empty_append]
  refine ⟨e, ?_⟩
  rw [e]
  intro h
  have := congrArg String.length h
  rw [String.length_append] at this
  have h1 : ("_" : String).length = 1 := rfl
  omega

end Verif.Props
