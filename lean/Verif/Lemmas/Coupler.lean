import Verif.Lemmas.Static
import Verif.Props.Coupling

/-! The coupler problem: its rows say that the declared couplings hold. -/

namespace Verif
open Expr OptCtx Verif.Props

/-! ## Plain expressions -/

theorem plain_ok {e : Expr} (hp : ∀ y ∈ e.subs, y.isPlain = true) (hf : FinLits e) : ExprOk e where
  agg x a hx := by have := hp _ hx; simp [isPlain] at this
  cmp y hy := (plain_flags (hp y hy)).2.2.1
  fin := hf
  nested := ⟨fun x k hx => by have := hp _ hx; simp [isPlain] at this, fun x a b hx => by have := hp _ hx; simp [isPlain] at this,
    fun x o hx => by have := hp _ hx; simp [isPlain] at this⟩

/-! ## The constraint of a declaration -/

/-- the right-hand side of a coupling constraint -/
def declRhs (parent : Option TNode) (a : TreeHeap.CouplingArgs) : Expr :=
  match parent with
  | some p => .var (treeVariable p.id a.componentPar.id a.cumulativePar)
  | none => .lit 0

/-- the expression stored for a declaration -/
theorem couplingConstraint_expr {parent : Option TNode} {n : TNode} {a : TreeHeap.CouplingArgs} {name : String} {k : Constraint}
    (h : couplingConstraint (name, declExpr parent n a) = .ok k) :
    k.expression = .add [.var (treeVariable n.id a.componentChd.id a.cumulativeChd),
      .neg (.var (treeVariable n.id a.componentChd.id a.incrementalChd)), .neg (declRhs parent a)] ∧
    k.lowerBound = .lit 0 ∧ k.upperBound = .lit 0 ∧ k.context = .investment := by
  unfold couplingConstraint declExpr at h
  have : Constraint.make { name := name, expression := .cmp ((Expr.var (treeVariable n.id a.componentChd.id a.cumulativeChd)).subOp
      (.var (treeVariable n.id a.componentChd.id a.incrementalChd))) (declRhs parent a) .eq, context := .investment } = .ok k := h
  clear h
  cases this
  refine ⟨?_, rfl, rfl, rfl⟩
  cases parent <;> rfl

theorem decl_subs (parent : Option TNode) (n : TNode) (a : TreeHeap.CouplingArgs) (y : Expr)
    (hy : y ∈ (Expr.add [.var (treeVariable n.id a.componentChd.id a.cumulativeChd),
      .neg (.var (treeVariable n.id a.componentChd.id a.incrementalChd)), .neg (declRhs parent a)]).subs) :
    (∃ v ∈ declVars parent n a, y = .var v) ∨ y = .lit 0 ∨ (y.isPlain = true ∧ (∀ v, y ≠ .var v) ∧ (∀ v, y ≠ .par v) ∧ ∀ v, y ≠ .lit v) := by
  cases parent with
  | none =>
    simp only [declRhs, subs, subsList, List.append_nil, List.mem_cons, List.mem_append, List.not_mem_nil, or_false] at hy
    rcases hy with rfl | rfl | (rfl | rfl) | rfl | rfl
    · exact .inr (.inr ⟨rfl, by simp, by simp, by simp⟩)
    · exact .inl ⟨_, by simp [declVars], rfl⟩
    · exact .inr (.inr ⟨rfl, by simp, by simp, by simp⟩)
    · exact .inl ⟨_, by simp [declVars], rfl⟩
    · exact .inr (.inr ⟨rfl, by simp, by simp, by simp⟩)
    · exact .inr (.inl rfl)
  | some p =>
    simp only [declRhs, subs, subsList, List.append_nil, List.mem_cons, List.mem_append, List.not_mem_nil, or_false] at hy
    rcases hy with rfl | rfl | (rfl | rfl) | rfl | rfl
    · exact .inr (.inr ⟨rfl, by simp, by simp, by simp⟩)
    · exact .inl ⟨_, by simp [declVars], rfl⟩
    · exact .inr (.inr ⟨rfl, by simp, by simp, by simp⟩)
    · exact .inl ⟨_, by simp [declVars], rfl⟩
    · exact .inr (.inr ⟨rfl, by simp, by simp, by simp⟩)
    · exact .inl ⟨_, by simp [declVars], rfl⟩

/-! ## The coupling network -/

theorem addCoupling_net {order : List String → List String} {info : CouplingInfo} {cn : Network}
    (h : addCouplingConstraints order info { id := "_Coupler" } = .ok cn) :
    ∃ m, couplingModel order info = .ok m ∧ cn = { id := "_Coupler", components := [("coupling", ⟨m, "coupling"⟩)] } := by
  unfold addCouplingConstraints at h
  rw [bind_ok_iff] at h
  obtain ⟨m, hm, hc⟩ := h
  cases hc
  exact ⟨m, hm, rfl⟩

theorem ofItems_mem {κ α} [DecidableEq κ] {l : List (κ × α)} {kv : κ × α} (h : kv ∈ Dict.ofItems l) : kv ∈ l := by
  have hg := Dict.get?_of_mem (Dict.nodup_ofItems l) h
  rw [Dict.get?_ofItems] at hg
  obtain ⟨x, hx, hx2⟩ := Option.map_eq_some_iff.1 hg
  have h1 := List.mem_of_find?_eq_some hx
  have h2 : x.1 = kv.1 := by simpa using List.find?_some hx
  have : x = kv := Prod.ext h2 hx2
  rw [← this]
  simpa using h1

theorem couplingModel_shape {order : List String → List String} {info : CouplingInfo} {m : Model}
    (h : couplingModel order info = .ok m) :
    m.variables_.keys.Nodup ∧ m.objectiveInvestment = none ∧ m.parameters = [] ∧ m.bindingConstraints = [] ∧
    m.portFieldsDefinitions = [] ∧ (∀ x v, (x, v) ∈ m.variables_ → v.name = x) ∧
    ∀ k ∈ m.constraints.values, ∃ kv ∈ info.constraints, couplingConstraint kv = .ok k := by
  unfold couplingModel at h
  simp only [bind_ok_iff] at h
  obtain ⟨vs, hvs, cs, hcs, h⟩ := h
  unfold mkModel at h
  simp only [collectPorts, ok_bind] at h
  unfold Model.make at h
  simp only [bind_ok_iff] at h
  obtain ⟨_, _, _, _, _, _, h⟩ := h
  cases h
  refine ⟨Dict.nodup_ofItems _, rfl, rfl, rfl, rfl, ?_, ?_⟩
  · intro x v hv
    have := ofItems_mem hv
    obtain ⟨w, _, hw⟩ := List.mem_map.1 this
    cases hw
    rfl
  · intro k hk
    obtain ⟨⟨x, k'⟩, hkv, rfl⟩ := List.mem_map.1 hk
    have := ofItems_mem hkv
    obtain ⟨w, hw, hw2⟩ := List.mem_map.1 this
    cases hw2
    obtain ⟨kv, h1, h2⟩ := forall₂_mem_right (appendAll_ok_iff.1 hcs) hw
    exact ⟨kv, h1, h2⟩

/-- data that are finite outside of the tree -/
def FiniteData (database : DataBase) : Prop :=
  ∀ c n d, database.get? (c, n) = some d → ∀ t s v, d.getValue t s "" = .ok v → v.isFin = true

/-- The coupler problem after any history of declarations: its rows say that the accepted declarations hold, its columns are
the declared variables; it has no cost. -/
theorem coupler_meaning (h : TreeHeap) (hi : ∀ info ∈ h.infos, IndexedKeys info) (ds : List (Nat × TreeHeap.CouplingArgs))
    (k : Nat) (hk : h.infos[k]? = some {}) (order : List String → List String) (horder : ∀ l, (order l).Perm l)
    {db : DataBase} (hfin : FiniteData db) {info : CouplingInfo} (hinfo : (h.declareAll ds).infos[k]? = some info)
    {cn : Network} (hcn : addCouplingConstraints order info { id := "_Coupler" } = .ok cn) {st : OptState}
    (hb : (couplerCtx cn db).buildProblem = .ok st) :
    (∀ val, (∀ r ∈ st.solver.rows, r.Sat (st.solver.pointOf val)) ↔
      ∀ d ∈ acceptedOn h k ds, ∀ n, h.nodes[d.1]? = some n → CouplingHolds (h.parentOf n) n d.2 val) ∧
    (∀ name ∈ st.solver.vars.map (·.name), ∃ d ∈ acceptedOn h k ds, name ∈ varsAt h d) ∧
    (st.solver.vars.map (·.name)).Nodup ∧ (∀ w ∈ st.solver.vars, w.integer = false) ∧
    st.solver.objective = [] ∧ st.solver.offset = 0 ∧ (∀ name, Problem.Ok ⟨name, st⟩) ∧ Registered st := by
  obtain ⟨info', m, hinfo', hm, hvars, hvar, -, hctx, hmean⟩ := c38_meaning h hi ds k hk order horder
  rw [hinfo] at hinfo'
  cases hinfo'
  obtain ⟨m', hm', rfl⟩ := addCoupling_net hcn
  rw [hm] at hm'
  cases hm'
  obtain ⟨hnd, hobj, hpar, hbind, hdef, hnamed, hcons⟩ := couplingModel_shape hm
  set cn : Network := { id := "_Coupler", components := [("coupling", ⟨m, "coupling"⟩)] } with hcn'
  set x := couplerCtx cn db with hx
  have hall : x.network.allComponents = [⟨m, "coupling"⟩] := rfl
  have hcomp : ∀ c ∈ x.network.allComponents, c = ⟨m, "coupling"⟩ := by
    intro c hc
    rw [hall, List.mem_singleton] at hc
    exact hc
  have hmem : (⟨m, "coupling"⟩ : Component) ∈ x.network.allComponents := by rw [hall]; exact List.mem_singleton.2 rfl
  -- the declared variables
  have hdecl : ∀ v ∈ m.variables_.values, v = ⟨v.name, .continuous, some (.lit 0), none, ⟨false, false⟩, .investment⟩ := by
    intro v hv
    obtain ⟨⟨y, w⟩, hyw, rfl⟩ := List.mem_map.1 hv
    have := hvar y w (Dict.get?_of_mem hnd hyw)
    have h2 := hnamed y w hyw
    simp only at this ⊢
    rw [h2]
    exact this
  have hkeep : ∀ v ∈ m.variables_.values, v.IsDecision := by
    intro v hv
    rw [hdecl v hv]
    simp [Variable.IsDecision]
  -- the constraints
  obtain ⟨-, -, info2, new, h3, h4, h5, -⟩ := c38_history h hi ds k {} hk
  rw [hinfo] at h3
  cases h3
  have hcon : ∀ c ∈ m.allConstraints, ∃ d ∈ acceptedOn h k ds, ∃ n, h.nodes[d.1]? = some n ∧ ∃ name,
      couplingConstraint (name, declExpr (h.parentOf n) n d.2) = .ok c := by
    intro c hc
    have hc' : c ∈ m.constraints.values := by
      unfold Model.allConstraints at hc
      rw [hbind] at hc
      simpa [Dict.values] using hc
    obtain ⟨kv, hkv, hok⟩ := hcons c hc'
    rw [h4] at hkv
    simp only [List.nil_append] at hkv
    have : some kv.2 ∈ new.map (fun kv => some kv.2) := List.mem_map.2 ⟨kv, hkv, rfl⟩
    rw [h5] at this
    obtain ⟨d, hd, he⟩ := List.mem_map.1 this
    unfold exprAt at he
    obtain ⟨n, hn, he⟩ := Option.map_eq_some_iff.1 he
    exact ⟨d, hd, n, hn, kv.1, by rw [he]; exact hok⟩
  have hvmem : ∀ d ∈ acceptedOn h k ds, ∀ n, h.nodes[d.1]? = some n → ∀ v ∈ declVars (h.parentOf n) n d.2,
      ∃ w, m.variables_.get? v = some w ∧ w.structure_ = ⟨false, false⟩ ∧ w.IsDecision := by
    intro d hd n hn v hv
    have : v ∈ m.variables_.keys := (hvars v).2 ⟨d, hd, by simp only [varsAt, hn]; exact hv⟩
    obtain ⟨w, hw⟩ := Dict.mem_keys_iff.1 this
    have hw2 := hvar v w hw
    exact ⟨w, hw, by rw [hw2], by rw [hw2]; simp [Variable.IsDecision]⟩
  have hlit : (⟨m, "coupling"⟩ : Component).Static (.lit 0) := by
    refine ⟨fun y hy => ?_, fun n hn => ?_, fun n hn => ?_⟩ <;> simp only [subs, List.mem_singleton] at *
    · subst hy; rfl
    · cases hn
    · cases hn
  have hstat : ∀ c ∈ m.allConstraints, (⟨m, "coupling"⟩ : Component).Static c.expression ∧ FinLits c.expression := by
    intro c hc
    obtain ⟨d, hd, n, hn, name, hok⟩ := hcon c hc
    obtain ⟨he, -⟩ := couplingConstraint_expr hok
    rw [he]
    refine ⟨⟨fun y hy => ?_, fun v hv => ?_, fun v hv => ?_⟩, fun v hv => ?_⟩
    · rcases decl_subs _ _ _ y hy with ⟨v, _, rfl⟩ | rfl | h
      · rfl
      · rfl
      · exact h.1
    · rcases decl_subs _ _ _ _ hv with ⟨w, hw, heq⟩ | heq | h
      · cases heq
        exact hvmem d hd n hn v hw
      · cases heq
      · exact absurd rfl (h.2.1 v)
    · rcases decl_subs _ _ _ _ hv with ⟨w, hw, heq⟩ | heq | h
      · cases heq
      · cases heq
      · exact absurd rfl (h.2.2.1 v)
    · rcases decl_subs _ _ _ _ hv with ⟨w, hw, heq⟩ | heq | h
      · cases heq
      · cases heq
        exact ⟨0, rfl⟩
      · exact absurd rfl (h.2.2.2 v)
  have hbnd : ∀ c ∈ m.allConstraints, c.lowerBound = .lit 0 ∧ c.upperBound = .lit 0 := by
    intro c hc
    obtain ⟨d, hd, n, hn, name, hok⟩ := hcon c hc
    obtain ⟨-, h1, h2, -⟩ := couplingConstraint_expr hok
    exact ⟨h1, h2⟩
  -- the network and the data
  have hnet : ∀ y : OptCtx, y.network = cn → y.NetworkOk := by
    intro y hy
    refine ⟨?_, ?_, ?_, ?_, ?_, ?_⟩
    · rw [hy]; simp [hcn', Network.allComponents, Dict.values]
    · intro i c hic
      rw [hy] at hic
      rcases hic with hic | hic
      · cases hic
      · rw [List.mem_singleton] at hic
        cases hic
        rfl
    · intro c hc
      rw [hy] at hc
      rw [hcomp c hc]
      exact hnamed
    · intro c hc
      rw [hy] at hc
      rw [hcomp c hc]
      exact hnd
    · intro c hc
      rw [hy] at hc
      cases hc
    · intro c hc
      rw [hy] at hc
      cases hc
  set x1 := x.withScenarios 1 with hx1
  have hn1 : x1.NetworkOk := hnet _ rfl
  have hnx : x.NetworkOk := hnet _ rfl
  have hsel : x.SelectsStatic := by
    refine ⟨fun c hc v hv => ?_, fun c hc k' hk' => ?_, fun c hc e he => ?_⟩
    · rw [hcomp c hc] at hv
      rw [hdecl v (List.mem_filter.1 hv).1]
    · rw [hcomp c hc] at hk' ⊢
      exact (hstat k' (List.mem_filter.1 hk').1).1
    · rw [hcomp c hc] at he
      have : some e ∈ [m.objectiveInvestment] := he
      rw [hobj] at this
      simp at this
  have hb1 : x1.buildProblem = .ok st := by rw [build_scenarios hnx hsel 1]; exact hb
  have hgc : ∀ i c, x1.network.getComponent i = .ok c → c = ⟨m, "coupling"⟩ := by
    intro i c hic
    have hg : ({ id := "_Coupler", components := [("coupling", ⟨m, "coupling"⟩)] } : Network).getComponent i = .ok c := hic
    unfold Network.getComponent at hg
    by_cases hi' : i = "coupling"
    · subst hi'
      cases hg
      rfl
    · have h0 : Dict.get? ([("coupling", (⟨m, "coupling"⟩ : Component))] : Dict String Component) i = none := by
        simp [Dict.get?_cons, Ne.symm hi']
      simp only [h0] at hg
      cases hg
  have hdata : x1.DataOk := by
    refine ⟨rfl, by simp [hx1, hx, couplerCtx, withScenarios], hfin, ?_, ?_⟩
    · intro i n c p d hic hp
      rw [hgc i c hic, hpar] at hp
      cases hp
    · intro i n c p d hic hp
      rw [hgc i c hic, hpar] at hp
      cases hp
  have hvarval : ∀ (var : String → String → Option Int → Option Int → ℚ) (v : String) (w : Variable),
      m.variables_.get? v = some w → w.structure_ = ⟨false, false⟩ → ∀ t s,
      mden (x1.readAs (x1.unwrapped var) ⟨m, "coupling"⟩) (.var v) t s = var "coupling" v none none := by
    intro var v w hw hst t s
    have hg : x1.network.getComponent "coupling" = .ok ⟨m, "coupling"⟩ := rfl
    simp only [mden, readAs, componentCtx, unwrapped, varIdx, hg, hw, Option.map_some, Option.getD_some, hst, atT, atS]
    rfl
  have hk1 : x1.ConstraintsOk := by
    refine ⟨Nat.one_pos, fun c hc k' hk' => ?_, fun c hc k' hk' t s _ _ => ?_, fun ports hreg c hc k' hk' => ?_⟩
    · rw [hcomp c hc] at hk'
      have hk2 := (List.mem_filter.1 hk').1
      obtain ⟨h1, h2⟩ := hbnd k' hk2
      obtain ⟨h3, h4⟩ := hstat k' hk2
      have h0 : BoundOk (.lit 0) := by
        refine .inr (plain_ok hlit.plain fun v hv => ?_)
        simp only [subs, List.mem_singleton] at hv
        cases hv
        exact ⟨0, rfl⟩
      rw [h1, h2]
      exact ⟨plain_ok h3.plain h4, h0, h0⟩
    · rw [hcomp c hc] at hk' ⊢
      have hk2 := (List.mem_filter.1 hk').1
      obtain ⟨d, hd, n, hn, name, hok⟩ := hcon k' hk2
      obtain ⟨he, -⟩ := couplingConstraint_expr hok
      rw [he]
      intro var key
      simp only
      obtain ⟨w1, hw1, hs1, -⟩ := hvmem d hd n hn (treeVariable n.id d.2.componentChd.id d.2.cumulativeChd)
        (by unfold declVars; simp)
      obtain ⟨w2, hw2, hs2, -⟩ := hvmem d hd n hn (treeVariable n.id d.2.componentChd.id d.2.incrementalChd)
        (by unfold declVars; simp)
      have hbig : (1 : ℚ) / 10 ^ 16 ≤ 1 ∧ (1 : ℚ) / 10 ^ 16 ≤ 2 := by norm_num
      cases hpn : h.parentOf n with
      | none =>
        have hz : ∀ M t s, mden M (.lit 0) t s = 0 := fun _ _ _ => rfl
        simp only [declRhs, mden, mdenSum, hz]
        have e1 := hvarval var _ w1 hw1 hs1 t s
        have e2 := hvarval var _ w2 hw2 hs2 t s
        have f1 := hvarval (fun c v t s => if key = ⟨c, v, t, s⟩ then var c v t s + 1 else var c v t s) _ w1 hw1 hs1 t s
        have f2 := hvarval (fun c v t s => if key = ⟨c, v, t, s⟩ then var c v t s + 1 else var c v t s) _ w2 hw2 hs2 t s
        simp only [mden] at e1 e2 f1 f2
        rw [e1, e2, f1, f2]
        have hz' : ∀ M : MCtx, mden M (.lit 0) t s = 0 := fun _ => rfl
        split_ifs
        · left; ring
        · right
          ring_nf
          norm_num
        · right
          ring_nf
          norm_num
        · left; ring
      | some p =>
        obtain ⟨w3, hw3, hs3, -⟩ := hvmem d hd n hn (treeVariable p.id d.2.componentPar.id d.2.cumulativePar)
          (by unfold declVars; simp [hpn])
        simp only [declRhs, mden, mdenSum]
        have e1 := hvarval var _ w1 hw1 hs1 t s
        have e2 := hvarval var _ w2 hw2 hs2 t s
        have e3 := hvarval var _ w3 hw3 hs3 t s
        have f1 := hvarval (fun c v t s => if key = ⟨c, v, t, s⟩ then var c v t s + 1 else var c v t s) _ w1 hw1 hs1 t s
        have f2 := hvarval (fun c v t s => if key = ⟨c, v, t, s⟩ then var c v t s + 1 else var c v t s) _ w2 hw2 hs2 t s
        have f3 := hvarval (fun c v t s => if key = ⟨c, v, t, s⟩ then var c v t s + 1 else var c v t s) _ w3 hw3 hs3 t s
        simp only [mden] at e1 e2 e3 f1 f2 f3
        rw [e1, e2, e3, f1, f2, f3]
        split_ifs
        all_goals first
          | (left; ring; done)
          | (right; ring_nf; norm_num; done)
    · rw [hcomp c hc] at hk' ⊢
      have hk2 := (List.mem_filter.1 hk').1
      obtain ⟨h1, h2⟩ := hbnd k' hk2
      refine ⟨fun e i _ _ _ b hb => ?_, fun e i _ _ _ b hb => ?_⟩ <;>
      · have : b = .lit 0 := by
          rcases hb with rfl | rfl
          · exact h1
          · exact h2
        subst this
        intros
        rfl
  have hname : ∀ n : Inst, x1.instName n = n.var.name := by
    intro n
    unfold OptCtx.instName OptCtx.solverVariableName
    rcases n with ⟨c, v, t, s⟩
    have hT : x1.blockLength = 1 := rfl
    have hS : x1.scenarios = 1 := rfl
    have hf : x1.fullVarName = false := rfl
    simp only [hf, hT, hS, Bool.false_and, Bool.false_eq_true, if_false]
    cases t <;> cases s <;> simp
  have hinst : ∀ n ∈ x1.instances, n.comp = ⟨m, "coupling"⟩ ∧ n.var ∈ m.variables_.values ∧ n.t = none ∧ n.s = none := by
    intro n hn
    obtain ⟨hc, hv, ht, hs⟩ := mem_instances.1 hn
    have hc' := hcomp _ hc
    rw [hc'] at hv
    have hv' : n.var ∈ m.variables_.values := (List.mem_filter.1 hv).1
    rw [hdecl _ hv'] at ht hs
    refine ⟨hc', hv', ?_, ?_⟩
    · simpa [indexList] using ht
    · simpa [indexList] using hs
  have hnames := build_names hn1 hb1
  have hnodup : (x1.instances.map x1.instName).Nodup := by
    have hkeys := instances_nodup hn1
    have hcongr : x1.instances.map Inst.key = (x1.instances.map x1.instName).map fun s => (⟨"coupling", s, none, none⟩ : TermKey) := by
      rw [List.map_map]
      refine List.map_congr_left fun n hn => ?_
      obtain ⟨h1, -, h2, h3⟩ := hinst n hn
      simp only [Inst.key, Function.comp, hname, h1, h2, h3]
    rw [hcongr] at hkeys
    exact List.Nodup.of_map _ hkeys
  have hcost : st.solver.objective = [] ∧ st.solver.offset = 0 := by
    obtain ⟨ports, st1, st2, hreg, h1, h2, h3⟩ := build_phases hb1
    have hv := createVariables_inv h1
    have hr := createConstraints_inv hn1 hk1.exprs hreg hv.rows h2
    have h4 : x1.createObjectives ports st2 = x1.createObjectiveOf ports "coupling" st2 m.objectiveInvestment >>= fun s => .ok s := by
      show loop _ [_] st2 = _
      rw [loop_cons]
      show (loop (x1.createObjectiveOf ports "coupling") [m.objectiveInvestment] st2 >>= fun s => .ok s) = _
      rw [loop_cons, hobj]
      rfl
    have h5 : x1.createObjectives ports st2 = .ok st2 := by
      rw [h4, hobj]
      rfl
    rw [h5] at h3
    cases h3
    exact ⟨by rw [hr.objective, hv.objective], by rw [hr.offset, hv.offset]⟩
  refine ⟨fun val => ?_, fun name hn => ?_, ?_, fun w hw => ?_, ?_, ?_, fun name => build_ok hn1 hnodup hb1 name,
    build_registered hn1 hnodup hb1⟩
  · have hrows := c33_rows_partial x1 hn1 hdata hk1 st hb1 (st.solver.pointOf val) (fun k => val k.var)
      (pointOf_key hn1 hb1 fun n _ => by rw [hname]; rfl)
    rw [hrows]
    have hM : ∀ v t s, mden (x1.readIn (fun k => val k.var) ⟨m, "coupling"⟩) (.var v) t s = val v := fun v t s => rfl
    have hthis := hmean (x1.readIn (fun k => val k.var) ⟨m, "coupling"⟩) 0 0
    simp only [hM] at hthis
    rw [← hthis]
    constructor
    · intro hall' c hc
      refine hall' ⟨m, "coupling"⟩ hmem c (List.mem_filter.2 ⟨?_, ?_⟩) 0 0 Nat.one_pos Nat.one_pos
      · unfold Model.allConstraints
        exact List.mem_append.2 (.inr hc)
      · show investmentStrategy.keep c.context = true
        rw [hctx c hc]
        rfl
    · intro hall' c hc k' hk' t s ht hs
      rw [hcomp c hc] at hk' ⊢
      have ht0 : t = 0 := by
        have : x1.timesteps.length = 1 := rfl
        omega
      have hs0 : s = 0 := by
        have : x1.scenarios = 1 := rfl
        omega
      subst ht0 hs0
      refine hall' k' ?_
      have := (List.mem_filter.1 hk').1
      unfold Model.allConstraints at this
      rw [hbind] at this
      simpa [Dict.values] using this
  · rw [hnames] at hn
    obtain ⟨n, hni, rfl⟩ := List.mem_map.1 hn
    obtain ⟨-, h2, -, -⟩ := hinst n hni
    rw [hname]
    obtain ⟨⟨y, w⟩, hyw, hw⟩ := List.mem_map.1 h2
    have := hnamed y w hyw
    simp only at hw
    rw [← hw, this]
    exact (hvars y).1 (List.mem_map.2 ⟨_, hyw, rfl⟩)
  · rw [hnames]
    exact hnodup
  · obtain ⟨ports, _, hf, _⟩ := build_columns hn1 hb1
    obtain ⟨n, hn, hv⟩ := forall₂_mem_right hf hw
    obtain ⟨lb, ub, lo, up, -, -, -, -, -, rfl⟩ := hv.made
    rw [hdecl _ (hinst n hn).2.1]
    rfl
  · exact hcost.1
  · exact hcost.2

end Verif
