import Verif.Lemmas.Coupler
import Verif.Props.Tree

/-! The master problem and the subproblems of a node of the tree, and their merge. -/

namespace Verif
open Expr OptCtx Verif.Props

/-! ## Lists of values -/

theorem forall₂_exists {α β} {P : α → β → Prop} {l : List α} (h : ∀ a ∈ l, ∃ b, P a b) : ∃ bs, List.Forall₂ P l bs := by
  induction l with
  | nil => exact ⟨[], .nil⟩
  | cons a l ih =>
    obtain ⟨b, hb⟩ := h a (by simp)
    obtain ⟨bs, hbs⟩ := ih fun a ha => h a (by simp [ha])
    exact ⟨b :: bs, .cons hb hbs⟩

theorem zip_costs {α β} {P : α → β → Prop} {f : α → β → ℚ} {l : List α} {q : ℚ} :
    (∃ vals, List.Forall₂ P l vals ∧ q = (List.zipWith f l vals).sum) ↔
    ∃ qs, List.Forall₂ (fun a x => ∃ w, P a w ∧ f a w = x) l qs ∧ q = qs.sum := by
  constructor
  · rintro ⟨vals, h, rfl⟩
    refine ⟨List.zipWith f l vals, ?_, rfl⟩
    induction h with
    | nil => exact .nil
    | cons h _ ih => exact .cons ⟨_, h, rfl⟩ ih
  · rintro ⟨qs, h, rfl⟩
    induction h with
    | nil => exact ⟨[], .nil, rfl⟩
    | cons h _ ih =>
      obtain ⟨w, hw, rfl⟩ := h
      obtain ⟨ws, hws, hs⟩ := ih
      exact ⟨w :: ws, .cons hw hws, by simp [hs]⟩

theorem forall₂_append_split {α β} {P : α → β → Prop} {l l' : List α} {bs : List β} (h : List.Forall₂ P (l ++ l') bs) :
    ∃ b b', bs = b ++ b' ∧ List.Forall₂ P l b ∧ List.Forall₂ P l' b' := by
  induction l generalizing bs with
  | nil => exact ⟨[], bs, rfl, .nil, h⟩
  | cons a l ih =>
    cases h with
    | cons h1 h2 =>
      obtain ⟨b, b', rfl, h3, h4⟩ := ih h2
      exact ⟨_ :: b, b', rfl, .cons h1 h3, h4⟩

theorem flatMap_costs {α β} {P : β → ℚ → Prop} {g : α → List β} {l : List α} {q : ℚ} :
    (∃ qs, List.Forall₂ P (l.flatMap g) qs ∧ q = qs.sum) ↔
    ∃ xs, List.Forall₂ (fun a x => ∃ qs, List.Forall₂ P (g a) qs ∧ x = qs.sum) l xs ∧ q = xs.sum := by
  induction l generalizing q with
  | nil =>
    constructor
    · rintro ⟨qs, h, rfl⟩
      cases h
      exact ⟨[], .nil, rfl⟩
    · rintro ⟨xs, h, rfl⟩
      cases h
      exact ⟨[], .nil, rfl⟩
  | cons a l ih =>
    constructor
    · rintro ⟨qs, h, rfl⟩
      rw [List.flatMap_cons] at h
      obtain ⟨b, b', rfl, h1, h2⟩ := forall₂_append_split h
      obtain ⟨xs, hxs, hs⟩ := (ih (q := b'.sum)).1 ⟨b', h2, rfl⟩
      exact ⟨b.sum :: xs, .cons ⟨b, h1, rfl⟩ hxs, by rw [List.sum_append, List.sum_cons, hs]⟩
    · rintro ⟨xs, h, rfl⟩
      cases h with
      | cons h1 h2 =>
        obtain ⟨b, hb, rfl⟩ := h1
        obtain ⟨b', hb', hs⟩ := ih.2 ⟨_, h2, rfl⟩
        rw [List.flatMap_cons]
        exact ⟨b ++ b', List.rel_append hb hb', by rw [List.sum_append, List.sum_cons, hs]⟩

theorem perm_costs {α} {P : α → ℚ → Prop} {l l' : List α} (h : l.Perm l') {q : ℚ} :
    (∃ qs, List.Forall₂ P l qs ∧ q = qs.sum) ↔ ∃ qs, List.Forall₂ P l' qs ∧ q = qs.sum := by
  have key : ∀ {l l' : List α}, l.Perm l' → (∃ qs, List.Forall₂ P l qs ∧ q = qs.sum) → ∃ qs, List.Forall₂ P l' qs ∧ q = qs.sum := by
    rintro l l' h ⟨qs, h1, rfl⟩
    obtain ⟨qs', h2, h3⟩ := List.perm_comp_forall₂ h.symm h1
    exact ⟨qs', h2, h3.sum_eq.symm⟩
  exact ⟨key h, key h.symm⟩

/-! ## One node -/

/-- the values of the names are the investments, for the decision variables of node `t` -/
def Agree (inv : Investments) (t : DTree) (val : String → ℚ) : Prop :=
  ∀ c ∈ t.network.allComponents, ∀ v ∈ c.model.variables_.values, v.IsDecision →
    inv t.id c.id v.name = val (treeVariable t.id c.id v.name)

/-- the name of a decision variable of the tree -/
def MasterName (root : DTree) (name : String) : Prop :=
  ∃ t ∈ root.nodes, ∃ c ∈ t.network.allComponents, ∃ v ∈ c.model.variables_.values, v.IsDecision ∧
    name = treeVariable t.id c.id v.name

section
variable {db : DataBase} {root t : DTree}

theorem Ok.someBlock (h : root.Ok db) (ht : t ∈ root.nodes) : ∃ b, StudyOk db t b := by
  obtain ⟨b, hb⟩ := List.exists_mem_of_ne_nil _ (h.blocks t ht)
  exact ⟨b, h.study t ht b hb⟩

theorem masterInstance (hs : t.network.Strategic) {n : Inst} (hn : n ∈ (master1 db t).instances) :
    n.comp ∈ t.network.allComponents ∧ n.var ∈ n.comp.model.variables_.values ∧ n.var.IsDecision ∧ n.t = none ∧ n.s = none := by
  obtain ⟨hc, hv, h1, h2⟩ := mem_instances.1 hn
  obtain ⟨hv1, hv2⟩ := mem_investVariables.1 hv
  rw [hs.structure_ _ hc _ hv1 hv2] at h1 h2
  exact ⟨hc, hv1, hv2, by simpa [indexList] using h1, by simpa [indexList] using h2⟩

theorem masterName (h : root.Ok db) (ht : t ∈ root.nodes) {n : Inst} (hn : n ∈ (master1 db t).instances) :
    (master1 db t).instName n = treeVariable t.id n.comp.id n.var.name := by
  obtain ⟨hc, -⟩ := masterInstance (h.strategic t ht) hn
  exact c38_names_match (master1 db t) n rfl (h.names.component t ht _ hc).1 (h.names.node t ht).1 le_rfl le_rfl

/-- the master problem of a node says that its investments are allowed and has their cost -/
theorem master_node (h : root.Ok db) (ht : t ∈ root.nodes) {st : OptState} (hb : (masterCtx db t).buildProblem = .ok st)
    {inv : Investments} {val : String → ℚ} (ha : Agree inv t val) {σ : TermKey → ℚ} (hf : Follows inv t σ) {b : TimeBlock}
    (hst : StudyOk db t b) :
    (st.solver.Holds val ↔ (master1 db t).MathFeasible σ) ∧
    st.solver.costOf val = t.prob.toQ * (t.study db b).investmentCost σ := by
  have hs := h.strategic t ht
  rw [hst.masterBuild hs] at hb
  obtain ⟨h1, h2⟩ := build_named (val := val) (σ := σ) hst.master1Network hst.master1Data (hst.master1Vars hs) (hst.master1Constraints hs)
    (hst.master1Objectives hs) hb fun n hn => by
      obtain ⟨hc, hv, hd, h3, h4⟩ := masterInstance hs hn
      rw [masterName h ht hn, ← ha _ hc _ hv hd, ← hf _ hc _ hv hd]
      unfold Inst.key
      rw [h3, h4]
  exact ⟨h1, by rw [h2, master_cost hst hs]⟩

/-- the names of the columns of the master problem of a node -/
theorem master_names (h : root.Ok db) (ht : t ∈ root.nodes) {st : OptState} (hb : (masterCtx db t).buildProblem = .ok st) (name : String) :
    name ∈ st.solver.vars.map (·.name) ↔ ∃ c ∈ t.network.allComponents, ∃ v ∈ c.model.variables_.values, v.IsDecision ∧
      name = treeVariable t.id c.id v.name := by
  obtain ⟨b, hst⟩ := Ok.someBlock h ht
  have hs := h.strategic t ht
  rw [hst.masterBuild hs] at hb
  rw [build_names hst.master1Network hb]
  constructor
  · intro hn
    obtain ⟨n, hi, rfl⟩ := List.mem_map.1 hn
    obtain ⟨hc, hv, hd, h3, h4⟩ := masterInstance hs hi
    exact ⟨_, hc, _, hv, hd, masterName h ht hi⟩
  · rintro ⟨c, hc, v, hv, hd, rfl⟩
    have hn : (⟨c, v, none, none⟩ : Inst) ∈ (master1 db t).instances := by
      refine mem_instances.2 ⟨hc, mem_investVariables.2 ⟨hv, hd⟩, ?_, ?_⟩ <;> simp [hs.structure_ c hc v hv hd, indexList]
    exact List.mem_map.2 ⟨_, hn, masterName h ht hn⟩

theorem underscore_prefix {a b : String} (ha : '_' ∉ a.toList) (hb : '_' ∉ b.toList) (h : (a ++ "_").toList <+: (b ++ "_").toList) :
    a = b := by
  obtain ⟨r, hr⟩ := h
  have hu : ("_" : String).toList = ['_'] := rfl
  simp only [String.toList_append, hu, List.append_assoc, List.cons_append, List.nil_append] at hr
  exact String.toList_inj.1 (split_underscore ha hb hr).1

/-- different instances of a subproblem have different names -/
theorem sub_injective (h : root.Ok db) (ht : t ∈ root.nodes) {b : TimeBlock} (hst : StudyOk db t b) {n n' : Inst}
    (hn : n ∈ (subproblemCtx db t b).instances) (hn' : n' ∈ (subproblemCtx db t b).instances)
    (heq : (subproblemCtx db t b).instName n = (subproblemCtx db t b).instName n') : n = n' :=
  c31_names_partial _ hst.subNetwork rfl (fun c hc => (h.names.component t ht c hc).1)
    (fun c hc c' hc' => underscore_prefix (h.names.component t ht c hc).2 (h.names.component t ht c' hc').2)
    (fun c hc v hv => h.names.variable_ t ht c hc v (operVariables_mem hv)) n n' hn hn' heq

theorem node_eq (h : root.Ok db) {t' : DTree} (ht : t ∈ root.nodes) (ht' : t' ∈ root.nodes) (he : t.id = t'.id) : t = t' :=
  List.inj_on_of_nodup_map h.names.distinct ht ht' he

theorem component_eq (h : StudyOk db t b) {c c' : Component} (hc : c ∈ t.network.allComponents) (hc' : c' ∈ t.network.allComponents)
    (he : c.id = c'.id) : c = c' :=
  List.inj_on_of_nodup_map h.network.ids hc hc' he

theorem variable_eq (h : StudyOk db t b) {c : Component} (hc : c ∈ t.network.allComponents) {v v' : Variable}
    (hv : v ∈ c.model.variables_.values) (hv' : v' ∈ c.model.variables_.values) (he : v.name = v'.name) : v = v' := by
  obtain ⟨⟨x, w⟩, hx, rfl⟩ := List.mem_map.1 hv
  obtain ⟨⟨x', w'⟩, hx', rfl⟩ := List.mem_map.1 hv'
  have h1 := h.network.vars c hc x w hx
  have h2 := h.network.vars c hc x' w' hx'
  have : x = x' := by rw [← h1, ← h2]; exact he
  subst this
  have e1 := Dict.get?_of_mem (h.network.varsNodup c hc) hx
  have e2 := Dict.get?_of_mem (h.network.varsNodup c hc) hx'
  rw [e1] at e2
  exact Option.some.inj e2

/-- A column of a subproblem that has the name of a decision variable of the tree is that variable. -/
theorem sub_name (h : root.Ok db) (ht : t ∈ root.nodes) {b : TimeBlock} (hst : StudyOk db t b) {n : Inst}
    (hn : n ∈ (subproblemCtx db t b).instances) {t' : DTree} (ht' : t' ∈ root.nodes) {c : Component} (hc : c ∈ t'.network.allComponents)
    {v : Variable} (hv : v ∈ c.model.variables_.values) 
    (he : (subproblemCtx db t b).instName n = treeVariable t'.id c.id v.name) :
    t' = t ∧ c = n.comp ∧ v = n.var := by
  obtain ⟨hnc, hnv, hnt, hns⟩ := mem_instances.1 hn
  have hnv' := operVariables_mem hnv
  rw [instName_eq _ n rfl (h.names.component t ht _ hnc).1, if_pos (show (subproblemCtx db t b).treeNode ≠ "" from (h.names.node t ht).1)] at he
  have hl := congrArg String.toList he
  unfold treeVariable at hl
  have hu : ("_" : String).toList = ['_'] := rfl
  simp only [String.toList_append, hu, List.append_assoc, List.cons_append, List.nil_append] at hl
  obtain ⟨h1, h2⟩ := split_underscore (h.names.node t ht).2 (h.names.node t' ht').2 hl
  have htt : t = t' := node_eq h ht ht' (String.toList_inj.1 h1)
  subst htt
  obtain ⟨h3, h4⟩ := split_underscore (h.names.component t ht _ hnc).2 (h.names.component t ht c hc).2 h2
  have hcc := component_eq hst hnc hc (String.toList_inj.1 h3)
  subst hcc
  have hpos : ∀ {dep : Bool} {m : Nat} {i : Option Int}, i ∈ indexList dep m → ∀ k, i = some k → 0 ≤ k := by
    intro dep m i hi k hk
    rw [mem_indexList] at hi
    subst hk
    cases dep with
    | false => simp at hi
    | true =>
      simp only [if_true] at hi
      obtain ⟨j, _, hj⟩ := hi
      cases hj
      exact Int.natCast_nonneg j
  have hT := indexSuffix_isSuffix 't' (decide ((subproblemCtx db t b).T > 1)) n.t (hpos hnt)
  have hS := indexSuffix_isSuffix 's' (decide ((subproblemCtx db t b).scenarios > 1)) n.s (hpos hns)
  obtain ⟨h5, -, -⟩ := suffixes_inj (h.names.variable_ t ht _ hnc _ hnv') (h.names.variable_ t ht _ hnc _ hv) hT (.inl rfl) hS
    (.inl rfl) (by simpa using h4)
  exact ⟨rfl, rfl, (variable_eq hst hnc hnv' hv h5).symm⟩

/-- Given the investments, the values that a subproblem accepts together with those of the master are the operations
that satisfy its part of the study. -/
theorem sub_node (h : root.Ok db) (ht : t ∈ root.nodes) {b : TimeBlock} (hst : StudyOk db t b) {st : OptState}
    (hb : (subproblemCtx db t b).buildProblem = .ok st) {inv : Investments} {val : String → ℚ} (ha : Agree inv t val) (q : ℚ) :
    (∃ w, (st.solver.Holds w ∧ ∀ name ∈ st.solver.vars.map (·.name), MasterName root name → w name = val name) ∧
      st.solver.costOf w = q) ↔
    ∃ σ, Follows inv t σ ∧ (subproblemCtx db t b).MathFeasible σ ∧ q = t.prob.toQ * (t.study db b).operationalCost σ := by
  classical
  have hs := h.strategic t ht
  set x := subproblemCtx db t b with hx
  have hnames := build_names hst.subNetwork hb
  have named : ∀ {w : String → ℚ} {σ : TermKey → ℚ}, (∀ n ∈ x.instances, w (x.instName n) = σ n.key) →
      (st.solver.Holds w ↔ x.MathFeasible σ) ∧ st.solver.costOf w = x.mathCost σ := fun hw =>
    build_named hst.subNetwork hst.subData hst.subVars hst.subConstraints hst.subObjectives hb hw
  -- an instance of a decision variable
  have hdec : ∀ n ∈ x.instances, n.var.IsDecision → n.t = none ∧ n.s = none := by
    intro n hn hd
    obtain ⟨hnc, hnv, hnt, hns⟩ := mem_instances.1 hn
    rw [hs.structure_ _ hnc _ (operVariables_mem hnv) hd] at hnt hns
    exact ⟨by simpa [indexList] using hnt, by simpa [indexList] using hns⟩
  have hdecName : ∀ n ∈ x.instances, n.var.IsDecision → x.instName n = treeVariable t.id n.comp.id n.var.name := by
    intro n hn hd
    obtain ⟨h1, h2⟩ := hdec n hn hd
    obtain ⟨hnc, -⟩ := mem_instances.1 hn
    rw [instName_eq _ n rfl (h.names.component t ht _ hnc).1, h1, h2, if_pos (show x.treeNode ≠ "" from (h.names.node t ht).1)]
    unfold treeVariable indexSuffix
    simp only [String.append_empty, String.append_assoc]
    rfl
  constructor
  · rintro ⟨w, ⟨hw, hagree⟩, rfl⟩
    let σ : TermKey → ℚ := fun k => if hk : ∃ n ∈ x.instances, n.key = k then w (x.instName hk.choose) else inv t.id k.component k.var
    have hσ : ∀ n ∈ x.instances, w (x.instName n) = σ n.key := by
      intro n hn
      have hk : ∃ n' ∈ x.instances, n'.key = n.key := ⟨n, hn, rfl⟩
      have he : hk.choose = n := List.inj_on_of_nodup_map (instances_nodup hst.subNetwork) hk.choose_spec.1 hn hk.choose_spec.2
      simp only [σ, dif_pos hk, he]
    obtain ⟨h1, h2⟩ := named hσ
    refine ⟨σ, fun c hc v hv hd => ?_, h1.1 hw, by rw [h2, sub_cost]⟩
    by_cases hk : ∃ n ∈ x.instances, n.key = (⟨c.id, v.name, none, none⟩ : TermKey)
    · obtain ⟨n, hn, hkey⟩ := hk
      rw [← hkey, ← hσ n hn]
      obtain ⟨hnc, hnv, -, -⟩ := mem_instances.1 hn
      have e1 : n.comp.id = c.id := congrArg TermKey.component hkey
      have e2 : n.var.name = v.name := congrArg TermKey.var hkey
      have e3 := component_eq hst hnc hc e1
      have e4 : n.var = v := variable_eq hst hc (by rw [← e3]; exact operVariables_mem hnv) hv e2
      have hd' : n.var.IsDecision := by rw [e4]; exact hd
      have hnm := hdecName n hn hd'
      rw [hagree _ (by rw [hnames]; exact List.mem_map.2 ⟨n, hn, rfl⟩) ⟨t, ht, c, hc, v, hv, hd, by rw [hnm, e1, e2]⟩, hnm, e1, e2,
        ha c hc v hv hd]
    · simp only [σ, dif_neg hk]
  · rintro ⟨σ, hf, hfeas, rfl⟩
    let w : String → ℚ := fun name => if hk : ∃ n ∈ x.instances, x.instName n = name then σ hk.choose.key else 0
    have hw : ∀ n ∈ x.instances, w (x.instName n) = σ n.key := by
      intro n hn
      have hk : ∃ n' ∈ x.instances, x.instName n' = x.instName n := ⟨n, hn, rfl⟩
      have he : hk.choose = n := sub_injective h ht hst hk.choose_spec.1 hn hk.choose_spec.2
      simp only [w, dif_pos hk, he]
    obtain ⟨h1, h2⟩ := named hw
    refine ⟨w, ⟨h1.2 hfeas, fun name hn hm => ?_⟩, by rw [h2, sub_cost]⟩
    rw [hnames] at hn
    obtain ⟨n, hi, rfl⟩ := List.mem_map.1 hn
    obtain ⟨t', ht', c, hc, v, hv, hd, he⟩ := hm
    obtain ⟨rfl, rfl, rfl⟩ := sub_name h ht hst hi ht' hc hv he
    obtain ⟨h3, h4⟩ := hdec n hi hd
    rw [hw n hi, he, ← ha _ hc _ hv hd, ← hf _ hc _ hv hd]
    unfold Inst.key
    rw [h3, h4]

/-- the cost of the investments is the same for all that follow them -/
theorem invested_eq (hs : t.network.Strategic) {b b' : TimeBlock} (hst : StudyOk db t b) {inv : Investments} {σ σ' : TermKey → ℚ}
    (hf : Follows inv t σ) (hf' : Follows inv t σ') : (t.study db b).investmentCost σ = (t.study db b').investmentCost σ' := by
  unfold OptCtx.investmentCost
  congr 1
  refine List.map_congr_left fun c hc => ?_
  unfold OptCtx.costIn
  cases ho : c.model.objectiveInvestment with
  | none => rfl
  | some e =>
    refine static_mden (x := t.study db b) (y := t.study db b') rfl rfl rfl hst.network hc
      (fun c v i s => σ ⟨c, v, i.map (· % ((t.study db b).T : Int)), s⟩) (fun c v i s => σ' ⟨c, v, i.map (· % ((t.study db b').T : Int)), s⟩)
      (fun n v hv hd => ?_) 0 0 0 0 e (hs.objective c hc e ho)
    have hm := Dict.mem_of_get? hv
    have hname := hst.network.vars c hc n v hm
    have hvv : v ∈ c.model.variables_.values := List.mem_map.2 ⟨_, hm, rfl⟩
    show σ ⟨c.id, n, none, none⟩ = σ' ⟨c.id, n, none, none⟩
    rw [← hname, hf c hc v hvv hd, hf' c hc v hvv hd]

theorem forall₂_zip {α β γ} {P : α → β → Prop} {Q : α → γ → Prop} {l : List α} {bs : List β} {cs : List γ}
    (h : List.Forall₂ P l bs) (h' : List.Forall₂ Q l cs) {S : β → γ → Prop} (hS : ∀ a b c, a ∈ l → P a b → Q a c → S b c) :
    List.Forall₂ S bs cs := by
  induction h generalizing cs with
  | nil => cases h'; exact .nil
  | cons h1 h2 ih =>
    cases h' with
    | cons h3 h4 => exact .cons (hS _ _ _ (by simp) h1 h3) (ih h4 fun a b c ha => hS a b c (by simp [ha]))

/-- What the problems of a node mean: with the investments, they give the contributions of the node to the expected cost. -/
theorem node_meaning (h : root.Ok db) (ht : t ∈ root.nodes) {size : Nat} {m : Problem} {subs : List Problem}
    (hb : buildNode db size t = .ok (m, subs)) {inv : Investments} {val : String → ℚ} (ha : Agree inv t val) (q : ℚ) :
    t.NodeCost db inv q ↔ m.state.solver.Holds val ∧ ∃ x, (∃ qs, List.Forall₂ (fun p x =>
        ∃ w, (p.state.solver.Holds w ∧ ∀ name ∈ p.names, MasterName root name → w name = val name) ∧ p.state.solver.costOf w = x) subs qs ∧
        x = qs.sum) ∧ q = m.state.solver.costOf val + x := by
  unfold buildNode at hb
  simp only [bind_ok_iff] at hb
  obtain ⟨st, hst, subs', hsubs, hb⟩ := hb
  cases hb
  rw [appendAll_ok_iff] at hsubs
  have hs := h.strategic t ht
  have hsub : List.Forall₂ (fun b p => StudyOk db t b ∧ ∃ st, (subproblemCtx db t b).buildProblem = .ok st ∧ p.state = st)
      t.config.blocks subs := by
    have h0 : List.Forall₂ (fun b b' => b = b' ∧ b ∈ t.config.blocks) t.config.blocks t.config.blocks := by
      rw [List.forall₂_same]
      exact fun b hb => ⟨rfl, hb⟩
    refine forall₂_zip h0 hsubs fun a b p _ hab hp => ?_
    obtain ⟨rfl, hb⟩ := hab
    unfold buildSubproblem at hp
    rw [bind_ok_iff] at hp
    obtain ⟨st', hst', hp⟩ := hp
    cases hp
    exact ⟨h.study t ht a hb, st', hst', rfl⟩
  -- the subproblems, given the investments
  have hequiv : ∀ x, (∃ qs, List.Forall₂ (fun p x =>
        ∃ w, (p.state.solver.Holds w ∧ ∀ name ∈ p.names, MasterName root name → w name = val name) ∧ p.state.solver.costOf w = x) subs qs ∧
        x = qs.sum) ↔ ∃ σs, List.Forall₂ (fun b σ => Follows inv t σ ∧ (subproblemCtx db t b).MathFeasible σ) t.config.blocks σs ∧
        x = t.prob.toQ * (List.zipWith (fun b σ => (t.study db b).operationalCost σ) t.config.blocks σs).sum := by
    intro x
    have e1 : (∃ σs, List.Forall₂ (fun b σ => Follows inv t σ ∧ (subproblemCtx db t b).MathFeasible σ) t.config.blocks σs ∧
        x = t.prob.toQ * (List.zipWith (fun b σ => (t.study db b).operationalCost σ) t.config.blocks σs).sum) ↔
        ∃ σs, List.Forall₂ (fun b σ => Follows inv t σ ∧ (subproblemCtx db t b).MathFeasible σ) t.config.blocks σs ∧
        x = (List.zipWith (fun b σ => t.prob.toQ * (t.study db b).operationalCost σ) t.config.blocks σs).sum := by
      refine exists_congr fun σs => and_congr_right fun _ => ?_
      have : (List.zipWith (fun b σ => t.prob.toQ * (t.study db b).operationalCost σ) t.config.blocks σs) =
          (List.zipWith (fun b σ => (t.study db b).operationalCost σ) t.config.blocks σs).map (t.prob.toQ * ·) := by
        rw [List.map_zipWith]
      rw [this, List.sum_map_mul_left, List.map_id']
    rw [e1, zip_costs]
    constructor
    · rintro ⟨qs, hqs, rfl⟩
      refine ⟨qs, ?_, rfl⟩
      have hflip : List.Forall₂ (fun p b => StudyOk db t b ∧ ∃ st, (subproblemCtx db t b).buildProblem = .ok st ∧ p.state = st)
        subs t.config.blocks := hsub.flip
      refine forall₂_zip hflip hqs fun p b y _ hp hy => ?_
      obtain ⟨hok, st', hst', hpst⟩ := hp
      have := (sub_node h ht hok hst' ha y).1 (by rw [← hpst]; exact hy)
      obtain ⟨σ, h1, h2, h3⟩ := this
      exact ⟨σ, ⟨h1, h2⟩, h3.symm⟩
    · rintro ⟨qs, hqs, rfl⟩
      refine ⟨qs, ?_, rfl⟩
      refine forall₂_zip hsub hqs fun b p y _ hp hy => ?_
      obtain ⟨hok, st', hst', hpst⟩ := hp
      obtain ⟨σ, ⟨h1, h2⟩, h3⟩ := hy
      have := (sub_node h ht hok hst' ha y).2 ⟨σ, h1, h2, h3.symm⟩
      rw [← hpst] at this
      exact this
  simp only [hequiv]
  clear hequiv
  obtain ⟨b0, hb0⟩ := Ok.someBlock h ht
  let σ0 : TermKey → ℚ := fun k => inv t.id k.component k.var
  have hσ0 : Follows inv t σ0 := fun c _ v _ _ => rfl
  obtain ⟨-, hcost⟩ := master_node h ht hst ha hσ0 hb0
  simp only [hcost]
  have hmas : ∀ b σ, StudyOk db t b → Follows inv t σ → (st.solver.Holds val ↔ (master1 db t).MathFeasible σ) :=
    fun b σ hok hf => (master_node h ht hst ha hf hok).1
  constructor
  · rintro ⟨invested, σs, hσs, rfl⟩
    have hall : List.Forall₂ (fun b σ => StudyOk db t b ∧ Follows inv t σ ∧ (t.study db b).MathFeasible σ ∧
        (t.study db b).investmentCost σ = invested) t.config.blocks σs := by
      have h0 : List.Forall₂ (fun b b' => b = b' ∧ b ∈ t.config.blocks) t.config.blocks t.config.blocks := by
        rw [List.forall₂_same]
        exact fun b hb => ⟨rfl, hb⟩
      refine forall₂_zip h0 hσs fun a b σ _ hab hp => ?_
      obtain ⟨rfl, hb⟩ := hab
      exact ⟨h.study t ht a hb, hp⟩
    obtain ⟨b1, σ1, hb1, hf1, hfe1, hi1⟩ : ∃ b σ, StudyOk db t b ∧ Follows inv t σ ∧ (t.study db b).MathFeasible σ ∧
        (t.study db b).investmentCost σ = invested := by
      have := h.blocks t ht
      generalize t.config.blocks = l at this hall
      cases hall with
      | nil => exact absurd rfl this
      | cons h1 _ => exact ⟨_, _, h1⟩
    refine ⟨(hmas b1 σ1 hb1 hf1).2 ((study_split hb1 hs σ1).1 hfe1).1, _, ⟨σs, hall.imp fun b σ hbσ => ?_, rfl⟩, ?_⟩
    · exact ⟨hbσ.2.1, ((study_split hbσ.1 hs σ).1 hbσ.2.2.1).2⟩
    · rw [← hi1, invested_eq hs hb1 hf1 hσ0 (b' := b0)]
      ring
  · rintro ⟨hholds, x, ⟨σs, hσs, rfl⟩, rfl⟩
    refine ⟨(t.study db b0).investmentCost σ0, σs, ?_, by ring⟩
    have h0 : List.Forall₂ (fun b b' => b = b' ∧ b ∈ t.config.blocks) t.config.blocks t.config.blocks := by
      rw [List.forall₂_same]
      exact fun b hb => ⟨rfl, hb⟩
    refine forall₂_zip h0 hσs fun a b σ _ hab hp => ?_
    obtain ⟨rfl, hb⟩ := hab
    have hok := h.study t ht a hb
    exact ⟨hp.1, (study_split hok hs σ).2 ⟨(hmas a σ hok hp.1).1 hholds, hp.2⟩, invested_eq hs hok hp.1 hσ0⟩

/-! ## The merged master -/

/-- the point of a problem that gives their values to the instances -/
theorem keyed_point {x : OptCtx} (hn : x.NetworkOk) {st : OptState} (h : x.buildProblem = .ok st) (σ : TermKey → ℚ) :
    ∃ pt : Nat → ℚ, ∀ k i, st.columns.get? k = some i → pt i = σ k := by
  obtain ⟨_, _, _, hcols⟩ := build_columns hn h
  refine ⟨fun i => match x.instances[i]? with | some n => σ n.key | none => 0, fun k i hk => ?_⟩
  obtain ⟨n, hi, rfl⟩ := (hcols k i).1 hk
  simp only [hi]

/-- the names of the rows of the master problem of a node -/
theorem master_rows (h : root.Ok db) (ht : t ∈ root.nodes) {st : OptState} (hb : (masterCtx db t).buildProblem = .ok st) :
    (st.solver.rows.map (·.name)).Nodup := by
  obtain ⟨b, hst⟩ := Ok.someBlock h ht
  have hs := h.strategic t ht
  rw [hst.masterBuild hs] at hb
  set x := master1 db t with hx
  obtain ⟨ports, st1, st2, hreg, h1, h2, h3⟩ := build_phases hb
  have hv := createVariables_inv h1
  have hr := createConstraints_inv hst.master1Network (hst.master1Constraints hs).exprs hreg hv.rows h2
  have hobj := createObjectives_inv (hr.objective.trans hv.objective) (hr.offset.trans hv.offset) h3
  rw [hobj.rows]
  have hnames : st2.solver.rows.map (·.name) = (rowList x ports).map fun d =>
      d.1.id ++ "_" ++ d.2.1.name ++ "_t" ++ toString d.2.2.1 ++ "_s" ++ toString d.2.2.2 := by
    have := hr.rows
    clear hobj h3
    generalize rowList x ports = l at this
    generalize st2.solver.rows = rs at this
    clear hr h2
    induction this with
    | nil => rfl
    | cons h _ ih => rw [List.map_cons, List.map_cons, ih, h.name]
  rw [hnames]
  have hidx : ∀ c k, (rowIndices x ports c k).length ≤ 1 ∧ ∀ i ∈ rowIndices x ports c k, i = (0, 0) := by
    intro c k
    unfold rowIndices
    split
    · simp
    · split
      · simp
      · next i _ =>
        have e1 : x.timeIndices i = [0] := by
          unfold OptCtx.timeIndices
          split <;> rfl
        have e2 : x.scenarioIndices i = [0] := by
          unfold OptCtx.scenarioIndices
          split <;> rfl
        rw [e1, e2]
        simp
  unfold rowList
  rw [List.map_flatMap, List.nodup_flatMap]
  have hkey : ∀ {c c' : Component} {k k' : String}, c ∈ t.network.allComponents → c' ∈ t.network.allComponents →
      c.id ++ "_" ++ k ++ "_t" ++ toString (0 : Int) ++ "_s" ++ toString (0 : Int) =
        c'.id ++ "_" ++ k' ++ "_t" ++ toString (0 : Int) ++ "_s" ++ toString (0 : Int) → c = c' ∧ k = k' := by
    intro c c' k k' hc hc' he
    have hl := congrArg String.toList he
    have hu : ("_" : String).toList = ['_'] := rfl
    simp only [String.toList_append, hu, List.append_assoc, List.cons_append, List.nil_append] at hl
    obtain ⟨h4, h5⟩ := split_underscore (h.names.component t ht c hc).2 (h.names.component t ht c' hc').2 hl
    exact ⟨component_eq hst hc hc' (String.toList_inj.1 h4), String.toList_inj.1 (List.append_cancel_right h5)⟩
  refine ⟨fun c hc => ?_, ?_⟩
  · rw [List.map_flatMap, List.nodup_flatMap]
    refine ⟨fun k hk => ?_, ?_⟩
    · obtain ⟨hlen, -⟩ := hidx c k
      rw [List.map_map]
      match hl : rowIndices x ports c k with
      | [] => simp
      | [a] => simp
      | a :: b :: l => rw [hl] at hlen; simp at hlen
    · have hk := h.names.constraint t ht c hc
      have hk' : ((x.strategy.getConstraints c.model).map (·.name)).Nodup := by
        have : x.strategy.getConstraints c.model = c.model.allConstraints.filter fun k => k.context ≠ .operational := by
          refine List.filter_congr fun k _ => ?_
          show investmentStrategy.keep k.context = _
          cases k.context <;> rfl
        rw [this]
        exact hk
      rw [List.Nodup, List.pairwise_map] at hk'
      refine hk'.imp fun {k k'} hne => ?_
      intro name hname hname'
      simp only [List.mem_map] at hname hname'
      obtain ⟨_, ⟨i, hi, rfl⟩, rfl⟩ := hname
      obtain ⟨_, ⟨i', hi', rfl⟩, he⟩ := hname'
      rw [(hidx c k).2 i hi, (hidx c k').2 i' hi'] at he
      exact hne (hkey hc hc he).2.symm
  · have hids := hst.network.ids
    rw [List.Nodup, List.pairwise_map] at hids
    have : t.network.allComponents.Pairwise fun c c' => c ∈ t.network.allComponents ∧ c' ∈ t.network.allComponents ∧ c.id ≠ c'.id :=
      List.Pairwise.imp_of_mem (fun hc hc' hne => ⟨hc, hc', hne⟩) hids
    refine List.Pairwise.imp (fun {c c'} hcc => ?_) this
    obtain ⟨hc, hc', hne⟩ := hcc
    intro name hname hname'
    simp only [List.mem_map, List.mem_flatMap] at hname hname'
    obtain ⟨_, ⟨k, _, i, hi, rfl⟩, rfl⟩ := hname
    obtain ⟨_, ⟨k', _, i', hi', rfl⟩, he⟩ := hname'
    rw [(hidx c k).2 i hi, (hidx c' k').2 i' hi'] at he
    exact hne (by rw [(hkey hc' hc he).1])

/-- a problem built for a node of the tree -/
def IsMasterOf (db : DataBase) (t : DTree) (m : Problem) : Prop :=
  (masterCtx db t).buildProblem = .ok m.state ∧ m.name = "master_" ++ t.id

theorem forall₂_nodup {α β γ} {P : α → β → Prop} {f : β → List γ} {l : List α} {bs : List β} (h : List.Forall₂ P l bs) (hl : l.Nodup)
    (h1 : ∀ a b, a ∈ l → P a b → (f b).Nodup) (h2 : ∀ a b a' b', a ∈ l → a' ∈ l → P a b → P a' b' → a ≠ a' → List.Disjoint (f b) (f b')) :
    (bs.flatMap f).Nodup := by
  induction h with
  | nil => simp
  | @cons a b l bs hab hrest ih =>
    rw [List.nodup_cons] at hl
    rw [List.flatMap_cons, List.nodup_append]
    refine ⟨h1 a b (by simp) hab, ih hl.2 (fun a b ha => h1 a b (by simp [ha]))
      (fun a b a' b' ha ha' => h2 a b a' b' (by simp [ha]) (by simp [ha'])), ?_⟩
    intro y hy z hz hyz
    subst hyz
    obtain ⟨b', hb', hzb⟩ := List.mem_flatMap.1 hz
    obtain ⟨a', ha', hab'⟩ := forall₂_mem_right hrest hb'
    exact h2 a b a' b' (by simp) (by simp [ha']) hab hab' (fun he => hl.1 (he ▸ ha')) hy hzb

/-- What the merge of the masters of all nodes means: it accepts the values that every master accepts and that satisfy
the rows of the coupler; its cost is the sum of theirs; its columns are theirs. -/
theorem merge_meaning (h : root.Ok db) (hm : root.MergeOk db) {ts : List DTree} (hts : ts.Perm root.nodes) (hlen : ts.length ≠ 1)
    {masters : List Problem} (hmas : List.Forall₂ (IsMasterOf db) ts masters) {coupler : Problem} (hok : coupler.Ok)
    (hreg : Registered coupler.state) (hcn : coupler.names.Nodup) (hint : ∀ w ∈ coupler.state.solver.vars, w.integer = false)
    (hobj : coupler.state.solver.objective = []) (hoff : coupler.state.solver.offset = 0)
    (hdec : ∀ name ∈ coupler.names, MasterName root name) {p : Problem} (hp : fusionProblems masters coupler = .ok p) :
    (∀ val, p.state.solver.Holds val ↔ (∀ m ∈ masters, m.state.solver.Holds val) ∧
      ∀ r ∈ coupler.state.solver.rows, r.Sat (coupler.state.solver.pointOf val)) ∧
    (∀ val, p.state.solver.costOf val = (masters.map fun m => m.state.solver.costOf val).sum) ∧
    ∀ name, name ∈ p.names ↔ MasterName root name := by
  have hmem : ∀ t ∈ ts, t ∈ root.nodes := fun t ht => hts.mem_iff.1 ht
  have hnodup : ts.Nodup := hts.nodup_iff.2 (List.Nodup.of_map _ h.names.distinct)
  -- the names of the masters
  have hmn : ∀ t m, t ∈ ts → IsMasterOf db t m → ∀ name, name ∈ m.names ↔ ∃ c ∈ t.network.allComponents,
      ∃ v ∈ c.model.variables_.values, v.IsDecision ∧ name = treeVariable t.id c.id v.name :=
    fun t m ht hm name => master_names h (hmem t ht) hm.1 name
  have hnames : ∀ name, name ∈ masters.flatMap Problem.names ↔ MasterName root name := by
    intro name
    constructor
    · intro hn
      obtain ⟨m, hm, hn⟩ := List.mem_flatMap.1 hn
      obtain ⟨t, ht, htm⟩ := forall₂_mem_right hmas hm
      obtain ⟨c, hc, v, hv, hd, he⟩ := (hmn t m ht htm name).1 hn
      exact ⟨t, hmem t ht, c, hc, v, hv, hd, he⟩
    · rintro ⟨t, ht, c, hc, v, hv, hd, he⟩
      obtain ⟨m, hm, htm⟩ := forall₂_mem_right hmas.flip (hts.mem_iff.2 ht)
      exact List.mem_flatMap.2 ⟨m, hm, (hmn t m (hts.mem_iff.2 ht) htm name).2 ⟨c, hc, v, hv, hd, he⟩⟩
  -- the instances of a master have different names
  have hinst : ∀ t ∈ root.nodes, ((master1 db t).instances.map (master1 db t).instName).Nodup := by
    intro t ht
    obtain ⟨b, hst⟩ := Ok.someBlock h ht
    have hs := h.strategic t ht
    have hkeys := instances_nodup hst.master1Network
    refine (List.nodup_map_iff_inj_on (List.Nodup.of_map _ hkeys)).2 fun n hn n' hn' he => ?_
    rw [masterName h ht hn, masterName h ht hn'] at he
    obtain ⟨hc, hv, hd, e1, e2⟩ := masterInstance hs hn
    obtain ⟨hc', hv', hd', e1', e2'⟩ := masterInstance hs hn'
    obtain ⟨-, h2, h3⟩ := c38_variables_distinct_partial (h.names.node t ht).2 (h.names.node t ht).2 (h.names.component t ht _ hc).2
      (h.names.component t ht _ hc').2 he
    refine List.inj_on_of_nodup_map hkeys hn hn' ?_
    unfold Inst.key
    rw [h2, h3, e1, e2, e1', e2']
  have hbuilt : ∀ t m, t ∈ ts → IsMasterOf db t m → (master1 db t).buildProblem = .ok m.state := by
    intro t m ht hm
    obtain ⟨b, hst⟩ := Ok.someBlock h (hmem t ht)
    rw [← hst.masterBuild (h.strategic t (hmem t ht))]
    exact hm.1
  have hmok : ∀ t m, t ∈ ts → IsMasterOf db t m → m.Ok := by
    intro t m ht hm
    obtain ⟨b, hst⟩ := Ok.someBlock h (hmem t ht)
    exact build_ok hst.master1Network (hinst t (hmem t ht)) (hbuilt t m ht hm) m.name
  have hmerge : Mergeable masters coupler := by
    refine ⟨fun m hm => ?_, hok, hreg, ?_, hcn, ?_, hobj⟩
    · obtain ⟨t, ht, htm⟩ := forall₂_mem_right hmas hm
      exact hmok t m ht htm
    · refine forall₂_nodup hmas hnodup (fun t m ht htm => ?_) fun t m t' m' ht ht' htm htm' hne name hn hn' => ?_
      · obtain ⟨b, hst⟩ := Ok.someBlock h (hmem t ht)
        unfold Problem.names
        rw [build_names hst.master1Network (hbuilt t m ht htm)]
        exact hinst t (hmem t ht)
      · obtain ⟨c, hc, v, hv, hd, he⟩ := (hmn t m ht htm name).1 hn
        obtain ⟨c', hc', v', hv', hd', he'⟩ := (hmn t' m' ht' htm' name).1 hn'
        rw [he] at he'
        have := (c38_variables_distinct_partial (h.names.node t (hmem t ht)).2 (h.names.node t' (hmem t' ht')).2
          (h.names.component t (hmem t ht) _ hc).2 (h.names.component t' (hmem t' ht') _ hc').2 he').1
        exact hne (node_eq h (hmem t ht) (hmem t' ht') this)
    · refine forall₂_nodup hmas hnodup (fun t m ht htm => ?_) fun t m t' m' ht ht' htm htm' hne name hn hn' => ?_
      · have := master_rows h (hmem t ht) htm.1
        have e : m.rowKeys = (m.state.solver.rows.map (·.name)).map fun s => m.name ++ "_" ++ s := by
          rw [List.map_map]
          rfl
        rw [e]
        refine List.Nodup.map (fun a b hab => ?_) this
        have hl := congrArg String.toList hab
        simp only [String.toList_append] at hl
        exact String.toList_inj.1 (List.append_cancel_left hl)
      · obtain ⟨r, _, rfl⟩ := List.mem_map.1 hn
        obtain ⟨r', _, he⟩ := List.mem_map.1 hn'
        rw [htm.2, htm'.2] at he
        have hl := congrArg String.toList he
        have hu : ("_" : String).toList = ['_'] := rfl
        simp only [String.toList_append, hu, List.append_assoc, List.cons_append, List.nil_append] at hl
        have := (split_underscore (h.names.node t' (hmem t' ht')).2 (h.names.node t (hmem t ht)).2 (List.append_cancel_left hl)).1
        exact hne (node_eq h (hmem t ht) (hmem t' ht') (String.toList_inj.1 this).symm)
  have hlen' : masters.length ≠ 1 := by rw [← hmas.length_eq]; exact hlen
  obtain ⟨p', hp', ⟨-, -, hpn⟩, hholds, hcost⟩ := c39_merged_partial masters coupler hmerge hlen'
  rw [hp] at hp'
  cases hp'
  refine ⟨fun val => ?_, fun val => ?_, fun name => ?_⟩
  · rw [hholds val]
    constructor
    · rintro ⟨h1, h2, h3, h4⟩
      refine ⟨fun m hmm => (holds_iff _ _).2 ⟨fun v hv => ⟨(h1 m hmm v hv).1, (h1 m hmm v hv).2, fun hi => ?_⟩, fun r hr => ?_⟩, h3⟩
      · exfalso
        obtain ⟨t, ht, htm⟩ := forall₂_mem_right hmas hmm
        obtain ⟨b, hst⟩ := Ok.someBlock h (hmem t ht)
        obtain ⟨_, _, hf, _⟩ := build_columns hst.master1Network (hbuilt t m ht htm)
        obtain ⟨n, hn, hvn⟩ := forall₂_mem_right hf hv
        obtain ⟨_, _, _, _, -, -, -, -, -, rfl⟩ := hvn.made
        obtain ⟨hc, hnv, hd, -⟩ := masterInstance (h.strategic t (hmem t ht)) hn
        rw [hm.continuous t (hmem t ht) _ hc _ hnv hd] at hi
        cases hi
      · by_cases hnt : r.Nontrivial m.state.solver
        · exact h2 m hmm r hr hnt
        · obtain ⟨t, ht, htm⟩ := forall₂_mem_right hmas hmm
          obtain ⟨b, hbm⟩ := List.exists_mem_of_ne_nil _ (h.blocks t (hmem t ht))
          have hst := h.study t (hmem t ht) b hbm
          have hs := h.strategic t (hmem t ht)
          obtain ⟨σ, hσ⟩ := hm.satisfiable t (hmem t ht) b hbm
          obtain ⟨pt, hpt⟩ := keyed_point hst.master1Network (hbuilt t m ht htm) σ
          have hsat := (c33_rows_partial _ hst.master1Network hst.master1Data (hst.master1Constraints hs) m.state (hbuilt t m ht htm) pt σ
            hpt).2 (fun c hc k hk i s _ _ => by
              obtain ⟨hk1, hk2⟩ := mem_investConstraints.1 hk
              exact (static_holds (x := t.study db b) (y := master1 db t) rfl rfl rfl hst.network hc σ 0 0 i s k
                (hs.constraints c hc k hk1 hk2)).1 (hσ c hc k hk1 hk2)) r hr
          obtain ⟨nd, hlt⟩ := (hmerge.ok m hmm).rows r hr
          unfold Row.Sat at hsat ⊢
          rw [trivial_row hnt nd hlt] at hsat ⊢
          exact hsat
    · rintro ⟨h1, h2⟩
      refine ⟨fun m hm v hv => ?_, fun m hm r hr _ => ((holds_iff _ _).1 (h1 m hm)).2 r hr, h2, fun w hw => ⟨fun hi => ?_, fun hn => ?_⟩⟩
      · have := ((holds_iff _ _).1 (h1 m hm)).1 v hv
        exact ⟨this.1, this.2.1⟩
      · rw [hint w hw] at hi
        cases hi
      · exact absurd ((hnames _).2 (hdec _ (List.mem_map.2 ⟨w, hw, rfl⟩))) hn
  · rw [hcost val, hoff, toQ_zero, zero_add]
    congr 1
    refine List.map_congr_left fun m hmm => ?_
    obtain ⟨t, ht, htm⟩ := forall₂_mem_right hmas hmm
    obtain ⟨b, hbm⟩ := List.exists_mem_of_ne_nil _ (h.blocks t (hmem t ht))
    have hst := h.study t (hmem t ht) b hbm
    have hs := h.strategic t (hmem t ht)
    obtain ⟨-, h2⟩ := build_named (val := fun _ => 0) (σ := fun _ => 0) hst.master1Network hst.master1Data (hst.master1Vars hs)
      (hst.master1Constraints hs) (hst.master1Objectives hs) (hbuilt t m ht htm) fun _ _ => rfl
    rw [master_cost hst hs, hm.noConstant t (hmem t ht) b hbm, mul_zero] at h2
    have hz : m.state.solver.offset.toQ = 0 := by
      unfold Solver.costOf Solver.cost at h2
      rw [← h2]
      have : linForm m.state.solver.objective (m.state.solver.pointOf fun _ => 0) = 0 := by
        obtain ⟨nd, hlt⟩ := (hmerge.ok m hmm).objective
        rw [linForm_columns _ nd _ hlt]
        have hpz : ∀ i, m.state.solver.pointOf (fun _ => 0) i = 0 := by
          intro i
          unfold Solver.pointOf
          split <;> rfl
        simp [hpz]
      rw [this, zero_add]
    rw [hz, sub_zero]
  · rw [hpn, hnames]
    exact ⟨fun hn => hn.elim (hdec name) id, .inr⟩

end

end Verif
