import Verif.Lemmas.Decomposition

/-!
# C64: the decomposition means the study on the decision tree

`Spec/Decomposition.lean` says what costs the study can obtain, from the tree alone, and what costs the decomposition can
obtain, from the problems alone.
-/

namespace Verif.Props
open Verif

/-- what the accepted declarations say of the investments -/
def Coupled (h : TreeHeap) (k : Nat) (ds : List (Nat × TreeHeap.CouplingArgs)) (inv : Investments) : Prop :=
  ∀ d ∈ acceptedOn h k ds, ∀ n, h.nodes[d.1]? = some n → InvestmentsCoupled (h.parentOf n) n d.2 inv

theorem buildBenders_inv {order : List String → List String} {info : CouplingInfo} {network : Network} {db : DataBase} {root : DTree}
    {b : Benders} (hb : buildBenders order info network db root = .ok b) :
    root.isLeavesProbSumOne = true ∧ ∃ cn coupler built, addCouplingConstraints order info network = .ok cn ∧
      (couplerCtx cn db).buildProblem = .ok coupler ∧
      List.Forall₂ (fun t r => buildNode db root.size t = .ok r) root.traverse built ∧
      fusionProblems (built.map Prod.fst) ⟨"coupler", coupler⟩ = .ok b.master ∧ b.subproblems = built.flatMap Prod.snd := by
  unfold buildBenders at hb
  split at hb
  · cases hb
  next hp =>
  simp only [bind_ok_iff] at hb
  obtain ⟨cn, h1, coupler, h2, built, h3, master, h4, h5⟩ := hb
  cases h5
  rw [appendAll_ok_iff] at h3
  exact ⟨by simpa using hp, cn, coupler, built, h1, h2, h3, h4, rfl⟩

/-- **C64**, probabilities: a decomposition is only built when, at every node, the probabilities of the branches add up to that
of the node; so the probabilities of the leaves add up to that of the root, up to the tolerance of the comparison at each
level. -/
theorem c64_probabilities (order : List String → List String) (info : CouplingInfo) (network : Network) (db : DataBase)
    (root : DTree) (hp : ProperProbs root) (b : Benders) (hb : buildBenders order info network db root = .ok b) :
    (1 - 1 / 10 ^ 9) ^ root.height * root.prob.toQ ≤ root.leafSum ∧ (1 - 1 / 10 ^ 9) ^ root.height * root.leafSum ≤ root.prob.toQ :=
  c37_accepted root hp (buildBenders_inv hb).1

theorem forall₂_and_mem {α β} {P : α → β → Prop} {l : List α} {bs : List β} (h : List.Forall₂ P l bs) :
    List.Forall₂ (fun a b => a ∈ l ∧ P a b) l bs := by
  induction h with
  | nil => exact .nil
  | cons h1 _ ih => exact .cons ⟨by simp, h1⟩ (ih.imp fun a b hab => ⟨by simp [hab.1], hab.2⟩)

theorem sum_pairs {α} {l : List α} {f : α → ℚ} {P : α → ℚ → Prop} {A : Prop} {Q : α → Prop} {q : ℚ} (hA : A ↔ ∀ a ∈ l, Q a) :
    (A ∧ ∃ x, (∃ xs, List.Forall₂ P l xs ∧ x = xs.sum) ∧ q = (l.map f).sum + x) ↔
    ∃ qs, List.Forall₂ (fun a y => Q a ∧ ∃ x, P a x ∧ y = f a + x) l qs ∧ q = qs.sum := by
  rw [hA]
  clear hA
  constructor
  · rintro ⟨hQ, x, ⟨xs, hxs, rfl⟩, rfl⟩
    induction hxs with
    | nil => exact ⟨[], .nil, by simp⟩
    | @cons a x l xs h1 _ ih =>
      obtain ⟨qs, hqs, hs⟩ := ih fun a ha => hQ a (by simp [ha])
      refine ⟨(f a + x) :: qs, .cons ⟨hQ a (by simp), x, h1, rfl⟩ hqs, ?_⟩
      simp only [List.map_cons, List.sum_cons]
      linarith
  · rintro ⟨qs, hqs, rfl⟩
    induction hqs with
    | nil => exact ⟨fun _ h => (by cases h), 0, ⟨[], .nil, rfl⟩, by simp⟩
    | @cons a y l ys h1 _ ih =>
      obtain ⟨hQ, x, hx, rfl⟩ := h1
      obtain ⟨hQs, x', ⟨xs, hxs, rfl⟩, hs⟩ := ih
      refine ⟨fun b hb => ?_, x + xs.sum, ⟨x :: xs, .cons hx hxs, by simp⟩, ?_⟩
      · rcases List.mem_cons.1 hb with rfl | hb
        · exact hQ
        · exact hQs b hb
      · rw [List.sum_cons, hs]
        simp only [List.map_cons, List.sum_cons]
        ring

/-- **C64**, the decomposition means the study on the tree.  Coupling constraints are declared, by any history of calls, on the
nodes of a tree; the decomposition of the tree is built.  Then the costs that the master and the subproblems can obtain
together, sharing the values of the columns of the same name, are exactly the expected costs that the study on the tree can
obtain: investments decided at each node and satisfying the accepted declarations, operations decided in each block of each
node, with the complete study of the node satisfied in each block.

Partial: the nodes' studies are well-formed (`DTree.Ok`), what is decided with the investments depends neither on time nor on
the scenario, and names cannot be confused; with several nodes the decision variables are continuous and the investment costs
have no constant (`DTree.MergeOk`), and the declarations are on decision variables of nodes of the tree; with one node there
are no declarations.  The theorems below show that the statement fails without these. -/
theorem c64_decomposition_partial (h : TreeHeap) (hi : ∀ info ∈ h.infos, IndexedKeys info)
    (ds : List (Nat × TreeHeap.CouplingArgs)) (k : Nat) (hk : h.infos[k]? = some {}) (order : List String → List String)
    (horder : ∀ l, (order l).Perm l) (info : CouplingInfo) (hinfo : (h.declareAll ds).infos[k]? = some info) (db : DataBase)
    (root : DTree) (hok : root.Ok db)
    (hin : ∀ d ∈ acceptedOn h k ds, ∀ n, h.nodes[d.1]? = some n → CoupledIn root (h.parentOf n) n d.2)
    (hcase : (root.nodes.length ≠ 1 ∧ root.MergeOk db) ∨ (root.nodes.length = 1 ∧ acceptedOn h k ds = []))
    (b : Benders) (hb : buildBenders order info { id := "_Coupler" } db root = .ok b) (q : ℚ) :
    b.Attains q ↔ root.Attains db (Coupled h k ds) q := by
  classical
  obtain ⟨-, cn, coupler, built, h1, h2, h3, h4, h5⟩ := buildBenders_inv hb
  obtain ⟨hrows, hcvars, hcnd, hint, hobj, hoff, hcok, hcreg⟩ := coupler_meaning h hi ds k hk order horder hok.finite hinfo h1 h2
  have hperm : root.traverse.Perm root.nodes := c48_traverse_all root
  have hmem : ∀ t ∈ root.traverse, t ∈ root.nodes := fun t ht => hperm.mem_iff.1 ht
  -- names of the coupler
  have hdecides : ∀ {t : DTree} {id c v : String}, t ∈ root.nodes → t.id = id → t.Decides c v → MasterName root (treeVariable id c v) := by
    rintro t id c v ht rfl ⟨kc, hkc, rfl, w, hw, rfl, hd⟩
    exact ⟨t, ht, kc, hkc, w, hw, hd, rfl⟩
  have hcn : ∀ name ∈ coupler.solver.vars.map (·.name), MasterName root name := by
    intro name hname
    obtain ⟨d, hd, hv⟩ := hcvars name hname
    unfold varsAt at hv
    cases hn : h.nodes[d.1]? with
    | none => rw [hn] at hv; simp at hv
    | some n =>
      rw [hn] at hv
      change name ∈ declVars (h.parentOf n) n d.2 at hv
      obtain ⟨hp, tc, htc, hid, hc1, hc2⟩ := hin d hd n hn
      cases hpar : h.parentOf n with
      | none =>
        rw [hpar] at hv
        have hv' : name = treeVariable n.id d.2.componentChd.id d.2.cumulativeChd ∨
            name = treeVariable n.id d.2.componentChd.id d.2.incrementalChd := by simpa [declVars] using hv
        rcases hv' with rfl | rfl
        · exact hdecides htc hid hc1
        · exact hdecides htc hid hc2
      | some p =>
        obtain ⟨tp, htp, hidp, hcp⟩ := hp p hpar
        rw [hpar] at hv
        have hv' : name = treeVariable p.id d.2.componentPar.id d.2.cumulativePar ∨
            name = treeVariable n.id d.2.componentChd.id d.2.cumulativeChd ∨
            name = treeVariable n.id d.2.componentChd.id d.2.incrementalChd := by simpa [declVars] using hv
        rcases hv' with rfl | rfl | rfl
        · exact hdecides htp hidp hcp
        · exact hdecides htc hid hc1
        · exact hdecides htc hid hc2
  -- the coupling, on names and on investments
  have hcoupled : ∀ inv val, (∀ t ∈ root.nodes, Agree inv t val) → (Coupled h k ds inv ↔
      ∀ d ∈ acceptedOn h k ds, ∀ n, h.nodes[d.1]? = some n → CouplingHolds (h.parentOf n) n d.2 val) := by
    intro inv val ha
    have hval : ∀ {t : DTree} {id c v : String}, t ∈ root.nodes → t.id = id → t.Decides c v → inv id c v = val (treeVariable id c v) := by
      rintro t id c v ht rfl ⟨kc, hkc, rfl, w, hw, rfl, hd⟩
      exact ha t ht kc hkc w hw hd
    refine forall₂_congr fun d hd => forall₂_congr fun n hn => ?_
    obtain ⟨hp, tc, htc, hid, hc1, hc2⟩ := hin d hd n hn
    unfold InvestmentsCoupled CouplingHolds
    rw [hval htc hid hc1, hval htc hid hc2]
    cases hpar : h.parentOf n with
    | none => exact Iff.rfl
    | some p =>
      obtain ⟨tp, htp, hidp, hcp⟩ := hp p hpar
      simp only [hval htp hidp hcp]
  -- the master
  have hmaster : (∀ val, b.master.state.solver.Holds val ↔ (∀ d ∈ acceptedOn h k ds, ∀ n, h.nodes[d.1]? = some n →
        CouplingHolds (h.parentOf n) n d.2 val) ∧ ∀ r ∈ built, r.1.state.solver.Holds val) ∧
      (∀ val, b.master.state.solver.costOf val = (built.map fun r => r.1.state.solver.costOf val).sum) ∧
      ∀ name, name ∈ b.master.names ↔ MasterName root name := by
    rcases hcase with ⟨hlen, hmerge⟩ | ⟨hlen, hacc⟩
    · have hsize : root.size > 1 := by
        have h0 : root.nodes ≠ [] := by cases root; simp [DTree.nodes]
        have := List.length_pos_of_ne_nil h0
        rw [size_eq_nodes]
        omega
      have hmas : List.Forall₂ (IsMasterOf db) root.traverse (built.map Prod.fst) := by
        rw [List.forall₂_map_right_iff]
        refine h3.imp fun t r htr => ?_
        unfold buildNode at htr
        simp only [bind_ok_iff] at htr
        obtain ⟨st, hst, subs, _, he⟩ := htr
        cases he
        refine ⟨hst, ?_⟩
        show "master" ++ suffixTree root.size t = _
        unfold suffixTree
        rw [if_pos hsize, ← String.append_assoc]
        rfl
      obtain ⟨m1, m2, m3⟩ := merge_meaning hok hmerge hperm (by rw [hperm.length_eq]; exact hlen) hmas (hcok "coupler") hcreg hcnd hint
        hobj hoff hcn h4
      refine ⟨fun val => ?_, fun val => ?_, m3⟩
      · rw [m1 val, hrows val, and_comm]
        simp only [List.mem_map, forall_exists_index, and_imp, forall_apply_eq_imp_iff₂]
      · rw [m2 val, List.map_map]
        rfl
    · have hl : built.length = 1 := by rw [← h3.length_eq, hperm.length_eq, hlen]
      obtain ⟨r, rfl⟩ := List.length_eq_one_iff.1 hl
      have hm : b.master = r.1 := by
        have : fusionProblems [r.1] ⟨"coupler", coupler⟩ = .ok b.master := h4
        exact (Except.ok.inj this).symm
      rw [hm]
      refine ⟨fun val => ?_, fun val => ?_, fun name => ?_⟩
      · rw [hacc]
        simp
      · simp
      · obtain ⟨t, ht, htr⟩ := forall₂_mem_right h3 (List.mem_singleton.2 rfl)
        unfold buildNode at htr
        simp only [bind_ok_iff] at htr
        obtain ⟨st, hst, subs, _, he⟩ := htr
        cases he
        show name ∈ st.solver.vars.map (·.name) ↔ _
        rw [master_names hok (hmem t ht) hst name]
        constructor
        · rintro ⟨c, hc⟩
          exact ⟨t, hmem t ht, c, hc⟩
        · rintro ⟨t', ht', hc⟩
          have : t' = t := by
            obtain ⟨t0, ht0⟩ := List.length_eq_one_iff.1 hlen
            have e1 := hmem t ht
            rw [ht0, List.mem_singleton] at ht' e1
            rw [ht', e1]
          rw [← this]
          exact hc
  obtain ⟨m1, m2, m3⟩ := hmaster
  -- the decomposition, node by node
  have hdecomp : b.Attains q ↔ ∃ val, (∀ d ∈ acceptedOn h k ds, ∀ n, h.nodes[d.1]? = some n → CouplingHolds (h.parentOf n) n d.2 val) ∧
      ∃ qs, List.Forall₂ (fun (r : Problem × List Problem) y => r.1.state.solver.Holds val ∧ ∃ x, (∃ qs, List.Forall₂ (fun p x =>
        ∃ w, (p.state.solver.Holds w ∧ ∀ name ∈ p.names, MasterName root name → w name = val name) ∧ p.state.solver.costOf w = x) r.2 qs ∧
        x = qs.sum) ∧ y = r.1.state.solver.costOf val + x) built qs ∧ q = qs.sum := by
    unfold Benders.Attains
    refine exists_congr fun val => ?_
    rw [← sum_pairs (A := ∀ r ∈ built, r.1.state.solver.Holds val) Iff.rfl, ← and_assoc, ← m1 val]
    rw [← m2 val]
    have hx : ∀ x, (∃ xs, List.Forall₂ (fun (r : Problem × List Problem) x => ∃ qs, List.Forall₂ (fun p x =>
        ∃ w, (p.state.solver.Holds w ∧ ∀ name ∈ p.names, MasterName root name → w name = val name) ∧ p.state.solver.costOf w = x) r.2 qs ∧
        x = qs.sum) built xs ∧ x = xs.sum) ↔ ∃ vals, List.Forall₂ (fun (p : Problem) w => p.state.solver.Holds w ∧
          ∀ name ∈ p.names, MasterName root name → w name = val name) b.subproblems vals ∧
        x = (List.zipWith (fun p w => p.state.solver.costOf w) b.subproblems vals).sum := by
      intro x
      rw [zip_costs, h5, flatMap_costs]
    simp only [hx]
    constructor
    · rintro ⟨vals, hh, hv, hq⟩
      exact ⟨hh, _, ⟨vals, hv.imp fun p w hw => ⟨hw.1, fun name hn hm => hw.2 name hn ((m3 name).2 hm)⟩, rfl⟩, hq⟩
    · rintro ⟨hh, x, ⟨vals, hv, rfl⟩, hq⟩
      exact ⟨vals, hh, hv.imp fun p w hw => ⟨hw.1, fun name hn hm => hw.2 name hn ((m3 name).1 hm)⟩, hq⟩
  rw [hdecomp]
  have hnodes : ∀ inv val, (∀ t ∈ root.nodes, Agree inv t val) →
      ((∃ qs, List.Forall₂ (fun (r : Problem × List Problem) y => r.1.state.solver.Holds val ∧ ∃ x, (∃ qs, List.Forall₂ (fun p x =>
        ∃ w, (p.state.solver.Holds w ∧ ∀ name ∈ p.names, MasterName root name → w name = val name) ∧ p.state.solver.costOf w = x) r.2 qs ∧
        x = qs.sum) ∧ y = r.1.state.solver.costOf val + x) built qs ∧ q = qs.sum) ↔
      ∃ costs, List.Forall₂ (fun t cost => t.NodeCost db inv cost) root.nodes costs ∧ q = costs.sum) := by
    intro inv val ha
    rw [← perm_costs hperm]
    refine exists_congr fun qs => and_congr_left fun _ => ?_
    constructor
    · intro hq
      refine forall₂_zip (forall₂_and_mem h3).flip hq fun r t y _ htr hy => ?_
      exact (node_meaning hok (hmem t htr.1) htr.2 (ha t (hmem t htr.1)) y).2 hy
    · intro hq
      refine forall₂_zip (forall₂_and_mem h3) hq fun t r y _ htr hy => ?_
      exact (node_meaning hok (hmem t htr.1) htr.2 (ha t (hmem t htr.1)) y).1 hy
  constructor
  · rintro ⟨val, hc, hq⟩
    let inv : Investments := fun n c v => val (treeVariable n c v)
    have ha : ∀ t ∈ root.nodes, Agree inv t val := fun t _ c _ v _ _ => rfl
    obtain ⟨costs, h6, h7⟩ := (hnodes inv val ha).1 hq
    exact ⟨inv, costs, (hcoupled inv val ha).2 hc, h6, h7⟩
  · rintro ⟨inv, costs, hc, h6, h7⟩
    let val : String → ℚ := fun name =>
      if hn : ∃ z : DTree × Component × Variable, z.1 ∈ root.nodes ∧ z.2.1 ∈ z.1.network.allComponents ∧
        treeVariable z.1.id z.2.1.id z.2.2.name = name then inv hn.choose.1.id hn.choose.2.1.id hn.choose.2.2.name else 0
    have ha : ∀ t ∈ root.nodes, Agree inv t val := by
      intro t ht c hc v hv hd
      have hn : ∃ z : DTree × Component × Variable, z.1 ∈ root.nodes ∧ z.2.1 ∈ z.1.network.allComponents ∧
        treeVariable z.1.id z.2.1.id z.2.2.name = treeVariable t.id c.id v.name := ⟨(t, c, v), ht, hc, rfl⟩
      obtain ⟨e1, e2, e3⟩ := hn.choose_spec
      obtain ⟨f1, f2, f3⟩ := c38_variables_distinct_partial (hok.names.node _ e1).2 (hok.names.node t ht).2
        (hok.names.component _ e1 _ e2).2 (hok.names.component t ht c hc).2 e3
      simp only [val, dif_pos hn, f1, f2, f3]
    exact ⟨val, (hcoupled inv val ha).1 hc, (hnodes inv val ha).2 ⟨costs, h6, h7⟩⟩

/-- **C64**, optimum: the decomposition and the study on the tree have the same minimal cost, if any. -/
theorem c64_optimum_partial (h : TreeHeap) (hi : ∀ info ∈ h.infos, IndexedKeys info)
    (ds : List (Nat × TreeHeap.CouplingArgs)) (k : Nat) (hk : h.infos[k]? = some {}) (order : List String → List String)
    (horder : ∀ l, (order l).Perm l) (info : CouplingInfo) (hinfo : (h.declareAll ds).infos[k]? = some info) (db : DataBase)
    (root : DTree) (hok : root.Ok db)
    (hin : ∀ d ∈ acceptedOn h k ds, ∀ n, h.nodes[d.1]? = some n → CoupledIn root (h.parentOf n) n d.2)
    (hcase : (root.nodes.length ≠ 1 ∧ root.MergeOk db) ∨ (root.nodes.length = 1 ∧ acceptedOn h k ds = []))
    (b : Benders) (hb : buildBenders order info { id := "_Coupler" } db root = .ok b) (q : ℚ) :
    IsLeast {q | b.Attains q} q ↔ IsLeast {q | root.Attains db (Coupled h k ds) q} q := by
  have : {q | b.Attains q} = {q | root.Attains db (Coupled h k ds) q} :=
    Set.ext fun q => c64_decomposition_partial h hi ds k hk order horder info hinfo db root hok hin hcase b hb q
  rw [this]

end Verif.Props
