import Verif.Props.Decomposition
import Verif.Lemmas.ExprCheck

/-! A tree that satisfies the hypotheses of C64, and witnesses of the deviations. -/

namespace Verif.Props
open Verif Verif.Expr Verif.OptCtx

/-! ## A root and two branches -/

/-- A generator: its capacity `cumul`, of which `delta`, at most 50, is added at the node, limits the generation, which
covers a demand given hour by hour. -/
def investModel : Model :=
  { id := "INVEST"
    parameters := [("demand", ⟨"demand", .continuous, ⟨true, false⟩⟩)]
    variables_ :=
      [("cumul", ⟨"cumul", .continuous, some (.lit 0), none, ⟨false, false⟩, .coupling⟩),
       ("delta", ⟨"delta", .continuous, some (.lit 0), none, ⟨false, false⟩, .investment⟩),
       ("g", ⟨"g", .continuous, some (.lit 0), none, ⟨true, false⟩, .operational⟩)]
    constraints :=
      [("max", { name := "max", expression := .add [.var "g", .neg (.var "cumul")], upperBound := .lit 0 }),
       ("demand", { name := "demand", expression := .var "g", lowerBound := .par "demand" }),
       ("step", { name := "step", expression := .var "delta", upperBound := .lit 50, context := .investment })]
    objectiveOperational := some (.allsum (.mul (.lit 4) (.var "g")))
    objectiveInvestment := some (.mul (.lit 100) (.var "delta")) }

def investG : Component := ⟨investModel, "G"⟩
def investNet : Network := { id := "n", components := [("G", investG)] }
def investDb : DataBase := [(("G", "demand"), .timeSeries [(0, 6), (1, 8), (2, 5), (3, 9)])]

def investHeap : TreeHeap := (({} : TreeHeap).createAll
  [{ id := "2020", config := ⟨[⟨0, [0, 1]⟩], 1⟩, network := investNet },
   { id := "2030a", config := ⟨[⟨0, [0, 1]⟩, ⟨1, [2, 3]⟩], 1⟩, network := investNet, parent := some 0, prob := .fin (1 / 4) },
   { id := "2030b", config := ⟨[⟨0, [2, 3]⟩], 2⟩, network := investNet, parent := some 0, prob := .fin (3 / 4) }]).1

def investA : DTree := .node "2030a" ⟨[⟨0, [0, 1]⟩, ⟨1, [2, 3]⟩], 1⟩ investNet (.fin (1 / 4)) []
def investB : DTree := .node "2030b" ⟨[⟨0, [2, 3]⟩], 2⟩ investNet (.fin (3 / 4)) []
def investTree : DTree := .node "2020" ⟨[⟨0, [0, 1]⟩], 1⟩ investNet (.fin 1) [investA, investB]

def investArgs : TreeHeap.CouplingArgs :=
  { componentPar := investG, cumulativePar := "cumul", componentChd := investG, cumulativeChd := "cumul", incrementalChd := "delta" }

/-- a declaration on each node, and one that is refused -/
def investHistory : List (Nat × TreeHeap.CouplingArgs) :=
  [(0, investArgs), (1, investArgs), (1, { investArgs with cumulativePar := "unknown" }), (2, investArgs)]

theorem invest_comps {c : Component} (hc : c ∈ investNet.allComponents) : c = investG := by
  simpa [investNet, Network.allComponents, Dict.values] using hc

theorem invest_study (id : String) (n : Nat) (hn : 0 < n) (bs : List TimeBlock) (k : ℤ) (cs : List DTree) (i : Int) (t0 t1 : Int) :
    StudyOk investDb (.node id ⟨bs, n⟩ investNet (.fin (k / 4)) cs) ⟨i, [t0, t1]⟩ := by
  set x := (DTree.node id ⟨bs, n⟩ investNet (.fin (k / 4)) cs).study investDb ⟨i, [t0, t1]⟩ with hx
  have hdb : ∀ {c n d}, investDb.get? (c, n) = some d → c = "G" ∧ n = "demand" ∧ d = .timeSeries [(0, 6), (1, 8), (2, 5), (3, 9)] := by
    intro c n d h
    simp only [investDb, Dict.get?] at h
    split_ifs at h with h1
    cases h1; cases h; simp
  have hcon : ∀ {c k}, c ∈ investNet.allComponents → k ∈ mergedStrategy.getConstraints c.model →
      c = investG ∧ (k = { name := "max", expression := .add [.var "g", .neg (.var "cumul")], upperBound := .lit 0 } ∨
       k = { name := "demand", expression := .var "g", lowerBound := .par "demand" } ∨
       k = { name := "step", expression := .var "delta", upperBound := .lit 50, context := .investment }) := by
    intro c k hc hk
    have := invest_comps hc
    subst this
    refine ⟨rfl, ?_⟩
    simpa [Strategy.getConstraints, Model.allConstraints, investG, investModel, Dict.values, mergedStrategy] using hk
  have hvar : ∀ {c v}, c ∈ investNet.allComponents → v ∈ mergedStrategy.getVariables c.model →
      c = investG ∧ (v = ⟨"cumul", .continuous, some (.lit 0), none, ⟨false, false⟩, .coupling⟩ ∨
       v = ⟨"delta", .continuous, some (.lit 0), none, ⟨false, false⟩, .investment⟩ ∨
       v = ⟨"g", .continuous, some (.lit 0), none, ⟨true, false⟩, .operational⟩) := by
    intro c v hc hv
    have := invest_comps hc
    subst this
    refine ⟨rfl, ?_⟩
    simpa [Strategy.getVariables, investG, investModel, Dict.values, mergedStrategy] using hv
  refine ⟨⟨show (investNet.allComponents.map (·.id)).Nodup by decide, ?_, ?_, ?_, ?_, ?_⟩, ⟨rfl, by simp [DTree.study], ?_, ?_, ?_⟩, ⟨?_, ?_⟩, ⟨hn, ?_, ?_, ?_⟩, ⟨?_, ?_⟩⟩
  · intro k c h
    have h : (k, c) ∈ investNet.nodes ∨ (k, c) ∈ investNet.components := h
    simp only [investNet, List.not_mem_nil, List.mem_singleton, Prod.mk.injEq, false_or] at h
    rw [h.1, h.2]
    rfl
  · intro c hc n v h
    obtain rfl := invest_comps hc
    simp only [investG, investModel, List.mem_cons, Prod.mk.injEq, List.not_mem_nil, or_false] at h
    rcases h with ⟨rfl, rfl⟩ | ⟨rfl, rfl⟩ | ⟨rfl, rfl⟩ <;> rfl
  · intro c hc
    obtain rfl := invest_comps hc
    decide
  · intro c hc; cases hc
  · intro c hc; cases hc
  · intro c n d h t s v hv
    obtain ⟨rfl, rfl, rfl⟩ := hdb h
    unfold Data.getValue at hv
    cases t with
    | none => cases hv
    | some t =>
      simp only [Dict.get, Dict.get?] at hv
      split_ifs at hv <;> cases hv <;> rfl
  · intro c n k p d hc hp h hd
    obtain ⟨rfl, rfl, rfl⟩ := hdb h
    cases hc; cases hp; rfl
  · intro c n k p d hc hp h hd
    obtain ⟨rfl, rfl, rfl⟩ := hdb h
    cases hd
  · intro c hc v hv b hb
    obtain ⟨rfl, rfl | rfl | rfl⟩ := hvar hc hv <;>
    · simp only [Option.some.injEq, reduceCtorEq, or_false] at hb
      subst hb
      exact .inr (exprOk_of rfl)
  · intro c hc v hv hty
    obtain ⟨rfl, rfl | rfl | rfl⟩ := hvar hc hv <;> cases hty
  · intro c hc k hk
    obtain ⟨rfl, rfl | rfl | rfl⟩ := hcon hc hk
    · exact ⟨exprOk_of rfl, .inl (.inr rfl), .inr (exprOk_of rfl)⟩
    · exact ⟨exprOk_of rfl, .inr (exprOk_of rfl), .inl (.inl rfl)⟩
    · exact ⟨exprOk_of rfl, .inl (.inr rfl), .inr (exprOk_of rfl)⟩
  · intro c hc k hk t s ht hs
    obtain ⟨rfl, rfl | rfl | rfl⟩ := hcon hc hk
    · refine noTiny_of_int 0 [(⟨"G", "g", some t, none⟩, 1), (⟨"G", "cumul", none, none⟩, -1)] fun var => ?_
      show var "G" "g" (some t) none + (-(var "G" "cumul" none none) + 0) = _
      simp
    · refine noTiny_of_int 0 [(⟨"G", "g", some t, none⟩, 1)] fun var => ?_
      show var "G" "g" (some t) none = _
      simp
    · refine noTiny_of_int 0 [(⟨"G", "delta", none, none⟩, 1)] fun var => ?_
      show var "G" "delta" none none = _
      simp
  · intro ports hp c hc k hk
    cases hp
    obtain ⟨rfl, rfl | rfl | rfl⟩ := hcon hc hk
    · refine ⟨fun e i he hi h b hb σ t t' s => ?_, fun e i he hi h b hb σ t t' s => ?_⟩ <;> (rcases hb with rfl | rfl <;> rfl)
    · refine ⟨fun e i he hi h => ?_, fun e i he hi h b hb σ t t' s => ?_⟩
      · cases he; cases hi; cases h
      · rcases hb with rfl | rfl <;> rfl
    · refine ⟨fun e i he hi h b hb σ t t' s => ?_, fun e i he hi h b hb σ t t' s => ?_⟩ <;> (rcases hb with rfl | rfl <;> rfl)
  · intro c hc e he
    obtain rfl := invest_comps hc
    have he' : e ∈ [Expr.mul (.lit (.fin (k / 4))) (.allsum (.mul (.lit 4) (.var "g"))), Expr.mul (.lit (.fin (k / 4))) (.mul (.lit 100) (.var "delta"))] := he
    simp only [List.mem_cons, List.not_mem_nil, or_false] at he'
    rcases he' with rfl | rfl
    · refine ⟨exprOk_of rfl, noTiny_of_int 0 [(⟨"G", "g", some 0, none⟩, k), (⟨"G", "g", some 1, none⟩, k)] fun var => ?_⟩
      show ((k : ℚ) / 4) * ∑ u ∈ Finset.range 2, (4 : ℚ) * var "G" "g" (some (u : Int)) none = _
      rw [Finset.sum_range_succ, Finset.sum_range_one]
      simp
      ring
    · refine ⟨exprOk_of rfl, noTiny_of_int 0 [(⟨"G", "delta", none, none⟩, 25 * k)] fun var => ?_⟩
      show ((k : ℚ) / 4) * ((100 : ℚ) * var "G" "delta" none none) = _
      simp
      ring
  · intro c hc e he
    obtain rfl := invest_comps hc
    have he' : e ∈ [Expr.mul (.lit (.fin (k / 4))) (.allsum (.mul (.lit 4) (.var "g"))), Expr.mul (.lit (.fin (k / 4))) (.mul (.lit 100) (.var "delta"))] := he
    simp only [List.mem_cons, List.not_mem_nil, or_false] at he'
    rcases he' with rfl | rfl <;> rfl

theorem invest_nodes : investTree.nodes = [investTree, investA, investB] := rfl

theorem invest_cases {P : DTree → Prop} (h0 : P investTree) (h1 : P investA) (h2 : P investB) : ∀ t ∈ investTree.nodes, P t := by
  intro t ht
  rw [invest_nodes] at ht
  simp only [List.mem_cons, List.not_mem_nil, or_false] at ht
  rcases ht with rfl | rfl | rfl <;> assumption

theorem not_endsWithIndex {s : String} (h : '_' ∉ s.toList) : ¬ EndsWithIndex s := by
  rintro ⟨p, c, ds, he, -⟩
  rw [he] at h
  simp at h

theorem invest_strategic : investNet.Strategic := by
  have hlit : ∀ q : Num, investG.Static (.lit q) := by
    intro q
    refine ⟨fun y hy => ?_, fun n hn => ?_, fun n hn => ?_⟩ <;> simp only [subs, List.mem_singleton] at *
    · subst hy; rfl
    · cases hn
    · cases hn
  have hdelta : ∃ v, investG.model.variables_.get? "delta" = some v ∧ v.structure_ = ⟨false, false⟩ ∧ v.IsDecision :=
    ⟨_, rfl, rfl, by simp [Variable.IsDecision]⟩
  refine ⟨?_, ?_, ?_, ?_⟩
  · intro c hc v hv hd
    obtain rfl := invest_comps hc
    simp only [investG, investModel, Dict.values, List.map_cons, List.map_nil, List.mem_cons, List.not_mem_nil, or_false] at hv
    rcases hv with rfl | rfl | rfl
    · rfl
    · rfl
    · exact absurd rfl hd
  · intro c hc v hv hd b hb
    obtain rfl := invest_comps hc
    simp only [investG, investModel, Dict.values, List.map_cons, List.map_nil, List.mem_cons, List.not_mem_nil, or_false] at hv
    rcases hv with rfl | rfl | rfl <;>
    · simp only [Option.some.injEq, reduceCtorEq, or_false] at hb
      subst hb
      exact hlit 0
  · intro c hc k hk hctx
    obtain rfl := invest_comps hc
    simp only [investG, investModel, Model.allConstraints, Dict.values, List.map_cons, List.map_nil, List.nil_append, List.append_nil, List.mem_cons, List.not_mem_nil, or_false] at hk
    rcases hk with rfl | rfl | rfl
    · exact absurd rfl hctx
    · exact absurd rfl hctx
    · refine ⟨⟨fun y hy => ?_, fun n hn => ?_, fun n hn => ?_⟩, hlit _, hlit _⟩
      · simp only [subs, List.mem_singleton] at hy
        subst hy; rfl
      · simp only [subs, List.mem_singleton, Expr.var.injEq] at hn
        subst hn; exact hdelta
      · simp only [subs, List.mem_singleton] at hn
        cases hn
  · intro c hc e he
    obtain rfl := invest_comps hc
    cases he
    refine ⟨fun y hy => ?_, fun n hn => ?_, fun n hn => ?_⟩
    · simp only [subs, List.mem_cons, List.mem_append, List.cons_append, List.nil_append, List.not_mem_nil, or_false] at hy
      rcases hy with rfl | rfl | rfl <;> rfl
    · simp only [subs, List.mem_cons, List.mem_append, List.cons_append, List.nil_append, List.not_mem_nil, or_false, Expr.var.injEq, reduceCtorEq, false_or] at hn
      subst hn; exact hdelta
    · simp [subs] at hn

theorem invest_ok : investTree.Ok investDb := by
  have hnet : ∀ t ∈ investTree.nodes, t.network = investNet := invest_cases rfl rfl rfl
  refine ⟨⟨by decide, ?_, ?_, ?_, ?_⟩, ?_, ?_, ?_, ?_⟩
  · exact invest_cases (by decide) (by decide) (by decide)
  · intro t ht c hc
    rw [hnet t ht] at hc
    obtain rfl := invest_comps hc
    decide
  · intro t ht c hc v hv
    rw [hnet t ht] at hc
    obtain rfl := invest_comps hc
    simp only [investG, investModel, Dict.values, List.map_cons, List.map_nil, List.mem_cons, List.not_mem_nil, or_false] at hv
    rcases hv with rfl | rfl | rfl <;> exact not_endsWithIndex (by decide)
  · intro t ht c hc
    rw [hnet t ht] at hc
    obtain rfl := invest_comps hc
    decide
  · exact invest_cases (by decide) (by decide) (by decide)
  · intro t ht
    rw [hnet t ht]
    exact invest_strategic
  · refine invest_cases ?_ ?_ ?_
    · intro b hb
      simp only [investTree, DTree.config, List.mem_cons, List.not_mem_nil, or_false] at hb
      subst hb
      have := invest_study "2020" 1 Nat.one_pos [⟨0, [0, 1]⟩] 4 [investA, investB] 0 0 1
      norm_num at this
      exact this
    · intro b hb
      have h4 := fun i t0 t1 => invest_study "2030a" 1 Nat.one_pos [⟨0, [0, 1]⟩, ⟨1, [2, 3]⟩] 1 [] i t0 t1
      simp only [Int.cast_one] at h4
      simp only [investA, DTree.config, List.mem_cons, List.not_mem_nil, or_false] at hb
      rcases hb with rfl | rfl
      · exact h4 0 0 1
      · exact h4 1 2 3
    · intro b hb
      simp only [investB, DTree.config, List.mem_cons, List.not_mem_nil, or_false] at hb
      subst hb
      have := invest_study "2030b" 2 Nat.two_pos [⟨0, [2, 3]⟩] 3 [] 0 2 3
      norm_num at this
      exact this
  · exact (invest_study "" 1 Nat.one_pos [] 4 [] 0 0 1).data.finite

theorem invest_mergeOk : investTree.MergeOk investDb := by
  have hnet : ∀ t ∈ investTree.nodes, t.network = investNet := invest_cases rfl rfl rfl
  refine ⟨?_, ?_, ?_⟩
  · intro t ht c hc v hv _
    rw [hnet t ht] at hc
    obtain rfl := invest_comps hc
    simp only [investG, investModel, Dict.values, List.map_cons, List.map_nil, List.mem_cons, List.not_mem_nil, or_false] at hv
    rcases hv with rfl | rfl | rfl <;> rfl
  · refine invest_cases ?_ ?_ ?_ <;>
    · intro b _
      show (((100 : ℚ) * 0) + 0) = 0
      norm_num
  · intro t ht b _
    refine ⟨fun _ => 0, fun c hc k hk hctx => ?_⟩
    rw [hnet t ht] at hc
    obtain rfl := invest_comps hc
    simp only [investG, investModel, Model.allConstraints, Dict.values, List.map_cons, List.map_nil, List.nil_append, List.append_nil, List.mem_cons, List.not_mem_nil, or_false] at hk
    rcases hk with rfl | rfl | rfl
    · exact absurd rfl hctx
    · exact absurd rfl hctx
    · exact ⟨trivial, show (0 : ℚ) ≤ 50 by norm_num⟩

theorem invest_heap : investHeap.nodes.map (fun n => (n.id, n.parent)) = [("2020", none), ("2030a", some 0), ("2030b", some 0)] := by
  decide +kernel

theorem invest_coupled (d : Nat × TreeHeap.CouplingArgs) (hd : d ∈ acceptedOn investHeap 0 investHistory) (n : TNode)
    (hn : investHeap.nodes[d.1]? = some n) : CoupledIn investTree (investHeap.parentOf n) n d.2 := by
  have hacc : AcceptedOn investHeap 0 d ∧ d ∈ investHistory := by
    unfold acceptedOn at hd
    rw [List.mem_filter] at hd
    exact ⟨by simpa using hd.2, hd.1⟩
  have hdecides : ∀ t ∈ investTree.nodes, t.Decides "G" "cumul" ∧ t.Decides "G" "delta" := by
    refine invest_cases ?_ ?_ ?_ <;>
    exact ⟨⟨investG, by simp [DTree.network, investTree, investA, investB, investNet, Network.allComponents, Dict.values], rfl,
        _, List.mem_cons_self, rfl, by simp [Variable.IsDecision]⟩,
      ⟨investG, by simp [DTree.network, investTree, investA, investB, investNet, Network.allComponents, Dict.values], rfl,
        _, List.mem_cons_of_mem _ List.mem_cons_self, rfl, by simp [Variable.IsDecision]⟩⟩
  have hid : ∀ (i : Nat) (m : TNode), investHeap.nodes[i]? = some m → ∃ t ∈ investTree.nodes, t.id = m.id := by
    intro i m hm
    have := congrArg (·[i]?) invest_heap
    simp only [List.getElem?_map, hm, Option.map_some] at this
    match i with
    | 0 => simp at this; exact ⟨investTree, by simp [invest_nodes], this.1.symm⟩
    | 1 => simp at this; exact ⟨investA, by simp [invest_nodes], this.1.symm⟩
    | 2 => simp at this; exact ⟨investB, by simp [invest_nodes], this.1.symm⟩
    | i + 3 => simp at this
  have hargs : d.2 = investArgs := by
    obtain ⟨⟨⟨h', hh⟩, -⟩, hmem⟩ := hacc
    simp only [investHistory, List.mem_cons, List.not_mem_nil, or_false] at hmem
    rcases hmem with rfl | rfl | rfl | rfl
    · rfl
    · rfl
    · exfalso
      have : (investHeap.declare 1 { investArgs with cumulativePar := "unknown" }).isOk = false := by decide +kernel
      rw [hh] at this
      cases this
    · rfl
  rw [hargs]
  obtain ⟨t, ht, hti⟩ := hid d.1 n hn
  refine ⟨fun p hp => ?_, t, ht, hti, (hdecides t ht).1, (hdecides t ht).2⟩
  unfold TreeHeap.parentOf at hp
  obtain ⟨i, _, hi⟩ := Option.bind_eq_some_iff.1 hp
  obtain ⟨tp, htp, hpi⟩ := hid i p hi
  exact ⟨tp, htp, hpi, (hdecides tp htp).1⟩

/-- The hypotheses of C64 are met by the tree, with three accepted declarations; the decomposition is built, with four
subproblems. -/
example : ∃ info b, (investHeap.declareAll investHistory).infos[0]? = some info ∧
    buildBenders (fun l => l) info { id := "_Coupler" } investDb investTree = .ok b ∧ b.subproblems.length = 4 ∧
    b.master.names = ["2020_G_cumul", "2020_G_delta", "2030a_G_cumul", "2030a_G_delta", "2030b_G_cumul", "2030b_G_delta"] ∧
    ∀ q, b.Attains q ↔ investTree.Attains investDb (Coupled investHeap 0 investHistory) q := by
  have hinfos : investHeap.infos = [{}] := by with_unfolding_all rfl
  have hsome : ((investHeap.declareAll investHistory).infos[0]?).isSome = true := by decide +kernel
  obtain ⟨info, hinfo⟩ := Option.isSome_iff_exists.1 hsome
  have hb : ∃ b, ((investHeap.declareAll investHistory).infos[0]?).map (fun info =>
      buildBenders (fun l => l) info { id := "_Coupler" } investDb investTree) = some (.ok b) ∧ b.subproblems.length = 4 ∧
      b.master.names = ["2020_G_cumul", "2020_G_delta", "2030a_G_cumul", "2030a_G_delta", "2030b_G_cumul", "2030b_G_delta"] := by
    have : (match ((investHeap.declareAll investHistory).infos[0]?).map (fun info =>
        buildBenders (fun l => l) info { id := "_Coupler" } investDb investTree) with
      | some (.ok b) => decide (b.subproblems.length = 4 ∧
        b.master.names = ["2020_G_cumul", "2020_G_delta", "2030a_G_cumul", "2030a_G_delta", "2030b_G_cumul", "2030b_G_delta"])
      | _ => false) = true := by decide +kernel
    split at this
    · next b hb => exact ⟨b, hb, by simpa using this⟩
    · cases this
  obtain ⟨b, hb, h1, h2⟩ := hb
  rw [hinfo] at hb
  have hb : buildBenders (fun l => l) info { id := "_Coupler" } investDb investTree = .ok b := Option.some.inj hb
  refine ⟨info, b, hinfo, hb, h1, h2, fun q => ?_⟩
  refine c64_decomposition_partial investHeap ?_ investHistory 0 (by rw [hinfos]; rfl) _ (fun l => List.Perm.refl l) info hinfo
    investDb investTree invest_ok invest_coupled (.inl ⟨by decide, invest_mergeOk⟩) b hb q
  intro info hi
  rw [hinfos, List.mem_singleton] at hi
  subst hi
  intro i kv hkv
  simp at hkv

/-! ## Deviations -/

/-- The capacity `cap`, of the given structure, limits the generation, which depends on time and scenario; `cost` is the cost
of the investments. -/
def capStudyModel (structure_ : Idx) (cost : Option Expr) : Model :=
  { id := "CAP"
    variables_ :=
      [("cap", ⟨"cap", .continuous, some (.lit 0), none, structure_, .coupling⟩),
       ("g", ⟨"g", .continuous, some (.lit 0), none, ⟨true, true⟩, .operational⟩)]
    constraints := [("max", { name := "max", expression := .add [.var "g", .neg (.var "cap")], upperBound := .lit 0 })]
    objectiveInvestment := cost }

/-- one node, two timesteps and two scenarios -/
def capStudyTree (structure_ : Idx) (cost : Option Expr) : DTree :=
  .node "2020" ⟨[⟨0, [0, 1]⟩], 2⟩ { id := "n", components := [("G", ⟨capStudyModel structure_ cost, "G"⟩)] } (.fin 1) []

/-- names of the columns of the master and of the subproblems -/
def columnNames (t : DTree) : R (List String × List (List String)) := do
  let b ← buildBenders (fun l => l) {} { id := "_Coupler" } [] t
  .ok (b.master.names, b.subproblems.map (·.names))

/-- with a capacity that does not depend on time and scenario, the master and the subproblem share its column -/
example : columnNames (capStudyTree ⟨false, false⟩ (some (.mul (.lit 100) (.var "cap")))) =
    .ok (["2020_G_cap"], [["2020_G_cap", "2020_G_g_t0_s0", "2020_G_g_t0_s1", "2020_G_g_t1_s0", "2020_G_g_t1_s1"]]) := by
  decide +kernel

/-- **C64 fails**: a capacity decided hour by hour has one column in the master and others in the subproblem; they share no
name, so the subproblem invests as it likes and nothing of it is paid. -/
theorem c64_time_unlinked : columnNames (capStudyTree ⟨true, false⟩ (some (.allsum (.mul (.lit 100) (.var "cap"))))) =
    .ok (["2020_G_cap"],
      [["2020_G_cap_t0", "2020_G_cap_t1", "2020_G_g_t0_s0", "2020_G_g_t0_s1", "2020_G_g_t1_s0", "2020_G_g_t1_s1"]]) := by
  decide +kernel

/-- **C64 fails**: a capacity decided scenario by scenario has no column in the master at all, as the master is built with
no scenario. -/
theorem c64_scenario_lost : columnNames (capStudyTree ⟨false, true⟩ none) =
    .ok ([], [["2020_G_cap_s0", "2020_G_cap_s1", "2020_G_g_t0_s0", "2020_G_g_t0_s1", "2020_G_g_t1_s0", "2020_G_g_t1_s1"]]) := by
  decide +kernel

/-- **C64 fails**: a study whose investment cost is an expectation over scenarios has no decomposition: the expectation over
the scenarios of the master, of which there are none, divides by zero. -/
theorem c64_expectation_fails :
    columnNames (capStudyTree ⟨false, true⟩ (some (.scen (.mul (.lit 100) (.var "cap")) .expectation))) = .error .zeroDivision := by
  decide +kernel

/-- A capacity `cumul` of at least 5 is needed; each unit of `delta` costs 100. -/
def soloModel : Model :=
  { id := "SOLO"
    variables_ :=
      [("cumul", ⟨"cumul", .continuous, some (.lit 5), none, ⟨false, false⟩, .coupling⟩),
       ("delta", ⟨"delta", .continuous, some (.lit 0), none, ⟨false, false⟩, .investment⟩)]
    objectiveInvestment := some (.mul (.lit 100) (.var "delta")) }

def soloG : Component := ⟨soloModel, "G"⟩
def soloNet : Network := { id := "n", components := [("G", soloG)] }
def soloTree : DTree := .node "2020" ⟨[⟨0, [0]⟩], 1⟩ soloNet (.fin 1) []
def soloHeap : TreeHeap := (({} : TreeHeap).createAll [{ id := "2020", config := ⟨[⟨0, [0]⟩], 1⟩, network := soloNet }]).1
def soloArgs : TreeHeap.CouplingArgs :=
  { componentPar := soloG, cumulativePar := "cumul", componentChd := soloG, cumulativeChd := "cumul", incrementalChd := "delta" }

/-- **C64 fails** with one node: the accepted declaration that all the capacity is added at the node is lost, and the
decomposition obtains a cost that the study cannot. -/
theorem c64_single_node_coupling_lost : ∃ info b, (soloHeap.declareAll [(0, soloArgs)]).infos[0]? = some info ∧
    (0, soloArgs) ∈ acceptedOn soloHeap 0 [(0, soloArgs)] ∧
    buildBenders (fun l => l) info { id := "_Coupler" } [] soloTree = .ok b ∧
    b.Attains 0 ∧ ¬ soloTree.Attains [] (Coupled soloHeap 0 [(0, soloArgs)]) 0 := by
  have hb : (match (soloHeap.declareAll [(0, soloArgs)]).infos[0]? with
      | some info => (match buildBenders (fun l => l) info { id := "_Coupler" } [] soloTree with
        | .ok b => decide (b.master.state.solver = { vars := [⟨"2020_G_cumul", 5, .pinf, false⟩, ⟨"2020_G_delta", 0, .pinf, false⟩], rows := [], objective := [(1, 100)], offset := 0 } ∧
            b.subproblems.map (·.state.solver) = [{ vars := [⟨"2020_G_cumul", 5, .pinf, false⟩], rows := [], objective := [], offset := 0 }])
        | .error _ => false)
      | none => false) = true := by decide +kernel
  have hacc : (0, soloArgs) ∈ acceptedOn soloHeap 0 [(0, soloArgs)] := by
    classical
    unfold acceptedOn
    rw [List.mem_filter]
    refine ⟨by simp, decide_eq_true ⟨?_, ?_⟩⟩
    · have : (soloHeap.declare 0 soloArgs).isOk = true := by decide +kernel
      cases h : soloHeap.declare 0 soloArgs with
      | ok h' => exact ⟨h', rfl⟩
      | error e => rw [h] at this; cases this
    · exact ⟨_, List.getElem?_eq_getElem (by decide +kernel : 0 < soloHeap.nodes.length), by decide +kernel⟩
  split at hb
  swap
  · cases hb
  next info hinfo =>
  split at hb
  swap
  · cases hb
  next b hbb =>
  obtain ⟨h1, h2⟩ := of_decide_eq_true hb
  refine ⟨info, b, hinfo, hacc, hbb, ?_, ?_⟩
  · obtain ⟨p, hp, hps⟩ : ∃ p, b.subproblems = [p] ∧ p.state.solver = { vars := [⟨"2020_G_cumul", 5, .pinf, false⟩], rows := [], objective := [], offset := 0 } := by
      obtain ⟨p, hp⟩ := List.length_eq_one_iff.1 (by simpa using congrArg List.length h2 : b.subproblems.length = 1)
      exact ⟨p, hp, by simpa [hp] using h2⟩
    refine ⟨fun n => if n = "2020_G_cumul" then 5 else 0, [fun n => 5], ?_, ?_, ?_⟩
    · rw [h1]
      refine ⟨fun i v hv => ?_, by simp⟩
      match i with
      | 0 => cases hv; simp [SolverVar.Sat, Solver.pointOf, Num.isBelow, Num.isAbove]
      | 1 => cases hv; simp [SolverVar.Sat, Solver.pointOf, Num.isBelow, Num.isAbove]
      | i + 2 => simp at hv
    · rw [hp]
      refine .cons ⟨?_, ?_⟩ .nil
      · rw [hps]
        refine ⟨fun i v hv => ?_, by simp⟩
        match i with
        | 0 => cases hv; simp [SolverVar.Sat, Num.isBelow, Num.isAbove, Solver.pointOf]
        | i + 1 => simp at hv
      · intro name hn _
        have : name = "2020_G_cumul" := by simpa [Problem.names, hps] using hn
        simp [this]
    · rw [hp, h1]
      simp [hps, Solver.costOf, Solver.cost, linForm, Solver.pointOf]
      exact (add_zero (0 : ℚ)).symm
  · rintro ⟨inv, costs, hc, hcosts, hsum⟩
    have hn : soloHeap.nodes[0]? = some (soloHeap.nodes[0]'(by decide +kernel)) := List.getElem?_eq_getElem _
    have h3 : 0 = inv "2020" "G" "cumul" - inv "2020" "G" "delta" := hc _ hacc _ hn
    have h4 : soloTree.NodeCost [] inv 0 := by
      cases hcosts with
      | cons hx hr =>
        cases hr
        simp only [List.sum_cons, List.sum_nil, add_zero] at hsum
        rw [hsum]
        exact hx
    obtain ⟨invested, σs, h5, h6⟩ := h4
    cases h5 with
    | @cons _ σ _ _ hx hr =>
      cases hr
      obtain ⟨hf, hm, hi⟩ := hx
      have hc1 : σ ⟨"G", "cumul", none, none⟩ = inv "2020" "G" "cumul" := hf soloG (by simp [soloTree, DTree.network, soloNet, Network.allComponents, Dict.values]) _ (List.mem_cons_self ..) (by simp [Variable.IsDecision])
      have hd1 : σ ⟨"G", "delta", none, none⟩ = inv "2020" "G" "delta" := hf soloG (by simp [soloTree, DTree.network, soloNet, Network.allComponents, Dict.values]) _ (List.mem_cons_of_mem _ (List.mem_cons_self ..)) (by simp [Variable.IsDecision])
      have h7 := (hm.vars soloG (by simp [soloTree, DTree.network, soloNet, Network.allComponents, Dict.values, DTree.study]) _ (List.mem_cons_self ..) 0 0 (by decide) (by decide)).1
      have h7 : (5 : ℚ) ≤ σ ⟨"G", "cumul", none, none⟩ := h7
      have h8 : 100 * σ ⟨"G", "delta", none, none⟩ + 0 = invested := hi
      have h9 : (0 : ℚ) = 1 * (invested + ((0 + 0) + 0)) := h6
      linarith

end Verif.Props
