import Verif.Lemmas.Fusion
import Verif.Lemmas.Shape

/-!
# C39: merging of master problems

Points give a value to each name (`Spec/Benders.lean`): columns of the same name are the same unknown.
-/

namespace Verif.Props
open Verif

theorem linForm_master (m : Problem) (d : Dict Nat Num) (nd : d.keys.Nodup)
    (hlt : ∀ i ∈ d.keys, i < m.state.solver.vars.length) (val : String → ℚ) :
    linForm d (m.state.solver.pointOf val) = partialForm m d m.state.solver.vars.length val :=
  linForm_columns d nd _ hlt _

theorem holds_iff (sv : Solver) (val : String → ℚ) :
    sv.Holds val ↔ (∀ v ∈ sv.vars, v.Sat (val v.name)) ∧ ∀ r ∈ sv.rows, r.Sat (sv.pointOf val) := by
  unfold Solver.Holds Solver.Feasible
  refine and_congr_left fun _ => ⟨fun h v hv => ?_, fun h i v hi => ?_⟩
  · obtain ⟨i, hi⟩ := List.getElem?_of_mem hv
    have := h i v hi
    rw [Solver.pointOf, hi] at this
    exact this
  · rw [Solver.pointOf, hi]
    exact h v (List.mem_of_getElem? hi)

/-- **C39**, what the merge of the masters means.  When the masters do not share names, their rows get different names, and
the coupler has no objective, the merge succeeds and gives a problem named "master".  A value for each name satisfies it
exactly when it is within the bounds of every column of every master, satisfies every row of the masters having a nonzero
coefficient and every row of the coupler, and is allowed for the coupler's columns: integer when they are, within their
bounds when no master has a column of that name.  Its cost is the sum of the costs of the masters without their constants,
plus the constant of the coupler.  Its columns have the names of those of the coupler and of the masters, and each is
recorded under its name.

Partial: integrality of the masters' columns, their rows without coefficients and their constants are not kept, the
coupler's bounds are replaced; the theorems below give the cases in which nothing is lost and witnesses of the losses. -/
theorem c39_merged_partial (masters : List Problem) (coupler : Problem) (h : Mergeable masters coupler)
    (hlen : masters.length ≠ 1) :
    ∃ p, fusionProblems masters coupler = .ok p ∧ (p.name = "master" ∧ Registered p.state ∧
        ∀ name, name ∈ p.names ↔ name ∈ coupler.names ∨ name ∈ masters.flatMap Problem.names) ∧
      (∀ val, p.state.solver.Holds val ↔
        (∀ m ∈ masters, ∀ v ∈ m.state.solver.vars, v.lb.isBelow (val v.name) ∧ v.ub.isAbove (val v.name)) ∧
        (∀ m ∈ masters, ∀ r ∈ m.state.solver.rows, r.Nontrivial m.state.solver → r.Sat (m.state.solver.pointOf val)) ∧
        (∀ r ∈ coupler.state.solver.rows, r.Sat (coupler.state.solver.pointOf val)) ∧
        ∀ w ∈ coupler.state.solver.vars, (w.integer = true → ∃ n : ℤ, val w.name = n) ∧
          (w.name ∉ masters.flatMap Problem.names → w.lb.isBelow (val w.name) ∧ w.ub.isAbove (val w.name))) ∧
      ∀ val, p.state.solver.costOf val = coupler.state.solver.offset.toQ +
        (masters.map fun m => m.state.solver.costOf val - m.state.solver.offset.toQ).sum := by
  have ndc : (coupler.state.solver.vars.map (·.name)).Nodup := h.couplerNames
  obtain ⟨f, hf, inv⟩ := fuseMasters_ok coupler.state ndc masters [] h.ok (by simpa using h.names) (by simpa using h.rows)
    { root := coupler.state } (by simpa using finv_start coupler.state h.registered h.objective)
  rw [List.nil_append] at inv
  have hp : fusionProblems masters coupler =
      .ok ⟨"master", { f.root with solver := { f.root.solver with rows := f.root.solver.rows ++ f.newRows.values } }⟩ := by
    unfold fusionProblems
    split
    · simp at hlen
    · rw [hf, ok_bind]
  have hreg := inv.root.registered
  refine ⟨_, hp, ⟨rfl, ⟨hreg.length, hreg.info, hreg.only⟩, fun name => ?_⟩, fun val => ?_, fun val => ?_⟩
  · have hdone : doneVars (masters.map fun m => (m, m.state.solver.vars.length)) = masters.flatMap (·.state.solver.vars) := by
      unfold doneVars
      rw [List.flatMap_map]
      simp
    show name ∈ f.root.solver.vars.map (·.name) ↔ _
    rw [inv.root.vars, mergedVars_names, hdone]
    simp only [List.mem_append, List.mem_map, List.mem_filter, List.mem_flatMap, Problem.names]
    constructor
    · rintro (h | ⟨v, ⟨⟨m, hm, hv⟩, _⟩, rfl⟩)
      · exact .inl h
      · exact .inr ⟨m, hm, v, hv, rfl⟩
    · rintro (h | ⟨m, hm, v, hv, rfl⟩)
      · exact .inl h
      · by_cases hc : v.name ∈ coupler.state.solver.vars.map (·.name)
        · exact .inl (List.mem_map.1 hc)
        · exact .inr ⟨v, ⟨⟨m, hm, hv⟩, by simpa using hc⟩, rfl⟩
  · rw [holds_iff]
    have hdone : doneVars (masters.map fun m => (m, m.state.solver.vars.length)) = masters.flatMap (·.state.solver.vars) := by
      unfold doneVars
      rw [List.flatMap_map]
      simp
    have hvars := inv.root.vars
    rw [hdone] at hvars
    have hnamesmap : (masters.flatMap (·.state.solver.vars)).map (·.name) = masters.flatMap Problem.names := by
      rw [List.map_flatMap]
      rfl
    have hbig : ((masters.flatMap (·.state.solver.vars)).map (·.name)).Nodup := by rw [hnamesmap]; exact h.names
    set big := masters.flatMap (·.state.solver.vars) with hbigdef
    have hfind : ∀ v ∈ big, ∀ w : SolverVar, v.name = w.name → updBounds big w = { w with lb := v.lb, ub := v.ub } := by
      intro v hv w hvw
      unfold updBounds
      cases hg : big.find? fun v => v.name == w.name with
      | none =>
        rw [List.find?_eq_none] at hg
        exact absurd (by simpa using hvw) (hg v hv)
      | some v' =>
        have hv' := List.mem_of_find?_eq_some hg
        have he := List.find?_some hg
        have : v' = v := List.inj_on_of_nodup_map hbig hv' hv (by simpa [hvw] using he)
        rw [this]
    have hnofind : ∀ w : SolverVar, w.name ∉ masters.flatMap Problem.names → updBounds big w = w := by
      intro w hw
      unfold updBounds
      have : (big.find? fun v => v.name == w.name) = none := by
        rw [List.find?_eq_none]
        intro v hv hvw
        apply hw
        rw [← hnamesmap]
        exact List.mem_map.2 ⟨v, hv, by simpa using hvw⟩
      rw [this]
    have hcols : (∀ v ∈ f.root.solver.vars, v.Sat (val v.name)) ↔
        (∀ m ∈ masters, ∀ v ∈ m.state.solver.vars, v.lb.isBelow (val v.name) ∧ v.ub.isAbove (val v.name)) ∧
        ∀ w ∈ coupler.state.solver.vars, (w.integer = true → ∃ n : ℤ, val w.name = n) ∧
          (w.name ∉ masters.flatMap Problem.names → w.lb.isBelow (val w.name) ∧ w.ub.isAbove (val w.name)) := by
      rw [hvars]
      unfold mergedVars
      constructor
      · intro hall
        refine ⟨fun m hm v hv => ?_, fun w hw => ⟨fun hi => ?_, fun hnot => ?_⟩⟩
        · have hvb : v ∈ big := List.mem_flatMap.2 ⟨m, hm, hv⟩
          by_cases hc : v.name ∈ coupler.state.solver.vars.map (·.name)
          · obtain ⟨w, hw, hwn⟩ := List.mem_map.1 hc
            have := hall (updBounds big w) (List.mem_append.2 (.inl (List.mem_map.2 ⟨w, hw, rfl⟩)))
            rw [hfind v hvb w hwn.symm] at this
            simp only [SolverVar.Sat, hwn] at this
            exact ⟨this.1, this.2.1⟩
          · have := hall (relaxed v) (List.mem_append.2 (.inr (List.mem_map.2
              ⟨v, List.mem_filter.2 ⟨hvb, by simpa using hc⟩, rfl⟩)))
            exact ⟨this.1, this.2.1⟩
        · have := hall (updBounds big w) (List.mem_append.2 (.inl (List.mem_map.2 ⟨w, hw, rfl⟩)))
          rw [updBounds_name] at this
          refine this.2.2 ?_
          unfold updBounds
          split <;> exact hi
        · have := hall (updBounds big w) (List.mem_append.2 (.inl (List.mem_map.2 ⟨w, hw, rfl⟩)))
          rw [hnofind w hnot] at this
          exact ⟨this.1, this.2.1⟩
      · rintro ⟨hm, hc⟩ v hv
        rcases List.mem_append.1 hv with hv | hv
        · obtain ⟨w, hw, rfl⟩ := List.mem_map.1 hv
          obtain ⟨hi, hb⟩ := hc w hw
          by_cases hn : w.name ∈ masters.flatMap Problem.names
          · rw [← hnamesmap] at hn
            obtain ⟨v, hv, hvn⟩ := List.mem_map.1 hn
            obtain ⟨m, hmm, hvm⟩ := List.mem_flatMap.1 hv
            have := hm m hmm v hvm
            rw [hfind v hv w hvn]
            rw [hvn] at this
            exact ⟨this.1, this.2, hi⟩
          · rw [hnofind w hn]
            exact ⟨(hb hn).1, (hb hn).2, hi⟩
        · obtain ⟨v, hvf, rfl⟩ := List.mem_map.1 hv
          obtain ⟨m, hmm, hvm⟩ := List.mem_flatMap.1 (List.mem_filter.1 hvf).1
          obtain ⟨a, b⟩ := hm m hmm v hvm
          exact ⟨a, b, fun h => by cases h⟩
    have hpre : coupler.state.solver.vars.map (·.name) <+: f.root.solver.vars.map (·.name) := by
      rw [hvars, mergedVars_names]
      exact List.prefix_append _ _
    have hpt : ({ f.root.solver with rows := f.root.solver.rows ++ f.newRows.values } : Solver).pointOf val =
      f.root.solver.pointOf val := rfl
    have hrows : (∀ r ∈ f.root.solver.rows ++ f.newRows.values, r.Sat (f.root.solver.pointOf val)) ↔
        (∀ m ∈ masters, ∀ r ∈ m.state.solver.rows, r.Nontrivial m.state.solver → r.Sat (m.state.solver.pointOf val)) ∧
        ∀ r ∈ coupler.state.solver.rows, r.Sat (coupler.state.solver.pointOf val) := by
      have hcrow : ∀ r ∈ coupler.state.solver.rows, (r.Sat (f.root.solver.pointOf val) ↔ r.Sat (coupler.state.solver.pointOf val)) := by
        intro r hr
        have hl : linForm r.coefs (f.root.solver.pointOf val) = linForm r.coefs (coupler.state.solver.pointOf val) :=
          linForm_congr fun c hc => pointOf_prefix hpre val c ((h.couplerOk.rows r hr).2 c hc)
        unfold Row.Sat
        rw [hl]
      have hmrow : ∀ m ∈ masters, ∀ r ∈ m.state.solver.rows, ∀ row, f.newRows.get? (rowKey m r) = some row →
          (row.Sat (f.root.solver.pointOf val) ↔ r.Sat (m.state.solver.pointOf val)) := by
        intro m hm r hr row hrow
        have hs := inv.rows (m, m.state.solver.vars.length) (List.mem_map.2 ⟨m, hm, rfl⟩) r hr
        simp only [hrow] at hs
        obtain ⟨_, h2, h3, _, _, h6⟩ := hs
        obtain ⟨ndr, hlt⟩ := (h.ok m hm).rows r hr
        unfold Row.Sat
        rw [h2, h3, h6 val, linForm_master m r.coefs ndr hlt val]
      have hnon : ∀ m ∈ masters, ∀ r ∈ m.state.solver.rows,
          (r.Nontrivial m.state.solver ↔ ∃ row, f.newRows.get? (rowKey m r) = some row) := by
        intro m hm r hr
        have hs := inv.rows (m, m.state.solver.vars.length) (List.mem_map.2 ⟨m, hm, rfl⟩) r hr
        simp only at hs
        cases hg : f.newRows.get? (rowKey m r) with
        | none =>
          rw [hg] at hs
          simp only [reduceCtorEq, exists_false, iff_false]
          rintro ⟨i, hi, hne⟩
          exact hne (hs i hi)
        | some row =>
          rw [hg] at hs
          exact iff_of_true hs.2.2.2.1 ⟨row, rfl⟩
      constructor
      · intro hall
        refine ⟨fun m hm r hr hnt => ?_, fun r hr => ?_⟩
        · obtain ⟨row, hrow⟩ := (hnon m hm r hr).1 hnt
          refine (hmrow m hm r hr row hrow).1 (hall row (List.mem_append.2 (.inr ?_)))
          exact List.mem_map.2 ⟨_, Dict.mem_of_get? hrow, rfl⟩
        · refine (hcrow r hr).1 (hall r (List.mem_append.2 (.inl ?_)))
          rw [inv.root.rows]
          exact hr
      · rintro ⟨hm, hc⟩ r hr
        rcases List.mem_append.1 hr with hr | hr
        · rw [inv.root.rows] at hr
          exact (hcrow r hr).2 (hc r hr)
        · obtain ⟨⟨K, row⟩, hmem, rfl⟩ := List.mem_map.1 hr
          have hg := Dict.get?_of_mem inv.nodup hmem
          obtain ⟨mk, hmk, r, hr', rfl⟩ := inv.source K (List.mem_map.2 ⟨_, hmem, rfl⟩)
          obtain ⟨m, hm', rfl⟩ := List.mem_map.1 hmk
          exact (hmrow m hm' r hr' row hg).2 (hm m hm' r hr' ((hnon m hm' r hr').2 ⟨row, hg⟩))
    rw [hpt]
    simp only at hcols hrows ⊢
    rw [hcols, hrows]
    tauto
  · show linForm f.root.solver.objective (f.root.solver.pointOf val) + f.root.solver.offset.toQ = _
    rw [inv.obj val, inv.root.offset, List.map_map, add_comm]
    congr 2
    apply List.map_congr_left
    intro m hm
    obtain ⟨nd, hlt⟩ := (h.ok m hm).objective
    show partialForm m m.state.solver.objective m.state.solver.vars.length val = _
    unfold Solver.costOf Solver.cost
    rw [linForm_master m _ nd hlt val]
    ring

/-- nothing is lost by the merge: integrality is that of a coupler's column, rows without coefficients are satisfied, and
the bounds of the coupler's columns follow from those of the master having this column -/
structure Lossless (masters : List Problem) (coupler : Problem) : Prop where
  integers : ∀ m ∈ masters, ∀ v ∈ m.state.solver.vars, v.integer = true →
    ∃ w ∈ coupler.state.solver.vars, w.name = v.name ∧ w.integer = true
  trivial : ∀ m ∈ masters, ∀ r ∈ m.state.solver.rows, ¬ r.Nontrivial m.state.solver → r.lb.isBelow 0 ∧ r.ub.isAbove 0
  bounds : ∀ m ∈ masters, ∀ v ∈ m.state.solver.vars, ∀ w ∈ coupler.state.solver.vars, w.name = v.name →
    ∀ q, v.lb.isBelow q → v.ub.isAbove q → w.lb.isBelow q ∧ w.ub.isAbove q

theorem trivial_row {sv : Solver} {r : Row} (h : ¬ r.Nontrivial sv) (nd : r.coefs.keys.Nodup)
    (hlt : ∀ i ∈ r.coefs.keys, i < sv.vars.length) (x : Nat → ℚ) : linForm r.coefs x = 0 := by
  rw [linForm_columns r.coefs nd _ hlt]
  have : ∀ i ∈ List.range sv.vars.length, (coefOf r.coefs i).toQ * x i = 0 := by
    intro i hi
    by_contra hne
    apply h
    refine ⟨i, List.mem_range.1 hi, fun h0 => hne ?_⟩
    rw [h0, toQ_zero, zero_mul]
  rw [List.map_congr_left this]
  simp

/-- **C39**, when nothing is lost the merge satisfies the full statement: the values satisfying the merged problem are
exactly those satisfying every master and the coupler, and when the masters have no constants the cost is the sum of the
costs. -/
theorem c39_lossless (masters : List Problem) (coupler : Problem) (h : Mergeable masters coupler) (hl : Lossless masters coupler)
    (hlen : masters.length ≠ 1) :
    ∃ p, fusionProblems masters coupler = .ok p ∧
      (∀ val, p.state.solver.Holds val ↔ (∀ m ∈ masters, m.state.solver.Holds val) ∧ coupler.state.solver.Holds val) ∧
      ((∀ m ∈ masters, m.state.solver.offset.toQ = 0) → ∀ val, p.state.solver.costOf val =
        coupler.state.solver.costOf val + (masters.map fun m => m.state.solver.costOf val).sum) := by
  obtain ⟨p, hp, -, hholds, hcost⟩ := c39_merged_partial masters coupler h hlen
  refine ⟨p, hp, fun val => ?_, fun ho val => ?_⟩
  · rw [hholds val]
    constructor
    · rintro ⟨h1, h2, h3, h4⟩
      refine ⟨fun m hm => (holds_iff _ _).2 ⟨fun v hv => ?_, fun r hr => ?_⟩, (holds_iff _ _).2 ⟨fun w hw => ?_, h3⟩⟩
      · refine ⟨(h1 m hm v hv).1, (h1 m hm v hv).2, fun hi => ?_⟩
        obtain ⟨w, hw, hwn, hwi⟩ := hl.integers m hm v hv hi
        rw [← hwn]
        exact (h4 w hw).1 hwi
      · by_cases hnt : r.Nontrivial m.state.solver
        · exact h2 m hm r hr hnt
        · obtain ⟨nd, hlt⟩ := (h.ok m hm).rows r hr
          unfold Row.Sat
          rw [trivial_row hnt nd hlt]
          exact hl.trivial m hm r hr hnt
      · by_cases hn : w.name ∈ masters.flatMap Problem.names
        · obtain ⟨m, hm, hv⟩ := List.mem_flatMap.1 hn
          obtain ⟨v, hv, hvn⟩ := List.mem_map.1 hv
          have hb := h1 m hm v hv
          have := hl.bounds m hm v hv w hw hvn.symm _ hb.1 hb.2
          rw [hvn] at this
          exact ⟨this.1, this.2, (h4 w hw).1⟩
        · exact ⟨((h4 w hw).2 hn).1, ((h4 w hw).2 hn).2, (h4 w hw).1⟩
    · rintro ⟨h1, h2⟩
      rw [holds_iff] at h2
      refine ⟨fun m hm v hv => ?_, fun m hm r hr _ => ((holds_iff _ _).1 (h1 m hm)).2 r hr, h2.2, fun w hw => ?_⟩
      · have := ((holds_iff _ _).1 (h1 m hm)).1 v hv
        exact ⟨this.1, this.2.1⟩
      · have := h2.1 w hw
        exact ⟨this.2.2, fun _ => ⟨this.1, this.2.1⟩⟩
  · rw [hcost val]
    congr 1
    · unfold Solver.costOf Solver.cost
      rw [h.objective, linForm_nil, zero_add]
    · congr 1
      apply List.map_congr_left
      intro m hm
      rw [ho m hm, sub_zero]

/-- **C39**, a single master is returned unchanged, whatever the coupler. -/
theorem c39_single (m coupler : Problem) : fusionProblems [m] coupler = .ok m := rfl

/-- Problems built by the program can be merged as soon as their columns have different names, their rows get different
names, and the coupler has no objective (the coupling model has none). -/
theorem c39_built (built : List (String × OptCtx × OptState)) (coupler : String × OptCtx × OptState)
    (hb : ∀ b ∈ built, b.2.1.NetworkOk ∧ b.2.1.buildProblem = .ok b.2.2)
    (hc : coupler.2.1.NetworkOk ∧ coupler.2.1.buildProblem = .ok coupler.2.2)
    (hn : ((built.map fun b => (⟨b.1, b.2.2⟩ : Problem)).flatMap Problem.names).Nodup)
    (hcn : (Problem.names ⟨coupler.1, coupler.2.2⟩).Nodup)
    (hr : ((built.map fun b => (⟨b.1, b.2.2⟩ : Problem)).flatMap Problem.rowKeys).Nodup)
    (ho : coupler.2.2.solver.objective = []) :
    Mergeable (built.map fun b => ⟨b.1, b.2.2⟩) ⟨coupler.1, coupler.2.2⟩ := by
  have hcn' : (coupler.2.1.instances.map coupler.2.1.instName).Nodup := by
    rw [← build_names hc.1 hc.2]
    exact hcn
  refine ⟨?_, build_ok hc.1 hcn' hc.2 _, build_registered hc.1 hcn' hc.2, hn, hcn, hr, ho⟩
  intro m hm
  obtain ⟨b, hbm, rfl⟩ := List.mem_map.1 hm
  refine build_ok (hb b hbm).1 ?_ (hb b hbm).2 _
  rw [← build_names (hb b hbm).1 (hb b hbm).2]
  have := (List.nodup_flatMap.1 hn).1 _ (List.mem_map.2 ⟨b, hbm, rfl⟩)
  exact this

/-! ## A concrete merge and the losses -/

/-- a problem with one column -/
def oneColumn (name var : String) (lb ub : ℚ) (integer : Bool) (rows : List Row) (cost offset : ℚ) : Problem :=
  ⟨name, ⟨⟨[⟨var, .fin lb, .fin ub, integer⟩], rows, [(0, .fin cost)], .fin offset⟩, [], [(var, ⟨var, 0, true⟩)]⟩⟩

/-- a coupler on two names: `a ≤ b` -/
def couplerAB (lb ub : Num) : Problem :=
  ⟨"coupler", ⟨⟨[⟨"a", lb, ub, false⟩, ⟨"b", lb, ub, false⟩],
    [⟨"order", [(0, .fin 1), (1, .fin (-1))], .ninf, .fin 0⟩], [], .fin 0⟩, [],
    [("a", ⟨"a", 0, false⟩), ("b", ⟨"b", 1, false⟩)]⟩⟩

theorem oneColumn_ok (name var : String) (lb ub : ℚ) (integer : Bool) (rows : List Row) (cost offset : ℚ)
    (hrows : ∀ r ∈ rows, r.coefs.keys.Nodup ∧ ∀ i ∈ r.coefs.keys, i < 1) :
    (oneColumn name var lb ub integer rows cost offset).Ok := by
  refine ⟨hrows, ?_, ?_⟩
  · simp [oneColumn, Dict.keys]
  · intro v hv
    simp only [oneColumn, List.mem_singleton] at hv
    subst hv
    exact ⟨⟨var, 0, true⟩, by simp [oneColumn, Dict.get?_cons]⟩

theorem couplerAB_ok (lb ub : Num) : (couplerAB lb ub).Ok ∧ Registered (couplerAB lb ub).state := by
  refine ⟨⟨?_, ?_, ?_⟩, ⟨rfl, ?_, ?_⟩⟩
  · intro r hr
    simp only [couplerAB, List.mem_singleton] at hr
    subst hr
    simp [Dict.keys, couplerAB]
  · simp [couplerAB, Dict.keys]
  · intro v hv
    simp only [couplerAB, List.mem_cons, List.not_mem_nil, or_false] at hv
    rcases hv with rfl | rfl
    · exact ⟨⟨"a", 0, false⟩, rfl⟩
    · exact ⟨⟨"b", 1, false⟩, rfl⟩
  · intro i v hv
    match i with
    | 0 => cases hv; exact ⟨false, rfl⟩
    | 1 => cases hv; exact ⟨false, rfl⟩
    | i + 2 => cases hv
  · intro n hn
    exact hn

/-- two masters with a row each -/
def mastersAB (integer : Bool) (offset : ℚ) : List Problem :=
  [oneColumn "m1" "a" 0 10 integer [⟨"r", [(0, .fin 2)], .fin 2, .pinf⟩] 3 offset,
   oneColumn "m2" "b" 0 10 false [⟨"r", [(0, .fin 1)], .ninf, .fin 7⟩] 5 0]

theorem mastersAB_mergeable (integer : Bool) (offset : ℚ) (lb ub : Num) : Mergeable (mastersAB integer offset) (couplerAB lb ub) := by
  refine ⟨?_, (couplerAB_ok lb ub).1, (couplerAB_ok lb ub).2,
    show ["a", "b"].Nodup by decide, show ["a", "b"].Nodup by decide, show ["m1_r", "m2_r"].Nodup by decide, rfl⟩
  intro m hm
  simp only [mastersAB, List.mem_cons, List.not_mem_nil, or_false] at hm
  rcases hm with rfl | rfl
  · refine oneColumn_ok _ _ _ _ _ _ _ _ ?_
    intro r hr
    rw [List.mem_singleton] at hr
    subst hr
    simp [Dict.keys]
  · refine oneColumn_ok _ _ _ _ _ _ _ _ ?_
    intro r hr
    rw [List.mem_singleton] at hr
    subst hr
    simp [Dict.keys]

/-- two masters and a coupler that meet all the hypotheses, with a merged problem having the three rows -/
example : Mergeable (mastersAB false 0) (couplerAB .ninf .pinf) ∧ Lossless (mastersAB false 0) (couplerAB .ninf .pinf) ∧
    ∃ p, fusionProblems (mastersAB false 0) (couplerAB .ninf .pinf) = .ok p ∧ p.state.solver.rows.length = 3 := by
  refine ⟨mastersAB_mergeable _ _ _ _, ⟨?_, ?_, ?_⟩, _, rfl, rfl⟩
  · intro m hm v hv hi
    simp only [mastersAB, List.mem_cons, List.not_mem_nil, or_false] at hm
    rcases hm with rfl | rfl <;> simp only [oneColumn, List.mem_singleton] at hv <;> subst hv <;> cases hi
  · intro m hm r hr hn
    exfalso
    apply hn
    simp only [mastersAB, List.mem_cons, List.not_mem_nil, or_false] at hm
    rcases hm with rfl | rfl <;> simp only [oneColumn, List.mem_singleton] at hr <;> subst hr <;>
      exact ⟨0, by simp [oneColumn], by decide +kernel⟩
  · intro m hm v hv w hw _ q _ _
    simp only [couplerAB, List.mem_cons, List.not_mem_nil, or_false] at hw
    rcases hw with rfl | rfl <;> exact ⟨trivial, trivial⟩

/-- C39 fails in general, integrality: the column `a` is an integer in a master, but its merge is satisfied by `a = 3/2`. -/
theorem c39_integrality_lost : ∃ p, fusionProblems (mastersAB true 0) (couplerAB .ninf .pinf) = .ok p ∧
    (∃ val, p.state.solver.Holds val ∧ ∃ m ∈ mastersAB true 0, ¬ m.state.solver.Holds val) := by
  obtain ⟨p, hp, -, hh, -⟩ := c39_merged_partial _ _ (mastersAB_mergeable true 0 .ninf .pinf) (by decide)
  refine ⟨p, hp, fun _ => 3 / 2, ?_, ?_⟩
  · rw [hh]
    refine ⟨?_, ?_, ?_, ?_⟩
    · intro m hm v hv
      simp only [mastersAB, List.mem_cons, List.not_mem_nil, or_false] at hm
      rcases hm with rfl | rfl <;> simp only [oneColumn, List.mem_singleton] at hv <;> subst hv <;>
        norm_num [Num.isBelow, Num.isAbove]
    · intro m hm r hr _
      simp only [mastersAB, List.mem_cons, List.not_mem_nil, or_false] at hm
      rcases hm with rfl | rfl <;> simp only [oneColumn, List.mem_singleton] at hr <;> subst hr <;>
        norm_num [Row.Sat, linForm, Num.isBelow, Num.isAbove, Solver.pointOf, oneColumn, Num.toQ]
    · intro r hr
      simp only [couplerAB, List.mem_singleton] at hr
      subst hr
      norm_num [Row.Sat, linForm, Num.isBelow, Num.isAbove, Solver.pointOf, couplerAB, Num.toQ]
    · intro w hw
      simp only [couplerAB, List.mem_cons, List.not_mem_nil, or_false] at hw
      rcases hw with rfl | rfl <;> simp [Num.isBelow, Num.isAbove]
  · refine ⟨_, List.mem_cons_self, fun h => ?_⟩
    obtain ⟨n, hn⟩ := (((holds_iff _ _).1 h).1 _ List.mem_cons_self).2.2 rfl
    have h2 : (3 : ℚ) = ((2 * n : ℤ) : ℚ) := by push_cast; rw [← hn]; norm_num
    have h3 : (3 : ℤ) = 2 * n := by exact_mod_cast h2
    omega

/-- C39 fails in general, constants: the constant 4 of the cost of a master is not in the cost of the merge. -/
theorem c39_constant_lost : ∃ p, fusionProblems (mastersAB false 4) (couplerAB .ninf .pinf) = .ok p ∧
    ∀ val, p.state.solver.costOf val = ((mastersAB false 4).map fun m => m.state.solver.costOf val).sum - 4 := by
  obtain ⟨p, hp, -, -, hc⟩ := c39_merged_partial _ _ (mastersAB_mergeable false 4 .ninf .pinf) (by decide)
  refine ⟨p, hp, fun val => ?_⟩
  rw [hc val]
  simp only [mastersAB, oneColumn, couplerAB, List.map_cons, List.map_nil, List.sum_cons, List.sum_nil]
  simp only [Num.toQ]
  ring

/-- C39 fails in general, bounds of the coupler: `a` is at most 1 in the coupler, but its merge is satisfied by 5. -/
theorem c39_coupler_bounds_lost : ∃ p, fusionProblems (mastersAB false 0) (couplerAB (.fin 0) (.fin 1)) = .ok p ∧
    p.state.solver.Holds (fun _ => 5) ∧ ¬ (couplerAB (.fin 0) (.fin 1)).state.solver.Holds (fun _ => 5) := by
  obtain ⟨p, hp, -, hh, -⟩ := c39_merged_partial _ _ (mastersAB_mergeable false 0 (.fin 0) (.fin 1)) (by decide)
  refine ⟨p, hp, ?_, ?_⟩
  · rw [hh]
    refine ⟨?_, ?_, ?_, ?_⟩
    · intro m hm v hv
      simp only [mastersAB, List.mem_cons, List.not_mem_nil, or_false] at hm
      rcases hm with rfl | rfl <;> simp only [oneColumn, List.mem_singleton] at hv <;> subst hv <;>
        norm_num [Num.isBelow, Num.isAbove]
    · intro m hm r hr _
      simp only [mastersAB, List.mem_cons, List.not_mem_nil, or_false] at hm
      rcases hm with rfl | rfl <;> simp only [oneColumn, List.mem_singleton] at hr <;> subst hr <;>
        norm_num [Row.Sat, linForm, Num.isBelow, Num.isAbove, Solver.pointOf, oneColumn, Num.toQ]
    · intro r hr
      simp only [couplerAB, List.mem_singleton] at hr
      subst hr
      norm_num [Row.Sat, linForm, Num.isBelow, Num.isAbove, Solver.pointOf, couplerAB, Num.toQ]
    · intro w hw
      simp only [couplerAB, List.mem_cons, List.not_mem_nil, or_false] at hw
      refine ⟨fun h => ?_, fun h => ?_⟩
      · rcases hw with rfl | rfl <;> cases h
      · rcases hw with rfl | rfl <;> exact absurd (by decide) h
  · intro h
    have := (((holds_iff _ _).1 h).1 _ List.mem_cons_self).2.1
    norm_num [Num.isAbove] at this

/-- C39 fails in general, a single master: the coupler requires `a ≤ b` with `b` at most 0; its rows are not in the result. -/
theorem c39_coupler_lost : ∃ m p, fusionProblems [m] (couplerAB .ninf (.fin 0)) = .ok p ∧
    p.state.solver.Holds (fun _ => 5) ∧ ¬ (couplerAB .ninf (.fin 0)).state.solver.Holds (fun _ => 5) := by
  refine ⟨oneColumn "m1" "a" 0 10 false [] 3 0, _, rfl, ?_, ?_⟩
  · refine (holds_iff _ _).2 ⟨?_, by simp [oneColumn]⟩
    intro v hv
    simp only [oneColumn, List.mem_singleton] at hv
    subst hv
    refine ⟨?_, ?_, fun h => by cases h⟩ <;> norm_num [Num.isBelow, Num.isAbove]
  · intro h
    have := (((holds_iff _ _).1 h).1 _ List.mem_cons_self).2.1
    norm_num [Num.isAbove] at this

/-- C39 fails in general, rows without coefficients: the row `1 ≤ 0` of a master is not in the merge, which has a solution. -/
theorem c39_empty_row_lost :
    let masters := [oneColumn "m1" "a" 0 10 false [⟨"r", [], .fin 1, .pinf⟩] 0 0, oneColumn "m2" "b" 0 10 false [] 0 0]
    ∃ p, fusionProblems masters (couplerAB .ninf .pinf) = .ok p ∧ p.state.solver.Holds (fun _ => 5) ∧
      ∃ m ∈ masters, ∀ val, ¬ m.state.solver.Holds val := by
  refine ⟨_, rfl, ?_, _, List.mem_cons_self, ?_⟩
  · refine (holds_iff _ _).2 ⟨?_, ?_⟩
    · intro v hv
      have hv' : v ∈ [(⟨"a", .fin 0, .fin 10, false⟩ : SolverVar), ⟨"b", .fin 0, .fin 10, false⟩] := hv
      simp only [List.mem_cons, List.not_mem_nil, or_false] at hv'
      rcases hv' with rfl | rfl <;>
        · refine ⟨?_, ?_, fun h => by cases h⟩ <;> norm_num [Num.isBelow, Num.isAbove]
    · intro r hr
      have hr' : r ∈ [(⟨"order", [(0, .fin 1), (1, .fin (-1))], .ninf, .fin 0⟩ : Row)] := hr
      rw [List.mem_singleton] at hr'
      subst hr'
      refine ⟨trivial, ?_⟩
      show linForm _ _ ≤ (0 : ℚ)
      have h0 : ∀ sv : Solver, sv.vars.length = 2 → sv.pointOf (fun _ => 5) 0 = 5 ∧ sv.pointOf (fun _ => 5) 1 = 5 := by
        intro sv hsv
        simp [Solver.pointOf, hsv]
      simp only [linForm, List.map_cons, List.map_nil, List.sum_cons, List.sum_nil, Num.toQ]
      rw [(h0 _ rfl).1, (h0 _ rfl).2]
      norm_num
  · intro val h
    have := (((holds_iff _ _).1 h).2 _ List.mem_cons_self).1
    norm_num [Num.isBelow, linForm] at this

/-- C39 needs different names: when two masters have a column `a`, the merge has two columns of this name, both free. -/
theorem c39_shared_name : ∃ p, fusionProblems [oneColumn "m1" "a" 0 10 false [] 1 0, oneColumn "m2" "a" 0 10 false [] 1 0]
    ⟨"coupler", {}⟩ = .ok p ∧ p.names = ["a", "a"] ∧
    ∃ x, p.state.solver.Feasible x ∧ x 0 ≠ x 1 := by
  refine ⟨_, rfl, rfl, fun i => i, ⟨?_, ?_⟩, by norm_num⟩
  · intro i v hv
    have hv' : [(⟨"a", .fin 0, .fin 10, false⟩ : SolverVar), ⟨"a", .fin 0, .fin 10, false⟩][i]? = some v := hv
    match i with
    | 0 => cases hv'; refine ⟨?_, ?_, fun h => by cases h⟩ <;> norm_num [Num.isBelow, Num.isAbove]
    | 1 => cases hv'; refine ⟨?_, ?_, fun h => by cases h⟩ <;> norm_num [Num.isBelow, Num.isAbove]
    | i + 2 => cases hv'
  · intro r hr
    have hr' : r ∈ ([] : List Row) := hr
    cases hr'

end Verif.Props
