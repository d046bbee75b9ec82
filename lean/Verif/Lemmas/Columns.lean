import Verif.Lemmas.Rows
import Mathlib.Data.List.Nodup

/-! The columns created for the instances of the variables. -/

namespace Verif
open OptCtx

/-- a loop that records what it has done -/
theorem loop_trace {σ α β} {f : σ → α → R σ} (Inv : List β → σ → Prop) (g : α → List β) (l : List α)
    (hstep : ∀ a ∈ l, ∀ done st st', Inv done st → f st a = .ok st' → Inv (done ++ g a) st') (done : List β) (st st' : σ)
    (h0 : Inv done st) (h : loop f l st = .ok st') : Inv (done ++ l.flatMap g) st' := by
  induction l generalizing done st with
  | nil => cases h; simpa using h0
  | cons a l ih =>
    rw [loop_cons, bind_ok_iff] at h
    obtain ⟨s1, h1, h⟩ := h
    have := ih (fun b hb => hstep b (by simp [hb])) (done ++ g a) s1 (hstep a (by simp) done st s1 h0 h1) h
    rwa [List.append_assoc, ← List.flatMap_cons] at this

theorem pyRange_zero (n : Nat) : pyRange 0 n = (List.range n).map fun (i : Nat) => (i : Int) := by
  simp [pyRange]

theorem variableTimes_eq (x : OptCtx) (i : Idx) : x.variableTimes i = indexList i.time x.T := by
  unfold OptCtx.variableTimes OptCtx.timeIndices indexList
  cases i.time
  · rfl
  · simp only [if_true, pyRange_zero, List.map_map]
    rfl

theorem variableScenarios_eq (x : OptCtx) (i : Idx) : x.variableScenarios i = indexList i.scenario x.scenarios := by
  unfold OptCtx.variableScenarios OptCtx.scenarioIndices indexList
  cases i.scenario
  · rfl
  · simp only [if_true, pyRange_zero, List.map_map]
    rfl

/-- the solver variable `sv` was created for the instance `n` -/
structure IsVarFor (x : OptCtx) (ports : PortExprs) (n : Inst) (sv : SolverVar) : Prop where
  made : ∃ lb ub lo up, instantiateBound n.comp.id ports n.var.lowerBound = .ok lb ∧
    instantiateBound n.comp.id ports n.var.upperBound = .ok ub ∧
    x.boundValue .ninf lb n.t n.s = .ok lo ∧ x.boundValue .pinf ub n.t n.s = .ok up ∧ up.lt lo = false ∧
    sv = solverVar n.var.dataType (x.instName n) lo up

/-- the recorded information when there is no collision -/
def infoList (x : OptCtx) (done : List Inst) : Dict String VarInfo :=
  done.zipIdx.map fun ni => (x.instName ni.1, ⟨x.instName ni.1, ni.2, false⟩)

theorem infoList_keys (x : OptCtx) (done : List Inst) : (infoList x done).keys = done.map x.instName := by
  unfold infoList Dict.keys
  rw [List.map_map]
  have : (Prod.fst ∘ fun ni : Inst × Nat => (x.instName ni.1, (⟨x.instName ni.1, ni.2, false⟩ : VarInfo))) = x.instName ∘ Prod.fst := rfl
  rw [this, ← List.map_map, List.zipIdx_map_fst]

theorem infoList_length (x : OptCtx) (done : List Inst) : (infoList x done).length = done.length := by simp [infoList]

theorem infoList_append (x : OptCtx) (done : List Inst) (n : Inst) :
    infoList x (done ++ [n]) = infoList x done ++ [(x.instName n, ⟨x.instName n, done.length, false⟩)] := by
  simp [infoList, List.zipIdx_append]

/-- state after the creation of the columns of the instances `done` -/
structure VarInv (x : OptCtx) (ports : PortExprs) (done : List Inst) (st : OptState) : Prop where
  vars : List.Forall₂ (IsVarFor x ports) done st.solver.vars
  sound : ∀ k i, st.columns.get? k = some i → ∃ n, done[i]? = some n ∧ n.key = k
  complete : ∀ n ∈ done, ∃ i, st.columns.get? n.key = some i
  rows : st.solver.rows = []
  objective : st.solver.objective = []
  offset : st.solver.offset = 0
  named : ∀ n ∈ done, ∃ i, st.infos.get? (x.instName n) = some i
  infos : (done.map Inst.key).Nodup → (done.map x.instName).Nodup → st.infos = infoList x done
  flags : ∀ k i, st.infos.get? k = some i → i.isInObjective = false ∧ i.name = k

theorem register_infos (st : OptState) (sv : SolverVar) (k : TermKey) (name : String) (col : Nat) :
    ((st.addColumn sv).register k name col).infos =
      if st.columns.contains k then st.infos else st.infos.set name ⟨name, st.infos.length, false⟩ := rfl

theorem register_columns (st : OptState) (sv : SolverVar) (k : TermKey) (name : String) (col : Nat) :
    ((st.addColumn sv).register k name col).columns = st.columns.set k col := rfl

theorem varInv_step {x : OptCtx} {ports : PortExprs} {done : List Inst} {st st' : OptState} {c : Component} {v : Variable}
    {lb ub : Option Expr} {ts : Option Int × Option Int} (hlb : instantiateBound c.id ports v.lowerBound = .ok lb)
    (hub : instantiateBound c.id ports v.upperBound = .ok ub) (h0 : VarInv x ports done st)
    (h : x.createVariable c.id v lb ub st ts = .ok st') : VarInv x ports (done ++ [⟨c, v, ts.1, ts.2⟩]) st' := by
  unfold OptCtx.createVariable at h
  simp only [bind_ok_iff] at h
  obtain ⟨lo, hlo, up, hup, h⟩ := h
  split_ifs at h with hlt
  cases h
  have hlen : done.length = st.solver.vars.length := h0.vars.length_eq
  set n : Inst := ⟨c, v, ts.1, ts.2⟩ with hn
  have hkey : n.key = ⟨c.id, v.name, ts.1, ts.2⟩ := rfl
  have hname : x.solverVariableName c.id v.name ts.1 ts.2 = x.instName n := rfl
  rw [hname, ← hkey]
  have hinfo : ∀ m, (st.infos.get? m).isSome → ∃ i, ((OptState.addColumn st (solverVar v.dataType (x.instName n) lo up)).register
      n.key (x.instName n) st.solver.vars.length).infos.get? m = some i := by
    intro m hm
    obtain ⟨i, hi⟩ := Option.isSome_iff_exists.1 hm
    rw [register_infos]
    by_cases hc : st.columns.contains n.key = true
    · rw [if_pos hc]; exact ⟨i, hi⟩
    · rw [if_neg hc, Dict.get?_set]
      split_ifs
      · exact ⟨_, rfl⟩
      · exact ⟨i, hi⟩
  refine ⟨?_, ?_, ?_, h0.rows, h0.objective, h0.offset, ?_, ?_, ?_⟩
  · refine List.rel_append h0.vars (.cons ⟨lb, ub, lo, up, hlb, hub, hlo, hup, by simpa using hlt, rfl⟩ .nil)
  · intro k i hi
    rw [register_columns, Dict.get?_set] at hi
    split_ifs at hi with hk
    · cases hi
      refine ⟨n, ?_, hk⟩
      rw [← hlen]; simp
    · obtain ⟨m, hm, hmk⟩ := h0.sound k i hi
      refine ⟨m, ?_, hmk⟩
      rw [List.getElem?_append_left (List.getElem?_eq_some_iff.1 hm).1]
      exact hm
  · intro m hm
    rw [register_columns, Dict.get?_set]
    split_ifs with hk
    · exact ⟨_, rfl⟩
    · rcases List.mem_append.1 hm with hm | hm
      · exact h0.complete m hm
      · simp only [List.mem_singleton] at hm
        exact absurd (by rw [hm]) hk
  · intro m hm
    rcases List.mem_append.1 hm with hm | hm
    · exact hinfo _ (by obtain ⟨i, hi⟩ := h0.named m hm; rw [hi]; rfl)
    · simp only [List.mem_singleton] at hm
      rw [hm]
      by_cases hc : st.columns.contains n.key = true
      · obtain ⟨i, hi⟩ := Dict.mem_keys_iff.1 (Dict.contains_iff.1 hc)
        obtain ⟨m', hm', hmk⟩ := h0.sound _ _ hi
        have hnm : x.instName m' = x.instName n := by
          have := hmk
          simp only [Inst.key, TermKey.mk.injEq] at this
          obtain ⟨a, b, c', d⟩ := this
          simp only [OptCtx.instName]
          rw [a, b, c', d]
        refine hinfo _ ?_
        obtain ⟨j, hj⟩ := h0.named m' (List.mem_of_getElem? hm')
        rw [← hnm, hj]; rfl
      · rw [register_infos, if_neg hc]
        exact ⟨_, Dict.get?_set_self _ _ _⟩
  · intro hk hnm
    rw [List.map_append, List.nodup_append] at hk hnm
    have hst := h0.infos hk.1 hnm.1
    have hnc : st.columns.contains n.key = false := by
      rw [Dict.contains_false_iff]
      cases hg : st.columns.get? n.key with
      | none => rfl
      | some i =>
        obtain ⟨m, hm, hmk⟩ := h0.sound _ _ hg
        exact absurd hmk (hk.2.2 m.key (List.mem_map.2 ⟨m, List.mem_of_getElem? hm, rfl⟩) n.key (by simp))
    rw [register_infos, hnc, if_neg (by simp), hst, infoList_append, infoList_length, Dict.set_of_notMem]
    rw [infoList_keys]
    intro hmem
    exact hnm.2.2 _ hmem _ (by simp) rfl
  · intro k i hi
    rw [register_infos] at hi
    split_ifs at hi
    · exact h0.flags k i hi
    · rw [Dict.get?_set] at hi
      split_ifs at hi with hk
      · cases hi; exact ⟨rfl, hk⟩
      · exact h0.flags k i hi

theorem createVariables_inv {x : OptCtx} {ports : PortExprs} {st : OptState} (h : x.createVariables ports {} = .ok st) :
    VarInv x ports x.instances st := by
  have h0 : VarInv x ports [] {} := ⟨.nil, fun k i h => (by cases h), fun n h => (by cases h), rfl, rfl, rfl,
    fun n h => (by cases h), fun _ _ => rfl, fun k i h => (by cases h)⟩
  have := loop_trace (VarInv x ports) (fun c => (x.strategy.getVariables c.model).flatMap fun v =>
    (indexList v.structure_.time x.T).flatMap fun t => (indexList v.structure_.scenario x.scenarios).map fun s => (⟨c, v, t, s⟩ : Inst))
    x.network.allComponents ?_ [] {} st h0 h
  · simpa [OptCtx.instances] using this
  intro c _ done s1 s2 hinv hs
  refine loop_trace (VarInv x ports) _ _ ?_ done s1 s2 hinv hs
  intro v _ done s1 s2 hinv hs
  unfold OptCtx.createVariablesOf at hs
  simp only [bind_ok_iff] at hs
  obtain ⟨lb, hlb, ub, hub, hs⟩ := hs
  have := loop_trace (VarInv x ports) (fun ts => [(⟨c, v, ts.1, ts.2⟩ : Inst)]) _ (fun ts _ done s1 s2 hi hs =>
    varInv_step hlb hub hi hs) done s1 s2 hinv hs
  unfold OptCtx.variableIndices at this
  rw [variableTimes_eq, variableScenarios_eq] at this
  convert this using 2
  rw [List.flatMap_assoc]
  congr 1
  funext t
  rw [List.flatMap_map, List.map_eq_flatMap]

end Verif
