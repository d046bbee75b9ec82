import Verif.Spec.Benders
import Verif.Props.Names

/-! Built problems are well formed: coefficients are on existing columns, the columns are registered under their names. -/

namespace Verif
open OptCtx

/-- the numbers used are those of columns -/
structure Shape (st : OptState) : Prop where
  columns : ∀ k i, st.columns.get? k = some i → i < st.solver.vars.length
  rows : ∀ r ∈ st.solver.rows, r.coefs.keys.Nodup ∧ ∀ i ∈ r.coefs.keys, i < st.solver.vars.length
  objective : st.solver.objective.keys.Nodup ∧ ∀ i ∈ st.solver.objective.keys, i < st.solver.vars.length
  infos : st.infos.keys.Nodup

theorem shape_variables {x : OptCtx} {ports : PortExprs} {st st' : OptState} (h0 : Shape st)
    (h : x.createVariables ports st = .ok st') : Shape st' := by
  refine loop_inv Shape _ (fun s1 s2 c _ h1 h2 => loop_inv Shape _ (fun s1 s2 v _ h1 h2 => ?_) s1 s2 h1 h2) st st' h0 h
  unfold OptCtx.createVariablesOf at h2
  simp only [bind_ok_iff] at h2
  obtain ⟨lb, _, ub, _, h2⟩ := h2
  refine loop_inv Shape _ (fun s1 s2 ts _ h1 h2 => ?_) s1 s2 h1 h2
  unfold OptCtx.createVariable at h2
  simp only [bind_ok_iff] at h2
  obtain ⟨lo, _, up, _, h2⟩ := h2
  split_ifs at h2
  cases h2
  have hlen : ∀ sv : SolverVar, ((s1.addColumn sv).register ⟨c.id, v.name, ts.1, ts.2⟩
      (x.solverVariableName c.id v.name ts.1 ts.2) s1.solver.vars.length).solver.vars.length = s1.solver.vars.length + 1 := by
    intro sv
    simp [OptState.addColumn, OptState.register]
  refine ⟨fun k i hk => ?_, fun r hr => ?_, ?_, ?_⟩
  · rw [hlen]
    simp only [OptState.addColumn, OptState.register, Dict.get?_set] at hk
    split at hk
    · cases hk; omega
    · have := h1.columns k i hk; omega
  · rw [hlen]
    obtain ⟨a, b⟩ := h1.rows r hr
    exact ⟨a, fun i hi => by have := b i hi; omega⟩
  · rw [hlen]
    obtain ⟨a, b⟩ := h1.objective
    exact ⟨a, fun i hi => by have := b i hi; omega⟩
  · show (Dict.keys (if _ then s1.infos else s1.infos.set _ _)).Nodup
    split_ifs
    · exact h1.infos
    · exact Dict.nodup_set h1.infos _ _

theorem get_lt {x : OptCtx} {st : OptState} (h0 : Shape st) {k : TermKey} {i : Nat}
    (h : x.componentVariable st.columns k = .ok i) : i < st.solver.vars.length := by
  unfold OptCtx.componentVariable at h
  split at h
  · rw [Props.get_ok_iff'] at h
    exact h0.columns _ _ h
  · simp only [bind_ok_iff, Props.get_ok_iff'] at h
    obtain ⟨u, _, h⟩ := h
    exact h0.columns _ _ h

theorem rowCoefs_shape {x : OptCtx} {st : OptState} (h0 : Shape st) (terms : List Term) (coefs : Dict Nat Num)
    (h : x.rowCoefs st.columns terms [] = .ok coefs) : coefs.keys.Nodup ∧ ∀ i ∈ coefs.keys, i < st.solver.vars.length := by
  refine loop_inv (fun d : Dict Nat Num => d.keys.Nodup ∧ ∀ i ∈ d.keys, i < st.solver.vars.length) _
    (fun s1 s2 u _ h1 h2 => ?_) [] coefs ⟨by simp [Dict.keys], by simp [Dict.keys]⟩ h
  simp only [bind_ok_iff] at h2
  obtain ⟨i, hi, h2⟩ := h2
  cases h2
  refine ⟨Dict.nodup_set h1.1 _ _, fun j hj => ?_⟩
  rw [Dict.mem_keys_set] at hj
  rcases hj with rfl | hj
  · exact get_lt h0 hi
  · exact h1.2 j hj

theorem shape_constraints {x : OptCtx} {ports : PortExprs} {st st' : OptState} (h0 : Shape st)
    (h : x.createConstraints ports st = .ok st') : Shape st' := by
  refine loop_inv Shape _ (fun s1 s2 c _ h1 h2 => loop_inv Shape _ (fun s1 s2 v _ h1 h2 => ?_) s1 s2 h1 h2) st st' h0 h
  unfold OptCtx.createConstraintOf OptCtx.createConstraint at h2
  simp only [bind_ok_iff] at h2
  obtain ⟨_, _, _, _, _, _, k', _, e2, _, i, _, h2⟩ := h2
  refine loop_inv Shape _ (fun s1 s2 t _ h1 h2 => loop_inv Shape _ (fun s1 s2 k h1' hp hs => ?_) s1 s2 h1 h2) s1 s2 h1 h2
  unfold OptCtx.createRow OptCtx.makeConstraint at hs
  simp only [bind_ok_iff] at hs
  obtain ⟨l, _, _, _, _, _, coefs, hc, hs⟩ := hs
  cases hs
  refine ⟨hp.columns, fun r hr => ?_, hp.objective, hp.infos⟩
  rcases List.mem_append.1 hr with hr | hr
  · exact hp.rows r hr
  · rw [List.mem_singleton] at hr
    subst hr
    exact rowCoefs_shape hp _ _ hc

theorem shape_objectives {x : OptCtx} {ports : PortExprs} {st st' : OptState} (h0 : Shape st)
    (h : x.createObjectives ports st = .ok st') : Shape st' := by
  refine loop_inv Shape _ (fun s1 s2 c _ h1 h2 => loop_inv Shape _ (fun s1 s2 o _ h1 h2 => ?_) s1 s2 h1 h2) st st' h0 h
  cases o with
  | none => cases h2; exact h1
  | some e =>
    simp only [OptCtx.createObjectiveOf, OptCtx.createObjective, bind_ok_iff] at h2
    obtain ⟨_, _, _, _, l, _, s3, hs3, hs⟩ := h2
    cases hs
    have h3 : Shape s3 := by
      refine loop_inv Shape _ (fun s1 s2 u _ h1 h2 => ?_) s1 s3 h1 hs3
      unfold OptCtx.objectiveTerm at h2
      rw [bind_ok_iff] at h2
      obtain ⟨i, hi, h2⟩ := h2
      split at h2
      · cases h2
      · rw [bind_ok_iff] at h2
        obtain ⟨info, _, h2⟩ := h2
        cases h2
        refine ⟨h1.columns, h1.rows, ⟨Dict.nodup_set h1.objective.1 _ _, fun j hj => ?_⟩, Dict.nodup_set h1.infos _ _⟩
        rw [Dict.mem_keys_set] at hj
        rcases hj with rfl | hj
        · exact get_lt h1 hi
        · exact h1.objective.2 j hj
    exact ⟨h3.columns, h3.rows, h3.objective, h3.infos⟩

theorem shape_build {x : OptCtx} {st : OptState} (h : x.buildProblem = .ok st) : Shape st := by
  obtain ⟨ports, st1, st2, _, h1, h2, h3⟩ := build_phases h
  refine shape_objectives (shape_constraints (shape_variables ⟨?_, ?_, ?_, ?_⟩ h1) h2) h3
  · intro k i h; cases h
  · intro r hr; cases hr
  · exact ⟨by simp [Dict.keys], by simp [Dict.keys]⟩
  · simp [Dict.keys]

/-- the names of the columns of a built problem -/
theorem build_names {x : OptCtx} (hn : x.NetworkOk) {st : OptState} (h : x.buildProblem = .ok st) :
    st.solver.vars.map (·.name) = x.instances.map x.instName := by
  obtain ⟨ports, _, hvars, _⟩ := build_columns hn h
  refine List.ext_getElem? fun i => ?_
  rw [List.getElem?_map, List.getElem?_map]
  cases hi : x.instances[i]? with
  | none =>
    rw [List.getElem?_eq_none (by rw [← hvars.length_eq]; exact List.getElem?_eq_none_iff.1 hi)]
    rfl
  | some n =>
    obtain ⟨v, hv, hm⟩ := (forall₂_getElem hvars).1 n hi
    rw [hv]
    obtain ⟨lb, ub, lo, up, -, -, -, -, -, rfl⟩ := hm.made
    simp only [Option.map_some, Option.some.injEq]
    cases n.var.dataType <;> rfl

theorem build_registered {x : OptCtx} (hn : x.NetworkOk) (hnames : (x.instances.map x.instName).Nodup) {st : OptState}
    (h : x.buildProblem = .ok st) : Registered st := by
  obtain ⟨h1, h2⟩ := Props.c31_bookkeeping x hn hnames st h
  have hs := shape_build h
  have hv := build_names hn h
  have hinfo : ∀ (i : Nat) (v : SolverVar), st.solver.vars[i]? = some v → ∃ b, st.infos.get? v.name = some ⟨v.name, i, b⟩ := by
    intro i v hi
    have : (x.instances.map x.instName)[i]? = some v.name := by rw [← hv, List.getElem?_map, hi]; rfl
    rw [List.getElem?_map] at this
    cases hx : x.instances[i]? with
    | none => rw [hx] at this; cases this
    | some n =>
      rw [hx] at this
      simp only [Option.map_some, Option.some.injEq] at this
      obtain ⟨info, hg, ha, hb, _, _⟩ := h1 i n hx
      rw [this] at hg ha
      refine ⟨info.isInObjective, ?_⟩
      rw [hg, ← ha, ← hb]
  have honly : ∀ name ∈ st.infos.keys, name ∈ st.solver.vars.map (·.name) := by
    intro name hname
    obtain ⟨info, hi⟩ := Dict.mem_keys_iff.1 hname
    obtain ⟨n, hn, rfl⟩ := h2 name info hi
    rw [hv]
    exact List.mem_map.2 ⟨n, hn, rfl⟩
  refine ⟨?_, hinfo, honly⟩
  have hperm : st.infos.keys.Perm (st.solver.vars.map (·.name)) := by
    rw [List.perm_ext_iff_of_nodup hs.infos (by rw [hv]; exact hnames)]
    refine fun a => ⟨honly a, fun ha => ?_⟩
    obtain ⟨v, hv', rfl⟩ := List.mem_map.1 ha
    obtain ⟨i, hi⟩ := List.getElem?_of_mem hv'
    obtain ⟨b, hb⟩ := hinfo i v hi
    exact Dict.mem_keys_iff.2 ⟨_, hb⟩
  have := hperm.length_eq
  simpa [Dict.keys] using this

theorem build_ok {x : OptCtx} (hn : x.NetworkOk) (hnames : (x.instances.map x.instName).Nodup) {st : OptState}
    (h : x.buildProblem = .ok st) (name : String) : Problem.Ok ⟨name, st⟩ := by
  have hs := shape_build h
  refine ⟨hs.rows, hs.objective, fun v hv => ?_⟩
  obtain ⟨i, hi⟩ := List.getElem?_of_mem hv
  obtain ⟨b, hb⟩ := (build_registered hn hnames h).info i v hi
  exact ⟨_, hb⟩

end Verif
