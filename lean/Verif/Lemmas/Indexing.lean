import Verif.Lemmas.Expand

/-! Lemmas on the indexing visitor. -/

namespace Verif
open Expr

/-- one of the two dimensions: `true` for time, `false` for scenario -/
def Idx.dim (b : Bool) (i : Idx) : Bool := if b then i.time else i.scenario

theorem Idx.dim_or (b : Bool) (i j : Idx) : (i.or j).dim b = (i.dim b || j.dim b) := by
  cases b <;> rfl

theorem Idx.varying_dim {b : Bool} {i : Idx} (h : i.isTimeScenarioVarying = true) : i.dim b = true := by
  unfold Idx.isTimeScenarioVarying at h
  simp only [Bool.and_eq_true] at h
  cases b
  · exact h.2
  · exact h.1

theorem combineRest_dim {p : StructProvider} (b : Bool) (es : List Expr) :
    ∀ res i, combineRest p res es = .ok i → i.dim b = false →
      res.dim b = false ∧ ∀ e ∈ es, ∃ j, computeIndexation p e = .ok j ∧ j.dim b = false := by
  induction es with
  | nil =>
    intro res i h hi
    cases h
    exact ⟨hi, by simp⟩
  | cons e es ih =>
    intro res i h hi
    simp only [combineRest, bind_ok_iff] at h
    obtain ⟨j, hj, h⟩ := h
    split at h
    next hv => cases h; rw [Idx.varying_dim hv] at hi; cases hi
    next hv =>
      obtain ⟨h1, h2⟩ := ih _ _ h hi
      rw [Idx.dim_or, Bool.or_eq_false_iff] at h1
      refine ⟨h1.1, fun x hx => ?_⟩
      rcases List.mem_cons.1 hx with rfl | hx
      · exact ⟨j, hj, h1.2⟩
      · exact h2 x hx

theorem combineFirst_dim {p : StructProvider} (b : Bool) {es : List Expr} {i : Idx}
    (h : combineFirst p es = .ok i) (hi : i.dim b = false) :
    ∀ e ∈ es, ∃ j, computeIndexation p e = .ok j ∧ j.dim b = false := by
  cases es with
  | nil => simp
  | cons e es =>
    simp only [combineFirst, bind_ok_iff] at h
    obtain ⟨j, hj, h⟩ := h
    split at h
    next hv => cases h; rw [Idx.varying_dim hv] at hi; cases hi
    next hv =>
      obtain ⟨h1, h2⟩ := combineRest_dim b es _ _ h hi
      intro x hx
      rcases List.mem_cons.1 hx with rfl | hx
      · exact ⟨j, hj, h1⟩
      · exact h2 x hx

/-- the two-operand cases -/
theorem combine2_dim {p : StructProvider} (b : Bool) {l r : Expr} {i : Idx}
    (h : (do
      let a ← computeIndexation p l
      if a.isTimeScenarioVarying then .ok a
      else do
        let b ← computeIndexation p r
        .ok (a.or b)) = .ok i) (hi : i.dim b = false) :
    (∃ j, computeIndexation p l = .ok j ∧ j.dim b = false) ∧
    ∃ j, computeIndexation p r = .ok j ∧ j.dim b = false := by
  simp only [bind_ok_iff] at h
  obtain ⟨a, ha, h⟩ := h
  split at h
  next hv => cases h; rw [Idx.varying_dim hv] at hi; cases hi
  next hv =>
    simp only [bind_ok_iff, Except.ok.injEq] at h
    obtain ⟨c, hc, rfl⟩ := h
    rw [Idx.dim_or, Bool.or_eq_false_iff] at hi
    exact ⟨⟨a, ha, hi.1⟩, ⟨c, hc, hi.2⟩⟩

/-- The meaning does not depend on a dimension reported as irrelevant. -/
theorem den_indep {p : StructProvider} {D : DenCtx} (hv : ∀ c n i, p.cvar c n = .ok i → D.vidx c n = i)
    (hp : ∀ c n i, p.cpar c n = .ok i → D.pidx c n = i) (b : Bool) (e : Expr) :
    ∀ i, computeIndexation p e = .ok i → i.dim b = false →
      ∀ t t' s s', (b = true → s = s') → (b = false → t = t') → den D e t s = den D e t' s' := by
  induction e using Expr.ind with
  | lit v => intro i _ _ t t' s s' _ _; cases v <;> rfl
  | cvar c n =>
    intro i h hi t t' s s' hs ht
    have := hv c n i h
    cases b <;> simp_all [den, Idx.dim, atT, atS]
  | cpar c n =>
    intro i h hi t t' s s' hs ht
    have := hp c n i h
    cases b <;> simp_all [den, Idx.dim, atT, atS]
  | neg e ih => intro i h hi t t' s s' hs ht; simp only [den, ih i h hi t t' s s' hs ht]
  | add es ih =>
    intro i h hi t t' s s' hs ht
    rw [den_add, den_add]
    congr 1
    refine List.map_congr_left fun e he => ?_
    obtain ⟨j, hj, hjb⟩ := combineFirst_dim b h hi e he
    exact ih e he j hj hjb t t' s s' hs ht
  | mul l r ihl ihr =>
    intro i h hi t t' s s' hs ht
    obtain ⟨⟨j, hj, hjb⟩, ⟨k, hk, hkb⟩⟩ := combine2_dim b (by simpa only [computeIndexation] using h) hi
    simp only [den, ihl j hj hjb t t' s s' hs ht, ihr k hk hkb t t' s s' hs ht]
  | div l r ihl ihr =>
    intro i h hi t t' s s' hs ht
    obtain ⟨⟨j, hj, hjb⟩, ⟨k, hk, hkb⟩⟩ := combine2_dim b (by simpa only [computeIndexation] using h) hi
    simp only [den, ihl j hj hjb t t' s s' hs ht, ihr k hk hkb t t' s s' hs ht]
  | shift e k ih _ =>
    intro i h hi t t' s s' hs ht
    simp only [den]
    exact ih i h hi _ _ s s' hs fun hb => by rw [ht hb]
  | evalT e k ih _ =>
    intro i h hi t t' s s' hs ht
    simp only [computeIndexation, bind_ok_iff, Except.ok.injEq] at h
    obtain ⟨j, hj, rfl⟩ := h
    simp only [den]
    cases b with
    | true => rw [hs rfl]
    | false => exact ih j hj hi _ _ s s' hs fun _ => rfl
  | tsum e a c ih _ _ =>
    intro i h hi t t' s s' hs ht
    simp only [den]
    exact Finset.sum_congr rfl fun k _ => ih i h hi _ _ s s' hs fun hb => by rw [ht hb]
  | allsum e ih =>
    intro i h hi t t' s s' hs ht
    simp only [computeIndexation, bind_ok_iff, Except.ok.injEq] at h
    obtain ⟨j, hj, rfl⟩ := h
    simp only [den]
    cases b with
    | true => rw [hs rfl]
    | false => exact Finset.sum_congr rfl fun k _ => ih j hj hi _ _ s s' hs fun _ => rfl
  | scen e o ih =>
    intro i h hi t t' s s' hs ht
    simp only [computeIndexation, bind_ok_iff, Except.ok.injEq] at h
    obtain ⟨j, hj, rfl⟩ := h
    simp only [den]
    cases b with
    | false => rw [ht rfl]
    | true =>
      congr 1
      exact Finset.sum_congr rfl fun w _ => ih j hj hi _ _ w w (fun _ => rfl) fun hb => by cases hb
  | pvar c n ti si => intro i h; simp [computeIndexation] at h
  | ppar c n ti si => intro i h; simp [computeIndexation] at h
  | _ => intros; rfl

/-! ### Shape of the expansion of an expression reported independent of a dimension -/

/-- no index relative to the current timestep -/
def NoShift (ti : TIdx) (_ : SIdx) : Prop := ∀ k, ti ≠ .shift k
/-- no index relative to the current scenario -/
def NoCurrent (_ : TIdx) (si : SIdx) : Prop := si ≠ .current

/-- the predicate for the dimension -/
def NoRel (b : Bool) : TIdx → SIdx → Prop := if b then NoShift else NoCurrent

theorem noRel_shiftClosed (b : Bool) : ShiftClosed (NoRel b) := by
  intro ti si k h
  cases b
  · exact h
  · intro j
    cases ti with
    | none => simp [TIdx.applyShift]
    | shift i => exact absurd rfl (h i)
    | step u => simp [TIdx.applyShift]

theorem noRel_stepClosed (b : Bool) : StepClosed (NoRel b) := by
  intro ti si t c ti' h ht
  cases b
  · exact h
  · intro j
    cases ti with
    | none => cases ht; simp
    | shift i => exact absurd rfl (h i)
    | step u => cases c <;> simp [TIdx.applyStep] at ht; subst ht; simp

theorem noRel_scenClosed (b : Bool) : ScenClosed (NoRel b) := by
  intro ti si w h
  cases b
  · intro hs
    cases si <;> simp [SIdx.applyScenario] at hs
  · exact h

theorem step_noShift (ti : TIdx) (si : SIdx) (t : Int) (c : Bool) (ti' : TIdx) (ht : ti.applyStep t c = .ok ti') :
    NoShift ti' si := by
  intro j
  cases ti with
  | none => cases ht; simp
  | shift i => cases ht; simp
  | step u => cases c <;> simp [TIdx.applyStep] at ht; subst ht; simp

theorem expand_noRel {x : ExpandCtx} (b : Bool) (e : Expr) :
    ∀ i, computeIndexation x.structs e = .ok i → i.dim b = false → ∀ e', expand x e = .ok e' →
      AllSubs (OutP (NoRel b) True) e' := by
  induction e using Expr.ind with
  | lit v => intro i _ _ e' h'; exact allSubs_leaf h' rfl trivial
  | var n => intro i _ _ e' h'; exact allSubs_leaf h' rfl trivial
  | par n => intro i _ _ e' h'; exact allSubs_leaf h' rfl trivial
  | portField p f => intro i _ _ e' h'; exact allSubs_leaf h' rfl trivial
  | cvar c n =>
    intro i h hi e' h'
    simp only [expand, bind_ok_iff] at h'
    obtain ⟨j, hj, h'⟩ := h'
    simp only [computeIndexation] at h
    rw [h] at hj
    cases hj
    refine allSubs_leaf h' rfl ?_
    show NoRel b (timeIndexOf i) (scenIndexOf i)
    cases b <;> simp_all [NoRel, NoShift, NoCurrent, Idx.dim, timeIndexOf, scenIndexOf]
  | cpar c n =>
    intro i h hi e' h'
    simp only [expand, bind_ok_iff] at h'
    obtain ⟨j, hj, h'⟩ := h'
    simp only [computeIndexation] at h
    rw [h] at hj
    cases hj
    refine allSubs_leaf h' rfl ?_
    show NoRel b (timeIndexOf i) (scenIndexOf i)
    cases b <;> simp_all [NoRel, NoShift, NoCurrent, Idx.dim, timeIndexOf, scenIndexOf]
  | pvar c n ti si => intro i h; simp [computeIndexation] at h
  | ppar c n ti si => intro i h; simp [computeIndexation] at h
  | neg e ih =>
    intro i h hi e' h'
    simp only [expand, bind_ok_iff, Except.ok.injEq] at h'
    obtain ⟨a, ha, rfl⟩ := h'
    intro z hz
    rcases List.mem_cons.1 hz with rfl | hz
    · trivial
    · exact ih i h hi a ha z hz
  | add es ih =>
    intro i h hi e' h'
    rw [expand_add, bind_ok_iff] at h'
    obtain ⟨es', hes, hf⟩ := h'
    refine allSubs_foldAdd (fun _ => trivial) hf fun o ho => ?_
    obtain ⟨x, hx, hxo⟩ := forall₂_mem_right (appendAll_ok_iff.1 hes) ho
    obtain ⟨j, hj, hjb⟩ := combineFirst_dim b h hi x hx
    exact ih x hx j hj hjb o hxo
  | mul l r ihl ihr =>
    intro i h hi e' h'
    obtain ⟨⟨j, hj, hjb⟩, ⟨k, hk, hkb⟩⟩ := combine2_dim b (by simpa only [computeIndexation] using h) hi
    simp only [expand, bind_ok_iff, Except.ok.injEq] at h'
    obtain ⟨a, ha, c, hc, rfl⟩ := h'
    intro z hz
    simp only [mulOp, subs, List.mem_cons, List.mem_append] at hz
    rcases hz with rfl | hz | hz
    · trivial
    · exact ihl j hj hjb a ha z hz
    · exact ihr k hk hkb c hc z hz
  | div l r ihl ihr =>
    intro i h hi e' h'
    obtain ⟨⟨j, hj, hjb⟩, ⟨k, hk, hkb⟩⟩ := combine2_dim b (by simpa only [computeIndexation] using h) hi
    simp only [expand, bind_ok_iff, Except.ok.injEq] at h'
    obtain ⟨a, ha, c, hc, rfl⟩ := h'
    intro z hz
    simp only [divOp, subs, List.mem_cons, List.mem_append] at hz
    rcases hz with rfl | hz | hz
    · trivial
    · exact ihl j hj hjb a ha z hz
    · exact ihr k hk hkb c hc z hz
  | cmp l r o ihl ihr =>
    intro i h hi e' h'
    obtain ⟨⟨j, hj, hjb⟩, ⟨k, hk, hkb⟩⟩ := combine2_dim b (by simpa only [computeIndexation] using h) hi
    simp only [expand, bind_ok_iff, Except.ok.injEq] at h'
    obtain ⟨a, ha, c, hc, rfl⟩ := h'
    intro z hz
    simp only [subs, List.mem_cons, List.mem_append] at hz
    rcases hz with rfl | hz | hz
    · trivial
    · exact ihl j hj hjb a ha z hz
    · exact ihr k hk hkb c hc z hz
  | shift e k ihe _ =>
    intro i h hi e' h'
    simp only [expand, bind_ok_iff] at h'
    obtain ⟨n, hn, a, ha, hs⟩ := h'
    exact applyTimeshift_out (fun ti si hA => noRel_shiftClosed b ti si n hA) (ihe i h hi a ha) hs
  | tsum e m n ihe _ _ =>
    intro i h hi e' h'
    simp only [expand, bind_ok_iff, Except.ok.injEq] at h'
    obtain ⟨p, hp, q, hq, a, ha, nodes, hnodes, rfl⟩ := h'
    refine allSubs_sumExpressions (fun _ => trivial) trivial fun o ho => ?_
    obtain ⟨k, _, hk⟩ := forall₂_mem_right (appendAll_ok_iff.1 hnodes) ho
    exact applyTimeshift_out (fun ti si hA => noRel_shiftClosed b ti si k hA) (ihe i h hi a ha) hk
  | evalT e k ihe _ =>
    intro i h hi e' h'
    simp only [computeIndexation, bind_ok_iff, Except.ok.injEq] at h
    obtain ⟨j, hj, rfl⟩ := h
    simp only [expand, bind_ok_iff] at h'
    obtain ⟨n, hn, a, ha, hs⟩ := h'
    cases b with
    | true => exact applyTimestep_out (fun ti si ti' _ ht => step_noShift ti si n _ ti' ht) (expand_any ha) hs
    | false =>
      exact applyTimestep_out (fun ti si ti' hA ht => noRel_stepClosed false ti si n _ ti' hA ht) (ihe j hj hi a ha) hs
  | allsum e ihe =>
    intro i h hi e' h'
    simp only [computeIndexation, bind_ok_iff, Except.ok.injEq] at h
    obtain ⟨j, hj, rfl⟩ := h
    simp only [expand, bind_ok_iff, Except.ok.injEq] at h'
    obtain ⟨a, ha, nodes, hnodes, rfl⟩ := h'
    refine allSubs_sumExpressions (fun _ => trivial) trivial fun o ho => ?_
    obtain ⟨k, _, hk⟩ := forall₂_mem_right (appendAll_ok_iff.1 hnodes) ho
    cases b with
    | true => exact applyTimestep_out (fun ti si ti' _ ht => step_noShift ti si k _ ti' ht) (expand_any ha) hk
    | false =>
      exact applyTimestep_out (fun ti si ti' hA ht => noRel_stepClosed false ti si k _ ti' hA ht) (ihe j hj hi a ha) hk
  | scen e o ihe =>
    intro i h hi e' h'
    simp only [computeIndexation, bind_ok_iff, Except.ok.injEq] at h
    obtain ⟨j, hj, rfl⟩ := h
    simp only [expand] at h'
    split at h'
    · simp at h'
    simp only [bind_ok_iff, Except.ok.injEq] at h'
    obtain ⟨a, ha, nodes, hnodes, rfl⟩ := h'
    intro z hz
    simp only [divOp, wrapNum, subs, List.mem_cons, List.mem_append] at hz
    rcases hz with rfl | hz | hz
    · trivial
    · revert z
      refine allSubs_sumExpressions (P := OutP (NoRel b) True) (fun _ => trivial) trivial fun o ho => ?_
      obtain ⟨k, _, hk⟩ := forall₂_mem_right (appendAll_ok_iff.1 hnodes) ho
      cases b with
      | true => exact applyScenario_out (fun ti si hA => noRel_scenClosed true ti si k hA) (ihe j hj hi a ha) hk
      | false =>
        refine applyScenario_out (A := fun _ _ => True) (fun ti si _ => ?_) (expand_any ha) hk
        intro hs
        cases si <;> simp [SIdx.applyScenario] at hs
    · simp at hz; subst hz; trivial
  | agg e o ih => intro i h; simp [computeIndexation] at h

/-! ### Linearization of expressions without relative index -/

theorem linData_noRel (prov : Option ParamGetter) (b : Bool) (t t' s s' : Option Int) (hs : b = true → s = s')
    (ht : b = false → t = t') (e : Expr) :
    AllSubs (OutP (NoRel b) True) e → linData ⟨t, s, prov⟩ e = linData ⟨t', s', prov⟩ e := by
  have sub : ∀ {e x : Expr}, AllSubs (OutP (NoRel b) True) e → (∀ y ∈ x.subs, y ∈ e.subs) →
      AllSubs (OutP (NoRel b) True) x := fun h1 h2 y hy => h1 y (h2 y hy)
  have key : ∀ ti si, NoRel b ti si → getTimestep t ti = getTimestep t' ti ∧ getScenario s si = getScenario s' si := by
    intro ti si h
    cases b with
    | true =>
      rw [hs rfl]
      refine ⟨?_, rfl⟩
      cases ti with
      | none => rfl
      | shift k => exact absurd rfl (h k)
      | step u => rfl
    | false =>
      rw [ht rfl]
      refine ⟨rfl, ?_⟩
      cases si with
      | none => rfl
      | current => exact absurd rfl h
      | one w => rfl
  induction e using Expr.ind with
  | pvar c n ti si =>
    intro h
    obtain ⟨k1, k2⟩ := key ti si (h _ (mem_subs_self _))
    simp only [linData, k1, k2]
  | ppar c n ti si =>
    intro h
    obtain ⟨k1, k2⟩ := key ti si (h _ (mem_subs_self _))
    simp only [linData, k1, k2]
  | neg e ih => intro h; simp only [linData, ih (sub h (by simp +contextual [subs]))]
  | add es ih =>
    intro h
    rw [linData_add, linData_add, appendAll_congr]
    exact fun e he => ih e he (sub h fun y hy => mem_subs_add.2 (.inr ⟨e, he, hy⟩))
  | mul l r ihl ihr =>
    intro h
    simp only [linData, ihl (sub h (by simp +contextual [subs])), ihr (sub h (by simp +contextual [subs]))]
  | div l r ihl ihr =>
    intro h
    simp only [linData, ihl (sub h (by simp +contextual [subs])), ihr (sub h (by simp +contextual [subs]))]
  | _ => intro _; rfl

/-! ### Union of the operands (C08) -/

theorem combineRest_all {p : StructProvider} (es : List Expr) :
    ∀ res, res.isTimeScenarioVarying = false → ∀ is, appendAll (computeIndexation p) es = .ok is →
      combineRest p res es = .ok (is.foldl Idx.or res) := by
  induction es with
  | nil => intro res _ is h; cases h; rfl
  | cons e es ih =>
    intro res hres is h
    simp only [appendAll_cons, bind_ok_iff, Except.ok.injEq] at h
    obtain ⟨j, hj, js, hjs, rfl⟩ := h
    simp only [combineRest, hj, ok_bind, List.foldl_cons]
    by_cases hv : (res.or j).isTimeScenarioVarying
    · simp only [hv, if_true]
      have : ∀ (l : List Idx) (a : Idx), a.isTimeScenarioVarying = true → l.foldl Idx.or a = a := by
        intro l
        induction l with
        | nil => intro a _; rfl
        | cons b l ih =>
          intro a ha
          obtain ⟨t, u⟩ := a
          simp only [Idx.isTimeScenarioVarying, Bool.and_eq_true] at ha
          obtain ⟨rfl, rfl⟩ := ha
          exact ih _ rfl
      rw [this _ _ hv]
    · simp only [hv]
      exact ih _ (by simpa using hv) js hjs

end Verif
