import Verif.Spec.Benders
import Verif.Lemmas.Rows

/-! # Lemmas on the merging of problems -/

namespace Verif

theorem coefOf_notMem {d : Dict Nat Num} {i : Nat} (h : i ∉ d.keys) : coefOf d i = 0 := by
  unfold coefOf
  rw [Dict.get?_eq_none_iff.2 h]
  rfl

theorem toQ_zero : (0 : Num).toQ = 0 := rfl

theorem eqb_zero {c : Num} (h : c.eqb 0 = true) : c = 0 := by
  cases c <;> simp_all [Num.eqb, Num.zero_def]

theorem eqb_zero_iff {c : Num} : c.eqb 0 = true ↔ c = 0 := by
  refine ⟨eqb_zero, ?_⟩
  rintro rfl
  decide +kernel

/-- a linear form with one coefficient per column, as a sum over the columns -/
theorem linForm_columns (d : Dict Nat Num) (nd : d.keys.Nodup) (n : Nat) (hlt : ∀ i ∈ d.keys, i < n) (x : Nat → ℚ) :
    linForm d x = ((List.range n).map fun i => (coefOf d i).toQ * x i).sum := by
  induction d with
  | nil =>
    have : ∀ i ∈ List.range n, (coefOf [] i).toQ * x i = 0 := fun i _ => by
      rw [coefOf_notMem (by simp [Dict.keys]), toQ_zero, zero_mul]
    rw [List.map_congr_left this]
    simp [linForm]
  | cons kv d ih =>
    obtain ⟨k, v⟩ := kv
    have hk : k ∉ Dict.keys d := by
      simp only [Dict.keys, List.map_cons, List.nodup_cons] at nd
      exact nd.1
    have nd' : Dict.keys d |>.Nodup := by
      simp only [Dict.keys, List.map_cons, List.nodup_cons] at nd
      exact nd.2
    have hkn : k < n := hlt k (by simp [Dict.keys])
    have hih := ih nd' (fun i hi => hlt i (by simp only [Dict.keys, List.map_cons, List.mem_cons]; exact .inr hi))
    have hlin : linForm ((k, v) :: d) x = v.toQ * x k + linForm d x := rfl
    rw [hlin, hih]
    have hterm : ∀ i, (coefOf ((k, v) :: d) i).toQ * x i = (if i = k then v.toQ * x k else 0) + (coefOf d i).toQ * x i := by
      intro i
      by_cases hik : i = k
      · subst hik
        rw [coefOf_notMem hk, if_pos rfl, toQ_zero, zero_mul, add_zero]
        simp [coefOf]
      · rw [if_neg hik, zero_add]
        have : coefOf ((k, v) :: d) i = coefOf d i := by
          unfold coefOf
          rw [Dict.get?_cons, if_neg (fun h => hik h.symm)]
        rw [this]
    have hmap : ((List.range n).map fun i => (coefOf ((k, v) :: d) i).toQ * x i) =
        (List.range n).map fun i => (if i = k then v.toQ * x k else 0) + (coefOf d i).toQ * x i :=
      List.map_congr_left fun i _ => hterm i
    rw [hmap, List.sum_map_add]
    congr 1
    clear hmap hterm hih hlin ih hlt
    induction n with
    | zero => omega
    | succ n ihn =>
      rw [List.range_succ, List.map_append, List.sum_append]
      by_cases hk' : k = n
      · subst hk'
        have : ∀ i ∈ List.range k, (if i = k then v.toQ * x k else 0) = 0 := fun i hi => by
          rw [List.mem_range] at hi
          rw [if_neg (by omega)]
        rw [List.map_congr_left this]
        simp
      · rw [← ihn (by omega)]
        simp [Ne.symm hk']

/-! ## Rows -/

/-- effect on the entry of one row -/
def fuseEntry (key : String) (col : Nat) (c : Num) (r : Row) (o : Option Row) : Option Row :=
  if c.eqb 0 then o else some { o.getD ⟨key, [], r.lb, r.ub⟩ with coefs := (o.getD ⟨key, [], r.lb, r.ub⟩).coefs.set col c }

theorem fuseRow_get (m : String) (i col : Nat) (D : Dict String Row) (r : Row) (K : String) :
    (fuseRow m i col D r).get? K =
      if m ++ "_" ++ r.name = K then fuseEntry (m ++ "_" ++ r.name) col (coefOf r.coefs i) r (D.get? K) else D.get? K := by
  unfold fuseRow fuseEntry
  by_cases h : (coefOf r.coefs i).eqb 0 = true
  · simp [h]
  · simp only [h, Bool.false_eq_true, if_false, Dict.get?_set]
    split
    · rename_i hk
      subst hk
      rfl
    · rfl

theorem fuseRow_nodup (m : String) (i col : Nat) (D : Dict String Row) (r : Row) (h : D.keys.Nodup) :
    (fuseRow m i col D r).keys.Nodup := by
  unfold fuseRow
  simp only
  split
  · exact h
  · exact Dict.nodup_set h _ _

theorem fuseRows_nodup (m : String) (i col : Nat) (rows : List Row) (D : Dict String Row) (h : D.keys.Nodup) :
    (rows.foldl (fuseRow m i col) D).keys.Nodup := by
  induction rows generalizing D with
  | nil => exact h
  | cons r rows ih => exact ih _ (fuseRow_nodup m i col D r h)

theorem fuseRows_other (m : String) (i col : Nat) (rows : List Row) (D : Dict String Row) (K : String)
    (h : ∀ r ∈ rows, m ++ "_" ++ r.name ≠ K) : (rows.foldl (fuseRow m i col) D).get? K = D.get? K := by
  induction rows generalizing D with
  | nil => rfl
  | cons r rows ih =>
    rw [List.foldl_cons, ih _ (fun r hr => h r (by simp [hr])), fuseRow_get, if_neg (h r (by simp))]

theorem fuseRows_get (m : String) (i col : Nat) (rows : List Row) (D : Dict String Row)
    (nd : (rows.map fun r => m ++ "_" ++ r.name).Nodup) (r : Row) (hr : r ∈ rows) :
    (rows.foldl (fuseRow m i col) D).get? (m ++ "_" ++ r.name) =
      fuseEntry (m ++ "_" ++ r.name) col (coefOf r.coefs i) r (D.get? (m ++ "_" ++ r.name)) := by
  induction rows generalizing D with
  | nil => cases hr
  | cons r0 rows ih =>
    simp only [List.map_cons, List.nodup_cons, List.mem_map, not_exists, not_and] at nd
    rw [List.foldl_cons]
    rcases List.mem_cons.1 hr with rfl | hr'
    · rw [fuseRows_other m i col rows _ _ nd.1, fuseRow_get, if_pos rfl]
    · rw [ih _ nd.2 hr', fuseRow_get, if_neg (fun h => nd.1 r hr' h.symm)]

/-! ## Columns -/

/-- bounds of the merged columns -/
def updBounds (done : List SolverVar) (w : SolverVar) : SolverVar :=
  match done.find? fun v => v.name == w.name with
  | some v => { w with lb := v.lb, ub := v.ub }
  | none => w

/-- a column added by the merge -/
def relaxed (v : SolverVar) : SolverVar := ⟨v.name, v.lb, v.ub, false⟩

/-- the columns of the root once the columns `done` of the masters are merged -/
def mergedVars (coupler : List SolverVar) (done : List SolverVar) : List SolverVar :=
  coupler.map (updBounds done) ++ (done.filter fun v => !(coupler.map (·.name)).contains v.name).map relaxed

theorem updBounds_name (done : List SolverVar) (w : SolverVar) : (updBounds done w).name = w.name := by
  unfold updBounds
  split <;> rfl

theorem updBounds_snoc_ne (done : List SolverVar) (v w : SolverVar) (h : v.name ≠ w.name) :
    updBounds (done ++ [v]) w = updBounds done w := by
  unfold updBounds
  rw [List.find?_append]
  cases hf : done.find? fun v => v.name == w.name with
  | some x => rfl
  | none => simp [h]

theorem updBounds_snoc_eq (done : List SolverVar) (v w : SolverVar) (h : v.name = w.name)
    (hd : ∀ x ∈ done, x.name ≠ w.name) : updBounds (done ++ [v]) w = { w with lb := v.lb, ub := v.ub } := by
  unfold updBounds
  have : (done.find? fun v => v.name == w.name) = none := by
    rw [List.find?_eq_none]
    intro x hx
    simpa using hd x hx
  rw [List.find?_append, this]
  simp [h]

theorem mergedVars_names (coupler done : List SolverVar) :
    (mergedVars coupler done).map (·.name) =
      coupler.map (·.name) ++ (done.filter fun v => !(coupler.map (·.name)).contains v.name).map (·.name) := by
  unfold mergedVars
  rw [List.map_append, List.map_map, List.map_map]
  congr 1
  apply List.map_congr_left
  intro w _
  exact updBounds_name done w

theorem rootVars_get (coupler : OptState) (nd : (coupler.solver.vars.map (·.name)).Nodup) (name : String) (c : Nat) :
    (rootVars coupler).get? name = some c ↔ ∃ w, coupler.solver.vars[c]? = some w ∧ w.name = name := by
  have hkeys : ((coupler.solver.vars.zipIdx.map fun vi => (vi.1.name, vi.2)).map Prod.fst) = coupler.solver.vars.map (·.name) := by
    rw [List.map_map]
    have : (Prod.fst ∘ fun vi : SolverVar × Nat => (vi.1.name, vi.2)) = (fun v : SolverVar => v.name) ∘ Prod.fst := rfl
    rw [this, ← List.map_map, List.zipIdx_map_fst]
  unfold rootVars
  rw [Dict.ofItems_of_nodup (by rw [hkeys]; exact nd)]
  rw [Dict.get?_eq_some_iff (by unfold Dict.keys; rw [hkeys]; exact nd)]
  simp only [List.mem_map, Prod.mk.injEq]
  constructor
  · rintro ⟨vi, hvi, h1, h2⟩
    have := List.mem_zipIdx_iff_getElem?.1 hvi
    rw [h2] at this
    exact ⟨vi.1, this, h1⟩
  · rintro ⟨w, hw, h1⟩
    exact ⟨(w, c), List.mem_zipIdx_iff_getElem?.2 hw, h1, rfl⟩

theorem rootVars_none (coupler : OptState) (nd : (coupler.solver.vars.map (·.name)).Nodup) (name : String) :
    (rootVars coupler).get? name = none ↔ name ∉ coupler.solver.vars.map (·.name) := by
  constructor
  · intro h hm
    obtain ⟨w, hw, hn⟩ := List.mem_map.1 hm
    obtain ⟨c, hc⟩ := List.getElem?_of_mem hw
    have := (rootVars_get coupler nd name c).2 ⟨w, hc, hn⟩
    rw [h] at this
    cases this
  · intro h
    cases hg : (rootVars coupler).get? name with
    | none => rfl
    | some c =>
      obtain ⟨w, hw, hn⟩ := (rootVars_get coupler nd name c).1 hg
      exact absurd (List.mem_map.2 ⟨w, List.mem_of_getElem? hw, hn⟩) h

theorem pointOf_prefix {sv sv' : Solver} (h : sv.vars.map (·.name) <+: sv'.vars.map (·.name)) (val : String → ℚ) (i : Nat)
    (hi : i < sv.vars.length) : sv'.pointOf val i = sv.pointOf val i := by
  obtain ⟨t, ht⟩ := h
  have hi' : i < sv'.vars.length := by
    have := congrArg List.length ht
    simp at this
    omega
  have h1 : (sv'.vars.map (·.name))[i]? = (sv.vars.map (·.name))[i]? := by
    rw [← ht, List.getElem?_append_left (by simpa using hi)]
  rw [List.getElem?_map, List.getElem?_map, List.getElem?_eq_getElem hi, List.getElem?_eq_getElem hi'] at h1
  unfold Solver.pointOf
  rw [List.getElem?_eq_getElem hi, List.getElem?_eq_getElem hi']
  simp only [Option.map_some, Option.some.injEq] at h1
  simp only [h1]

theorem linForm_congr {d : Dict Nat Num} {x y : Nat → ℚ} (h : ∀ i ∈ d.keys, x i = y i) : linForm d x = linForm d y := by
  unfold linForm
  congr 1
  apply List.map_congr_left
  intro kv hkv
  rw [h kv.1 (List.mem_map.2 ⟨kv, hkv, rfl⟩)]

/-! ## One column -/

/-- the root after the columns `done` -/
structure RootInv (coupler : OptState) (done : List SolverVar) (root : OptState) : Prop where
  vars : root.solver.vars = mergedVars coupler.solver.vars done
  rows : root.solver.rows = coupler.solver.rows
  offset : root.solver.offset = coupler.solver.offset
  registered : Registered root

theorem registered_names {st : OptState} (h : Registered st) (v : SolverVar) (hv : v ∈ st.solver.vars) :
    ∃ i b, st.infos.get? v.name = some ⟨v.name, i, b⟩ := by
  obtain ⟨i, hi⟩ := List.getElem?_of_mem hv
  obtain ⟨b, hb⟩ := h.info i v hi
  exact ⟨i, b, hb⟩

theorem fuseColumn_ok (coupler : OptState) (nd : (coupler.solver.vars.map (·.name)).Nodup) (done : List SolverVar)
    (root : OptState) (inv : RootInv coupler done root) (master : OptState) (v : SolverVar)
    (hv : ∃ i, master.infos.get? v.name = some i) (hfresh : ∀ x ∈ done, x.name ≠ v.name) :
    ∃ root' col, fuseColumn (rootVars coupler) master root v = .ok (root', col) ∧ RootInv coupler (done ++ [v]) root' ∧
      root'.solver.objective = root.solver.objective ∧ col < root'.solver.vars.length ∧
      (∀ val, root'.solver.pointOf val col = val v.name) ∧
      (root.solver.vars.map (·.name)) <+: (root'.solver.vars.map (·.name)) ∧
      (∃ w, root'.solver.vars[col]? = some w ∧ w.name = v.name) := by
  obtain ⟨info, hinfo⟩ := hv
  have hget : master.infos.get v.name = .ok info := by unfold Dict.get; rw [hinfo]
  unfold fuseColumn
  rw [hget, ok_bind]
  cases hroot : (rootVars coupler).get? v.name with
  | none =>
    have hnot := (rootVars_none coupler nd v.name).1 hroot
    have hvars : root.solver.vars ++ [⟨v.name, v.lb, v.ub, false⟩] = mergedVars coupler.solver.vars (done ++ [v]) := by
      rw [inv.vars]
      unfold mergedVars
      rw [List.filter_append, List.map_append, ← List.append_assoc]
      congr 1
      · congr 1
        apply List.map_congr_left
        intro w hw
        exact (updBounds_snoc_ne done v w (fun h => hnot (List.mem_map.2 ⟨w, hw, h.symm⟩))).symm
      · have : (!(coupler.solver.vars.map (·.name)).contains v.name) = true := by simpa using hnot
        simp only [List.filter_cons, this, if_true, List.filter_nil, List.map_cons, List.map_nil, relaxed]
    have hnew : v.name ∉ root.solver.vars.map (·.name) := by
      rw [inv.vars, mergedVars_names, List.mem_append]
      rintro (h | h)
      · exact hnot h
      · obtain ⟨x, hx, hxe⟩ := List.mem_map.1 h
        exact hfresh x (List.mem_filter.1 hx).1 hxe
    have hnewi : v.name ∉ root.infos.keys := fun h => hnew (inv.registered.only _ h)
    refine ⟨_, _, rfl, ⟨hvars, inv.rows, inv.offset, ?_⟩, rfl, by simp, ?_, ?_, ?_⟩
    · refine ⟨?_, ?_, ?_⟩
      · simp only [Dict.set_of_notMem hnewi, List.length_append, List.length_singleton, inv.registered.length]
      · intro i w hw
        simp only at hw ⊢
        by_cases hi : i < root.solver.vars.length
        · rw [List.getElem?_append_left hi] at hw
          obtain ⟨b, hb⟩ := inv.registered.info i w hw
          refine ⟨b, ?_⟩
          rw [Dict.get?_set_ne _ _ (fun h => hnew (List.mem_map.2 ⟨w, List.mem_of_getElem? hw, h.symm⟩)), hb]
        · by_cases hi' : i = root.solver.vars.length
          · subst hi'
            simp at hw
            subst hw
            exact ⟨info.isInObjective, by rw [Dict.get?_set_self, inv.registered.length]⟩
          · rw [List.getElem?_eq_none (by simp; omega)] at hw
            cases hw
      · intro name hname
        rw [Dict.mem_keys_set] at hname
        simp only [List.map_append, List.mem_append, List.map_cons, List.map_nil, List.mem_singleton]
        rcases hname with rfl | hname
        · exact .inr rfl
        · exact .inl (inv.registered.only _ hname)
    · intro val
      simp [Solver.pointOf]
    · simp
    · exact ⟨⟨v.name, v.lb, v.ub, false⟩, by simp, rfl⟩
  | some col =>
    obtain ⟨w, hw, hwn⟩ := (rootVars_get coupler nd v.name col).1 hroot
    have hcol : col < coupler.solver.vars.length := by
      by_contra hx
      rw [List.getElem?_eq_none (by omega)] at hw
      cases hw
    have hupd : updBounds done w = w := by
      unfold updBounds
      have : (done.find? fun v => v.name == w.name) = none := by
        rw [List.find?_eq_none]
        intro x hx
        have := hfresh x hx
        rw [hwn]
        simpa using this
      rw [this]
    have hrw : root.solver.vars[col]? = some w := by
      rw [inv.vars]
      unfold mergedVars
      rw [List.getElem?_append_left (by simpa using hcol), List.getElem?_map, hw, Option.map_some, hupd]
    obtain ⟨b, hb⟩ := inv.registered.info col w hrw
    have hb' : root.infos.get? v.name = some ⟨v.name, col, b⟩ := by rw [← hwn]; exact hb
    have hgetr : root.infos.get v.name = .ok ⟨v.name, col, b⟩ := by unfold Dict.get; rw [hb']
    simp only [hgetr, ok_bind, hrw]
    have hvars : root.solver.vars.set col { w with lb := v.lb, ub := v.ub } = mergedVars coupler.solver.vars (done ++ [v]) := by
      rw [inv.vars]
      unfold mergedVars
      rw [List.set_append_left _ _ (by simpa using hcol), List.filter_append]
      have hcont : (coupler.solver.vars.map (·.name)).contains v.name = true := by
        simpa using ⟨w, List.mem_of_getElem? hw, hwn⟩
      have htail : (List.filter (fun v => !(coupler.solver.vars.map (·.name)).contains v.name) [v]) = [] := by
        simp only [List.filter_cons, hcont, Bool.not_true, Bool.false_eq_true, if_false, List.filter_nil]
      rw [htail, List.append_nil]
      congr 1
      apply List.ext_getElem?
      intro j
      rw [List.getElem?_set, List.getElem?_map, List.getElem?_map]
      by_cases hj : col = j
      · subst hj
        simp only [if_true, List.length_map, hcol, hw, Option.map_some]
        rw [updBounds_snoc_eq done v w hwn.symm (by rw [hwn]; exact hfresh)]
      · rw [if_neg hj]
        cases hgj : coupler.solver.vars[j]? with
        | none => rfl
        | some x =>
          simp only [Option.map_some, Option.some.injEq]
          refine (updBounds_snoc_ne done v x ?_).symm
          intro hvx
          apply hj
          have h1 : (coupler.solver.vars.map (·.name))[col]? = some v.name := by rw [List.getElem?_map, hw, Option.map_some, hwn]
          have h2 : (coupler.solver.vars.map (·.name))[j]? = some v.name := by rw [List.getElem?_map, hgj, Option.map_some, hvx]
          exact (List.getElem?_inj (by simpa using hcol) nd).1 (h1.trans h2.symm)
    have hnames : (root.solver.vars.set col { w with lb := v.lb, ub := v.ub }).map (·.name) = root.solver.vars.map (·.name) := by
      rw [List.map_set]
      apply List.ext_getElem?
      intro j
      rw [List.getElem?_set]
      split
      · rename_i hj
        subst hj
        rw [List.getElem?_map, hrw]
        split
        · rfl
        · rename_i hlt
          exfalso
          apply hlt
          rw [List.length_map]
          by_contra hx
          rw [List.getElem?_eq_none (by omega)] at hrw
          cases hrw
      · rfl
    have hrlt : col < root.solver.vars.length := by
      by_contra hx
      rw [List.getElem?_eq_none (by omega)] at hrw
      cases hrw
    refine ⟨_, _, rfl, ⟨hvars, inv.rows, inv.offset, ?_⟩, rfl, ?_, ?_, ?_, ?_⟩
    · refine ⟨?_, ?_, ?_⟩
      · have hmem : v.name ∈ root.infos.keys := Dict.mem_keys_iff.2 ⟨_, hb'⟩
        have hlen : (root.infos.set v.name { name := v.name, columnId := col, isInObjective := info.isInObjective }).length = root.infos.length := by
          have := congrArg List.length (Dict.keys_set root.infos v.name
            { name := v.name, columnId := col, isInObjective := info.isInObjective })
          rw [if_pos hmem] at this
          simpa [Dict.keys] using this
        simp only [List.length_set]
        rw [hlen, inv.registered.length]
      · intro i x hx
        simp only at hx ⊢
        have hx' : ∃ y, root.solver.vars[i]? = some y ∧ y.name = x.name := by
          rw [List.getElem?_set] at hx
          split at hx
          · rename_i hi
            subst hi
            simp only [hrlt, if_true, Option.some.injEq] at hx
            subst hx
            exact ⟨w, hrw, rfl⟩
          · exact ⟨x, hx, rfl⟩
        obtain ⟨y, hy, hyx⟩ := hx'
        obtain ⟨b', hb''⟩ := inv.registered.info i y hy
        rw [hyx] at hb''
        by_cases hxv : v.name = x.name
        · rw [← hxv] at hb'' ⊢
          rw [hb'] at hb''
          cases hb''
          exact ⟨_, Dict.get?_set_self _ _ _⟩
        · exact ⟨b', by rw [Dict.get?_set_ne _ _ hxv, hb'']⟩
      · intro name hname
        rw [Dict.mem_keys_set] at hname
        simp only [hnames]
        rcases hname with rfl | hname
        · exact List.mem_map.2 ⟨w, List.mem_of_getElem? hrw, hwn⟩
        · exact inv.registered.only _ hname
    · simpa using hrlt
    · intro val
      simp [Solver.pointOf, hrlt, hwn]
    · simp only [hnames]; exact List.prefix_rfl
    · exact ⟨{ w with lb := v.lb, ub := v.ub }, by simp [hrlt], hwn⟩

/-! ## Masters -/

/-- the name of a row in the merged problem -/
def rowKey (m : Problem) (r : Row) : String := m.name ++ "_" ++ r.name

/-- the columns merged so far, when `k` columns of each master are -/
def doneVars (done : List (Problem × Nat)) : List SolverVar := done.flatMap fun mk => mk.1.state.solver.vars.take mk.2

/-- value of the first `k` terms of a form on the columns of a master -/
def partialForm (m : Problem) (coefs : Dict Nat Num) (k : Nat) (val : String → ℚ) : ℚ :=
  ((List.range k).map fun i => (coefOf coefs i).toQ * m.state.solver.pointOf val i).sum

theorem partialForm_succ (m : Problem) (coefs : Dict Nat Num) (k : Nat) (val : String → ℚ) :
    partialForm m coefs (k + 1) val = partialForm m coefs k val + (coefOf coefs k).toQ * m.state.solver.pointOf val k := by
  unfold partialForm
  rw [List.range_succ, List.map_append, List.sum_append]
  simp

/-- the entry of a row once `k` columns of its master are merged -/
def RowState (sv : Solver) (m : Problem) (k : Nat) (r : Row) : Option Row → Prop
  | none => ∀ i < k, coefOf r.coefs i = 0
  | some row =>
    row.name = rowKey m r ∧ row.lb = r.lb ∧ row.ub = r.ub ∧ (∃ i < k, coefOf r.coefs i ≠ 0) ∧
    (∀ c ∈ row.coefs.keys, c < sv.vars.length ∧ ∃ i < k, ∃ v, m.state.solver.vars[i]? = some v ∧
      sv.vars[c]?.map (·.name) = some v.name) ∧
    ∀ val, linForm row.coefs (sv.pointOf val) = partialForm m r.coefs k val

theorem getElem?_names_prefix {sv sv' : Solver} (h : sv.vars.map (·.name) <+: sv'.vars.map (·.name)) (c : Nat)
    (hc : c < sv.vars.length) : sv'.vars[c]?.map (·.name) = sv.vars[c]?.map (·.name) := by
  obtain ⟨t, ht⟩ := h
  rw [← List.getElem?_map, ← List.getElem?_map, ← ht, List.getElem?_append_left (by simpa using hc)]

theorem length_prefix {sv sv' : Solver} (h : sv.vars.map (·.name) <+: sv'.vars.map (·.name)) :
    sv.vars.length ≤ sv'.vars.length := by
  have := h.length_le
  simpa using this

theorem RowState.mono {sv sv' : Solver} (h : sv.vars.map (·.name) <+: sv'.vars.map (·.name)) {m : Problem} {k : Nat} {r : Row}
    {o : Option Row} (hs : RowState sv m k r o) : RowState sv' m k r o := by
  cases o with
  | none => exact hs
  | some row =>
    obtain ⟨h1, h2, h3, h4, h5, h6⟩ := hs
    refine ⟨h1, h2, h3, h4, ?_, ?_⟩
    · intro c hc
      obtain ⟨hlt, i, hi, v, hv, hn⟩ := h5 c hc
      exact ⟨by have := length_prefix h; omega, i, hi, v, hv, by rw [getElem?_names_prefix h c hlt, hn]⟩
    · intro val
      rw [← h6 val]
      exact linForm_congr fun c hc => pointOf_prefix h val c (h5 c hc).1

/-- the state of the merge -/
structure FInv (coupler : OptState) (done : List (Problem × Nat)) (f : Fusion) : Prop where
  root : RootInv coupler (doneVars done) f.root
  nodup : f.newRows.keys.Nodup
  source : ∀ K ∈ f.newRows.keys, ∃ mk ∈ done, ∃ r ∈ mk.1.state.solver.rows, K = rowKey mk.1 r
  rows : ∀ mk ∈ done, ∀ r ∈ mk.1.state.solver.rows, RowState f.root.solver mk.1 mk.2 r (f.newRows.get? (rowKey mk.1 r))
  objKeys : ∀ c ∈ f.root.solver.objective.keys, c < f.root.solver.vars.length ∧
    ∃ v ∈ doneVars done, f.root.solver.vars[c]?.map (·.name) = some v.name
  objNodup : f.root.solver.objective.keys.Nodup
  obj : ∀ val, linForm f.root.solver.objective (f.root.solver.pointOf val) =
    (done.map fun mk => partialForm mk.1 mk.1.state.solver.objective mk.2 val).sum

theorem doneVars_snoc (init : List (Problem × Nat)) (m : Problem) (k : Nat) :
    doneVars (init ++ [(m, k)]) = doneVars init ++ m.state.solver.vars.take k := by
  simp [doneVars]

theorem fuseRows_keys (m : String) (i col : Nat) (rows : List Row) (D : Dict String Row) (K : String)
    (h : K ∈ (rows.foldl (fuseRow m i col) D).keys) : K ∈ D.keys ∨ ∃ r ∈ rows, K = m ++ "_" ++ r.name := by
  by_cases hk : ∃ r ∈ rows, K = m ++ "_" ++ r.name
  · exact .inr hk
  · left
    obtain ⟨v, hv⟩ := Dict.mem_keys_iff.1 h
    rw [fuseRows_other m i col rows D K (fun r hr he => hk ⟨r, hr, he.symm⟩)] at hv
    exact Dict.mem_keys_iff.2 ⟨v, hv⟩

theorem set_keys_lt {d : Dict Nat Num} {c : Nat} {x : Num} {i : Nat} (h : i ∈ (d.set c x).keys) : i = c ∨ i ∈ d.keys := by
  rw [Dict.mem_keys_set] at h
  exact h

theorem fuseVariable_ok (coupler : OptState) (ndc : (coupler.solver.vars.map (·.name)).Nodup) (init : List (Problem × Nat))
    (m : Problem) (k : Nat) (v : SolverVar) (hv : m.state.solver.vars[k]? = some v)
    (hinfo : ∃ i, m.state.infos.get? v.name = some i) (hmn : m.names.Nodup)
    (hfresh : ∀ x ∈ doneVars init, x.name ∉ m.names) (hrk : m.rowKeys.Nodup)
    (hdisj : ∀ mk ∈ init, ∀ r ∈ mk.1.state.solver.rows, rowKey mk.1 r ∉ m.rowKeys) (f : Fusion)
    (inv : FInv coupler (init ++ [(m, k)]) f) :
    ∃ f', fuseVariable (rootVars coupler) m f (v, k) = .ok f' ∧ FInv coupler (init ++ [(m, k + 1)]) f' := by
  have hk : k < m.state.solver.vars.length := by
    by_contra hx
    rw [List.getElem?_eq_none (by omega)] at hv
    cases hv
  have hvn : v.name ∈ m.names := List.mem_map.2 ⟨v, List.mem_of_getElem? hv, rfl⟩
  have hidx : ∀ i w, m.state.solver.vars[i]? = some w → w.name = v.name → i = k := by
    intro i w hw hwv
    have h1 : m.names[i]? = some v.name := by unfold Problem.names; rw [List.getElem?_map, hw, Option.map_some, hwv]
    have h2 : m.names[k]? = some v.name := by unfold Problem.names; rw [List.getElem?_map, hv, Option.map_some]
    refine (List.getElem?_inj ?_ hmn).1 (h1.trans h2.symm)
    by_contra hx
    rw [List.getElem?_eq_none (by omega)] at h1
    cases h1
  have htake : m.state.solver.vars.take (k + 1) = m.state.solver.vars.take k ++ [v] := by
    rw [List.take_succ, hv]
    rfl
  have hfr : ∀ x ∈ doneVars (init ++ [(m, k)]), x.name ≠ v.name := by
    intro x hx hxe
    rw [doneVars_snoc, List.mem_append] at hx
    rcases hx with hx | hx
    · exact hfresh x hx (hxe ▸ hvn)
    · obtain ⟨i, hi⟩ := List.getElem?_of_mem hx
      rw [List.getElem?_take] at hi
      split at hi
      · rename_i hik
        have := hidx i x hi hxe
        omega
      · cases hi
  obtain ⟨root', col, hcol, hroot', hobj', hlt, hpt, hpre, w, hw, hwn⟩ :=
    fuseColumn_ok coupler ndc _ f.root inv.root m.state v hinfo hfr
  have hdone : doneVars (init ++ [(m, k)]) ++ [v] = doneVars (init ++ [(m, k + 1)]) := by
    rw [doneVars_snoc, doneVars_snoc, htake, List.append_assoc]
  rw [hdone] at hroot'
  have hmpt : ∀ val, m.state.solver.pointOf val k = val v.name := by
    intro val
    unfold Solver.pointOf
    rw [hv]
  unfold fuseVariable
  rw [hcol, ok_bind]
  refine ⟨_, rfl, ?_⟩
  refine ⟨⟨hroot'.vars, hroot'.rows, hroot'.offset, ⟨hroot'.registered.length, hroot'.registered.info, hroot'.registered.only⟩⟩,
    fuseRows_nodup _ _ _ _ _ inv.nodup, ?_, ?_, ?_, ?_, ?_⟩
  · intro K hK
    rcases fuseRows_keys _ _ _ _ _ _ hK with h | ⟨r, hr, h⟩
    · obtain ⟨mk, hmk, r, hr, h⟩ := inv.source K h
      rcases List.mem_append.1 hmk with hmk | hmk
      · exact ⟨mk, List.mem_append.2 (.inl hmk), r, hr, h⟩
      · rw [List.mem_singleton] at hmk
        subst hmk
        exact ⟨(m, k + 1), by simp, r, hr, h⟩
    · exact ⟨(m, k + 1), by simp, r, hr, h⟩
  · intro mk hmk r hr
    rcases List.mem_append.1 hmk with hmk | hmk
    · have hrow := (inv.rows mk (List.mem_append.2 (.inl hmk)) r hr).mono (sv' := root'.solver) hpre
      simp only
      rw [fuseRows_other]
      · exact hrow
      · intro r' hr' he
        exact hdisj mk hmk r hr (List.mem_map.2 ⟨r', hr', he⟩)
    · rw [List.mem_singleton] at hmk
      subst hmk
      have hrow := (inv.rows (m, k) (by simp) r hr).mono (sv' := root'.solver) hpre
      simp only at hrow hr ⊢
      unfold rowKey at hrow ⊢
      rw [fuseRows_get m.name k col m.state.solver.rows f.newRows hrk r hr]
      unfold fuseEntry
      by_cases hc : (coefOf r.coefs k).eqb 0 = true
      · have hc0 := eqb_zero hc
        rw [if_pos hc]
        generalize f.newRows.get? (m.name ++ "_" ++ r.name) = o at hrow
        cases o with
        | none =>
          intro i hi
          by_cases hik : i = k
          · rw [hik, hc0]
          · exact hrow i (by omega)
        | some row =>
          obtain ⟨h1, h2, h3, ⟨i, hi, h4⟩, h5, h6⟩ := hrow
          refine ⟨h1, h2, h3, ⟨i, by omega, h4⟩, ?_, ?_⟩
          · intro c hc
            obtain ⟨a, i, hi, b⟩ := h5 c hc
            exact ⟨a, i, by omega, b⟩
          · intro val
            rw [partialForm_succ, hc0, toQ_zero, zero_mul, add_zero]
            exact h6 val
      · rw [if_neg hc]
        have hcn : coefOf r.coefs k ≠ 0 := fun h => hc (eqb_zero_iff.2 h)
        generalize f.newRows.get? (m.name ++ "_" ++ r.name) = o at hrow
        cases o with
        | none =>
          refine ⟨rfl, rfl, rfl, ⟨k, by omega, hcn⟩, ?_, ?_⟩
          · intro c hc'
            rcases set_keys_lt hc' with rfl | h
            · exact ⟨hlt, k, by omega, v, hv, by rw [hw]; simp [hwn]⟩
            · simp [Dict.keys] at h
          · intro val
            simp only [Option.getD_none]
            rw [linForm_set, linForm_nil, coefOf_notMem (d := []) (i := col) (by simp [Dict.keys]), partialForm_succ, hmpt, toQ_zero]
            have : partialForm m r.coefs k val = 0 := by
              unfold partialForm
              have h0 : ∀ i ∈ List.range k, (coefOf r.coefs i).toQ * m.state.solver.pointOf val i = 0 := by
                intro i hi
                rw [hrow i (List.mem_range.1 hi), toQ_zero, zero_mul]
              rw [List.map_congr_left h0]
              simp
            rw [this, sub_zero]
            congr 2
            exact hpt val
        | some row =>
          obtain ⟨h1, h2, h3, h4, h5, h6⟩ := hrow
          have hnot : col ∉ row.coefs.keys := by
            intro hmem
            obtain ⟨_, i, hi, x, hx, hxn⟩ := h5 col hmem
            rw [hw, Option.map_some, Option.some.injEq, hwn] at hxn
            have := hidx i x hx hxn.symm
            omega
          refine ⟨h1, h2, h3, ⟨k, by omega, hcn⟩, ?_, ?_⟩
          · intro c hc'
            rcases set_keys_lt hc' with rfl | h
            · exact ⟨hlt, k, by omega, v, hv, by rw [hw]; simp [hwn]⟩
            · obtain ⟨a, i, hi, b⟩ := h5 c h
              exact ⟨a, i, by omega, b⟩
          · intro val
            simp only [Option.getD_some]
            rw [linForm_set, coefOf_notMem hnot, partialForm_succ, hmpt, toQ_zero, sub_zero]
            rw [← h6 val]
            congr 2
            exact hpt val
  · have hold : ∀ c ∈ f.root.solver.objective.keys, c < root'.solver.vars.length ∧
        ∃ v' ∈ doneVars (init ++ [(m, k + 1)]), root'.solver.vars[c]?.map (·.name) = some v'.name := by
      intro c hc
      obtain ⟨h1, v', hv', h2⟩ := inv.objKeys c hc
      refine ⟨by have := length_prefix hpre; omega, v', ?_, by rw [getElem?_names_prefix hpre c h1, h2]⟩
      rw [← hdone]
      exact List.mem_append.2 (.inl hv')
    intro c hc
    simp only [fuseObjective] at hc
    split at hc
    · rw [hobj'] at hc
      exact hold c hc
    · rcases set_keys_lt hc with rfl | h
      · refine ⟨hlt, v, ?_, by rw [hw]; simp [hwn]⟩
        rw [← hdone]
        simp
      · rw [hobj'] at h
        exact hold c h
  · simp only [fuseObjective]
    rw [hobj']
    split
    · exact inv.objNodup
    · exact Dict.nodup_set inv.objNodup _ _
  · intro val
    have hbase : linForm f.root.solver.objective (root'.solver.pointOf val) =
        (init.map fun mk => partialForm mk.1 mk.1.state.solver.objective mk.2 val).sum +
          partialForm m m.state.solver.objective k val := by
      have := inv.obj val
      rw [List.map_append, List.sum_append] at this
      simp only [List.map_cons, List.map_nil, List.sum_cons, List.sum_nil, add_zero] at this
      rw [← this]
      exact linForm_congr fun c hc => pointOf_prefix hpre val c (inv.objKeys c hc).1
    rw [List.map_append, List.sum_append]
    simp only [List.map_cons, List.map_nil, List.sum_cons, List.sum_nil, add_zero]
    rw [partialForm_succ, ← add_assoc, ← hbase, hmpt]
    have hsame : ∀ o, ({ root'.solver with objective := o } : Solver).pointOf val = root'.solver.pointOf val := fun _ => rfl
    simp only [fuseObjective, hobj']
    by_cases hc : (coefOf m.state.solver.objective k).eqb 0 = true
    · rw [if_pos hc, eqb_zero hc, toQ_zero, zero_mul, add_zero]
      rfl
    · rw [if_neg hc]
      have hnot : col ∉ f.root.solver.objective.keys := by
        intro hmem
        obtain ⟨h1, v', hv', h2⟩ := inv.objKeys col hmem
        rw [← getElem?_names_prefix hpre col h1, hw, Option.map_some, Option.some.injEq, hwn] at h2
        exact hfr v' hv' h2.symm
      rw [linForm_set, coefOf_notMem hnot, toQ_zero, sub_zero]
      congr 2
      exact hpt val

theorem fuseMaster_ok (coupler : OptState) (ndc : (coupler.solver.vars.map (·.name)).Nodup) (init : List (Problem × Nat))
    (m : Problem) (hok : m.Ok) (hmn : m.names.Nodup)
    (hfresh : ∀ x ∈ doneVars init, x.name ∉ m.names) (hrk : m.rowKeys.Nodup)
    (hdisj : ∀ mk ∈ init, ∀ r ∈ mk.1.state.solver.rows, rowKey mk.1 r ∉ m.rowKeys) (f : Fusion)
    (inv : FInv coupler init f) :
    ∃ f', fuseMaster (rootVars coupler) f m = .ok f' ∧ FInv coupler (init ++ [(m, m.state.solver.vars.length)]) f' := by
  have inv0 : FInv coupler (init ++ [(m, 0)]) f := by
    have hd : doneVars (init ++ [(m, 0)]) = doneVars init := by rw [doneVars_snoc]; simp
    refine ⟨hd ▸ inv.root, inv.nodup, ?_, ?_, hd ▸ inv.objKeys, inv.objNodup, ?_⟩
    · intro K hK
      obtain ⟨mk, hmk, h⟩ := inv.source K hK
      exact ⟨mk, List.mem_append.2 (.inl hmk), h⟩
    · intro mk hmk r hr
      rcases List.mem_append.1 hmk with hmk | hmk
      · exact inv.rows mk hmk r hr
      · rw [List.mem_singleton] at hmk
        subst hmk
        have hnone : f.newRows.get? (rowKey m r) = none := by
          rw [Dict.get?_eq_none_iff]
          intro hK
          obtain ⟨mk, hmk, r', hr', he⟩ := inv.source _ hK
          exact hdisj mk hmk r' hr' (List.mem_map.2 ⟨r, hr, he⟩)
        rw [hnone]
        intro i hi
        omega
    · intro val
      rw [inv.obj val, List.map_append, List.sum_append]
      simp [partialForm]
  unfold fuseMaster
  have key : ∀ (l : List SolverVar) (k : Nat) (f : Fusion), m.state.solver.vars.drop k = l → k ≤ m.state.solver.vars.length →
      FInv coupler (init ++ [(m, k)]) f →
      ∃ f', loop (fuseVariable (rootVars coupler) m) (l.zipIdx k) f = .ok f' ∧
        FInv coupler (init ++ [(m, m.state.solver.vars.length)]) f' := by
    intro l
    induction l with
    | nil =>
      intro k f hd hk hinv
      have : k = m.state.solver.vars.length := by
        have := congrArg List.length hd
        simp at this
        omega
      exact ⟨f, rfl, this ▸ hinv⟩
    | cons v l ih =>
      intro k f hd hk hinv
      have hv : m.state.solver.vars[k]? = some v := by
        have := congrArg (fun l => l[0]?) hd
        simpa using this
      have hlt : k < m.state.solver.vars.length := by
        by_contra hx
        rw [List.getElem?_eq_none (by omega)] at hv
        cases hv
      obtain ⟨f1, h1, hinv1⟩ := fuseVariable_ok coupler ndc init m k v hv (hok.infos v (List.mem_of_getElem? hv)) hmn hfresh hrk
        hdisj f hinv
      rw [List.zipIdx_cons, loop_cons, h1, ok_bind]
      refine ih (k + 1) f1 ?_ hlt hinv1
      have := congrArg List.tail hd
      simpa using this
  exact key _ 0 f (by simp) (by omega) inv0

theorem fuseMasters_ok (coupler : OptState) (ndc : (coupler.solver.vars.map (·.name)).Nodup) (masters : List Problem)
    (pre : List Problem) (hok : ∀ m ∈ masters, m.Ok) (hnames : ((pre ++ masters).flatMap Problem.names).Nodup)
    (hrows : ((pre ++ masters).flatMap Problem.rowKeys).Nodup) (f : Fusion)
    (inv : FInv coupler (pre.map fun m => (m, m.state.solver.vars.length)) f) :
    ∃ f', loop (fuseMaster (rootVars coupler)) masters f = .ok f' ∧
      FInv coupler ((pre ++ masters).map fun m => (m, m.state.solver.vars.length)) f' := by
  induction masters generalizing pre f with
  | nil => exact ⟨f, rfl, by simpa using inv⟩
  | cons m ms ih =>
    have hn := hnames
    have hr := hrows
    simp only [List.flatMap_append, List.flatMap_cons, List.nodup_append] at hn hr
    have hfresh : ∀ x ∈ doneVars (pre.map fun m => (m, m.state.solver.vars.length)), x.name ∉ m.names := by
      intro x hx hmem
      simp only [doneVars, List.mem_flatMap, List.mem_map] at hx
      obtain ⟨_, ⟨q, hq, rfl⟩, hx⟩ := hx
      refine hn.2.2 x.name (List.mem_flatMap.2 ⟨q, hq, List.mem_map.2 ⟨x, ?_, rfl⟩⟩) x.name (by simp [hmem]) rfl
      exact List.mem_of_mem_take hx
    have hdisj : ∀ mk ∈ pre.map fun m => (m, m.state.solver.vars.length), ∀ r ∈ mk.1.state.solver.rows,
        rowKey mk.1 r ∉ m.rowKeys := by
      intro mk hmk r hr' hmem
      obtain ⟨q, hq, rfl⟩ := List.mem_map.1 hmk
      exact hr.2.2 _ (List.mem_flatMap.2 ⟨q, hq, List.mem_map.2 ⟨r, hr', rfl⟩⟩) _ (List.mem_append.2 (.inl hmem)) rfl
    obtain ⟨f1, h1, inv1⟩ := fuseMaster_ok coupler ndc (pre.map fun m => (m, m.state.solver.vars.length)) m (hok m (by simp))
      hn.2.1.1 hfresh hr.2.1.1 hdisj f inv
    rw [loop_cons, h1, ok_bind]
    have := ih (pre ++ [m]) (fun x hx => hok x (by simp [hx])) (by simpa using hnames) (by simpa using hrows) f1
      (by simpa using inv1)
    simpa using this

theorem finv_start (coupler : OptState) (hreg : Registered coupler) (hobj : coupler.solver.objective = []) :
    FInv coupler [] { root := coupler } := by
  refine ⟨⟨?_, rfl, rfl, hreg⟩, by simp [Dict.keys], by simp [Dict.keys], by simp, ?_, ?_, ?_⟩
  · simp only [doneVars, List.flatMap_nil, mergedVars, List.filter_nil, List.map_nil, List.append_nil]
    exact (List.map_id _).symm
  · simp [hobj, Dict.keys]
  · simp [hobj, Dict.keys]
  · intro val
    simp [hobj, linForm]

end Verif
