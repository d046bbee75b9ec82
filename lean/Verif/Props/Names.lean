import Verif.Spec.Names
import Verif.Lemmas.Problem
import Verif.Props.ProblemExamples
import Std.Data.String.ToNat
import Std.Data.String.ToInt

/-! Property C31: names of the solver variables. -/

namespace Verif.Props
open Verif Verif.Expr Verif.OptCtx

theorem digits_split {r r' q q' : List Char} {c c' : Char} (hr : ∀ d ∈ r, d.isDigit = true) (hr' : ∀ d ∈ r', d.isDigit = true)
    (hc : c.isDigit = false) (hc' : c'.isDigit = false) (h : r ++ c :: q = r' ++ c' :: q') : r = r' ∧ c = c' ∧ q = q' := by
  induction r generalizing r' with
  | nil =>
    cases r' with
    | nil => simpa using h
    | cons d r' =>
      simp only [List.nil_append, List.cons_append, List.cons.injEq] at h
      rw [h.1, hr' d (by simp)] at hc
      cases hc
  | cons a r ih =>
    cases r' with
    | nil =>
      simp only [List.nil_append, List.cons_append, List.cons.injEq] at h
      rw [← h.1, hr a (by simp)] at hc'
      cases hc'
    | cons d r' =>
      simp only [List.cons_append, List.cons.injEq] at h
      obtain ⟨h1, h2, h3⟩ := ih (fun d hd => hr d (by simp [hd])) (fun d hd => hr' d (by simp [hd])) h.2
      exact ⟨by rw [h.1, h1], h2, h3⟩

/-- an index suffix, or nothing -/
def IsSuffix (c : Char) (l : List Char) : Prop := l = [] ∨ ∃ ds, l = '_' :: c :: ds ∧ ds ≠ [] ∧ ∀ d ∈ ds, d.isDigit = true

theorem seg_inj {p p' ds ds' : List Char} {c c' : Char} (h : p ++ '_' :: c :: ds = p' ++ '_' :: c' :: ds')
    (hd : ∀ d ∈ ds, d.isDigit = true) (hd' : ∀ d ∈ ds', d.isDigit = true) (hc : c.isDigit = false) (hc' : c'.isDigit = false) :
    p = p' ∧ c = c' ∧ ds = ds' := by
  have := congrArg List.reverse h
  simp only [List.reverse_append, List.reverse_cons, List.append_assoc, List.cons_append, List.nil_append] at this
  obtain ⟨h1, h2, h3⟩ := digits_split (fun d hh => hd d (List.mem_reverse.1 hh)) (fun d hh => hd' d (List.mem_reverse.1 hh)) hc hc' this
  simp only [List.cons.injEq, true_and] at h3
  exact ⟨List.reverse_injective h3, h2, List.reverse_injective h1⟩

theorem suffixes_inj {v v' : String} (hv : ¬ EndsWithIndex v) (hv' : ¬ EndsWithIndex v') {T T' S S' : List Char}
    (hT : IsSuffix 't' T) (hT' : IsSuffix 't' T') (hS : IsSuffix 's' S) (hS' : IsSuffix 's' S')
    (h : v.toList ++ T ++ S = v'.toList ++ T' ++ S') : v = v' ∧ T = T' ∧ S = S' := by
  have hdt : ('t' : Char).isDigit = false := by decide
  have hds : ('s' : Char).isDigit = false := by decide
  have stepT : ∀ {v v' : String} {T T' : List Char}, ¬ EndsWithIndex v → ¬ EndsWithIndex v' → IsSuffix 't' T → IsSuffix 't' T' →
      v.toList ++ T = v'.toList ++ T' → v = v' ∧ T = T' := by
    intro v v' T T' hv hv' hT hT' h
    rcases hT with rfl | ⟨ds, rfl, hne, hd⟩ <;> rcases hT' with rfl | ⟨ds', rfl, hne', hd'⟩
    · simp only [List.append_nil] at h
      exact ⟨String.toList_inj.1 h, rfl⟩
    · rw [List.append_nil] at h
      exact absurd ⟨_, 't', ds', h, .inl rfl, hne', hd'⟩ hv
    · rw [List.append_nil] at h
      exact absurd ⟨_, 't', ds, h.symm, .inl rfl, hne, hd⟩ hv'
    · obtain ⟨h1, -, rfl⟩ := seg_inj h hd hd' hdt hdt
      exact ⟨String.toList_inj.1 h1, rfl⟩
  have mixed : ∀ {v v' : String} {T T' S' : List Char}, ¬ EndsWithIndex v → IsSuffix 't' T → IsSuffix 's' S' → S' ≠ [] →
      v.toList ++ T = v'.toList ++ T' ++ S' → False := by
    intro v v' T T' S' hv hT hS' hne h
    rcases hS' with rfl | ⟨ds', rfl, hne', hd'⟩
    · exact hne rfl
    rcases hT with rfl | ⟨ds, rfl, hne, hd⟩
    · rw [List.append_nil] at h
      exact hv ⟨_, 's', ds', h, .inr rfl, hne', hd'⟩
    · obtain ⟨-, h2, -⟩ := seg_inj h hd hd' hdt hds
      revert h2; decide
  by_cases h1 : S = []
  · subst h1
    by_cases h2 : S' = []
    · subst h2
      simp only [List.append_nil] at h
      obtain ⟨a, b⟩ := stepT hv hv' hT hT' h
      exact ⟨a, b, rfl⟩
    · rw [List.append_nil] at h
      exact (mixed hv hT hS' h2 h).elim
  · by_cases h2 : S' = []
    · subst h2
      rw [List.append_nil] at h
      exact (mixed hv' hT' hS h1 h.symm).elim
    · rcases hS with rfl | ⟨ds, rfl, hne, hd⟩
      · exact absurd rfl h1
      rcases hS' with rfl | ⟨ds', rfl, hne', hd'⟩
      · exact absurd rfl h2
      obtain ⟨h3, -, rfl⟩ := seg_inj h hd hd' hds hds
      obtain ⟨a, b⟩ := stepT hv hv' hT hT' h3
      exact ⟨a, b, rfl⟩

/-- the suffix for an index -/
def indexSuffix (c : String) (many : Bool) (i : Option Int) : String :=
  match i with
  | some i => if many then c ++ toString i else ""
  | none => ""

theorem indexSuffix_isSuffix (c : Char) (many : Bool) (i : Option Int) (h : ∀ k, i = some k → 0 ≤ k) :
    IsSuffix c (indexSuffix (String.ofList ['_', c]) many i).toList := by
  cases i with
  | none => exact .inl rfl
  | some k =>
    cases many with
    | false => exact .inl rfl
    | true =>
      obtain ⟨n, rfl⟩ := Int.eq_ofNat_of_zero_le (h k rfl)
      right
      refine ⟨Nat.toDigits 10 n, ?_, Nat.toDigits_ne_nil, fun d hd => Nat.isDigit_of_mem_toDigits (by decide) (by decide) hd⟩
      have : toString (n : Int) = n.repr := rfl
      simp only [indexSuffix, if_true, String.toList_append, String.toList_ofList, this, Nat.toList_repr]
      rfl

theorem indexSuffix_inj {c : String} {dep : Bool} {n : Nat} {i j : Option Int} (hi : i ∈ indexList dep n) (hj : j ∈ indexList dep n)
    (h : indexSuffix c (decide (n > 1)) i = indexSuffix c (decide (n > 1)) j) : i = j := by
  rw [mem_indexList] at hi hj
  cases dep with
  | false =>
    simp only [Bool.false_eq_true, if_false] at hi hj
    rw [hi, hj]
  | true =>
    simp only [if_true] at hi hj
    obtain ⟨a, ha, rfl⟩ := hi
    obtain ⟨b, hb, rfl⟩ := hj
    by_cases hn : n > 1
    · simp only [indexSuffix, hn, decide_true, if_true] at h
      have h' := (String.append_right_inj _).1 h
      have : (a : Int) = b := Int.repr_injective h'
      rw [this]
    · have : a = b := by omega
      rw [this]

theorem instName_eq (x : OptCtx) (n : Inst) (hf : x.fullVarName = true) (hid : n.comp.id ≠ "") :
    x.instName n = (if x.treeNode ≠ "" then x.treeNode ++ "_" else "") ++ ((n.comp.id ++ "_") ++ (n.var.name ++
      indexSuffix "_t" (decide (x.T > 1)) n.t ++ indexSuffix "_s" (decide (x.scenarios > 1)) n.s)) := by
  unfold OptCtx.instName OptCtx.solverVariableName indexSuffix
  rcases n with ⟨c, v, t, s⟩
  simp only at hid
  simp only [hf, Bool.true_and, decide_eq_true_eq, hid, ne_eq, not_false_eq_true, if_true, String.append_assoc]
  rfl

/-- **C31.** With full variable names, non-empty component ids none of which, followed by `_`, begins another one
followed by `_` (for instance: ids without `_`), and variable names that do not end like an index (`_t` or `_s` and
digits), two different instances of a problem have different names.

Partial: without these conditions names can collide, see `c31_collisions` and `c31_short_names`. -/
theorem c31_names_partial (x : OptCtx) (hn : x.NetworkOk) (hf : x.fullVarName = true)
    (hne : ∀ c ∈ x.network.allComponents, c.id ≠ "")
    (hpre : ∀ c ∈ x.network.allComponents, ∀ c' ∈ x.network.allComponents,
      (c.id ++ "_").toList <+: (c'.id ++ "_").toList → c.id = c'.id)
    (hidx : ∀ c ∈ x.network.allComponents, ∀ v ∈ x.strategy.getVariables c.model, ¬ EndsWithIndex v.name)
    (n n' : Inst) (h : n ∈ x.instances) (h' : n' ∈ x.instances) (heq : x.instName n = x.instName n') : n = n' := by
  obtain ⟨hc, hv, ht, hs⟩ := mem_instances.1 h
  obtain ⟨hc', hv', ht', hs'⟩ := mem_instances.1 h'
  rw [instName_eq x n hf (hne _ hc), instName_eq x n' hf (hne _ hc')] at heq
  have heq := congrArg String.toList ((String.append_right_inj _).1 heq)
  rw [String.toList_append, String.toList_append (s := n'.comp.id ++ "_")] at heq
  have hid : n.comp.id = n'.comp.id := by
    rcases List.prefix_or_prefix_of_prefix (l₃ := (n.comp.id ++ "_").toList ++ _) ⟨_, rfl⟩ ⟨_, heq.symm⟩ with hp | hp
    · exact hpre _ hc _ hc' hp
    · exact (hpre _ hc' _ hc hp).symm
  rw [hid] at heq
  have heq := List.append_cancel_left heq
  have hcomp : n.comp = n'.comp := by
    have hids := hn.ids
    exact List.inj_on_of_nodup_map hids hc hc' hid
  have hnn : ∀ {dep m i}, i ∈ indexList dep m → ∀ k, i = some k → (0 : Int) ≤ k := by
    intro dep m i hi k hk
    subst hk
    rw [mem_indexList] at hi
    split_ifs at hi
    obtain ⟨a, _, h⟩ := hi
    cases h
    exact Int.natCast_nonneg a
  simp only [String.toList_append] at heq
  obtain ⟨h1, h2, h3⟩ := suffixes_inj (hidx _ hc _ hv) (hidx _ hc' _ hv')
    (indexSuffix_isSuffix 't' _ n.t (hnn ht)) (indexSuffix_isSuffix 't' _ n'.t (hnn ht'))
    (indexSuffix_isSuffix 's' _ n.s (hnn hs)) (indexSuffix_isSuffix 's' _ n'.s (hnn hs')) heq
  have hvar : n.var = n'.var := by
    have := getVariables_names hn hc
    exact List.inj_on_of_nodup_map this hv (by rw [hcomp]; exact hv') h1
  rw [← hvar] at ht' hs'
  have et := indexSuffix_inj ht ht' (String.toList_inj.1 h2)
  have es := indexSuffix_inj hs hs' (String.toList_inj.1 h3)
  cases n; cases n'
  simp only at hcomp hvar et es
  subst hcomp hvar et es
  rfl

/-- **C31**, bookkeeping: when the names are different, the information recorded under the name of the instance
number `i` (the instance of column `i`, see C30) has that name and column number, says it is in the objective exactly
when column `i` has a coefficient in the objective, and nothing else is recorded. -/
theorem c31_bookkeeping (x : OptCtx) (hn : x.NetworkOk) (hnames : (x.instances.map x.instName).Nodup)
    (st : OptState) (h : x.buildProblem = .ok st) :
    (∀ (i : Nat) (n : Inst), x.instances[i]? = some n → ∃ info, st.infos.get? (x.instName n) = some info ∧
      info.name = x.instName n ∧ info.columnId = i ∧ st.columns.get? n.key = some i ∧
      (info.isInObjective = true ↔ ∃ q, st.solver.objective.get? i = some q)) ∧
    ∀ name info, st.infos.get? name = some info → ∃ n ∈ x.instances, x.instName n = name := by
  obtain ⟨ports, hreg, hvars, hcols⟩ := build_columns hn h
  obtain ⟨ports', st1, st2, hreg', h1, h2, h3⟩ := build_phases h
  rw [hreg] at hreg'
  cases hreg'
  have hv := createVariables_inv h1
  obtain ⟨-, -, hri, hro⟩ := createConstraints_keep h2
  have hinfo := createObjectives_info (hro.trans hv.objective)
    (fun k i hki => (hv.flags k i (by rw [← hri]; exact hki)).1) h3
  have hlist : st2.infos = infoList x x.instances := by
    rw [hri]; exact hv.infos (instances_nodup hn) hnames
  have hnd : (infoList x x.instances).keys.Nodup := by rw [infoList_keys]; exact hnames
  have hmem : ∀ (i : Nat) (n : Inst), x.instances[i]? = some n →
      (infoList x x.instances).get? (x.instName n) = some ⟨x.instName n, i, false⟩ := by
    intro i n hi
    refine Dict.get?_of_mem hnd ?_
    unfold infoList
    refine List.mem_map.2 ⟨(n, i), ?_, rfl⟩
    exact List.mem_zipIdx_iff_getElem?.2 hi
  constructor
  · intro i n hi
    have hrec := hinfo.recorded (x.instName n)
    rw [hlist, hmem i n hi] at hrec
    cases hg : st.infos.get? (x.instName n) with
    | none => rw [hg] at hrec; cases hrec
    | some info =>
      rw [hg] at hrec
      simp only [Option.map_some, Option.some.injEq, Prod.mk.injEq] at hrec
      refine ⟨info, rfl, hrec.1, hrec.2, (hcols _ _).2 ⟨n, hi, rfl⟩, ?_⟩
      rw [hinfo.flag _ _ hg]
      have hname : ∀ (j : Nat) (v : SolverVar), st.solver.vars[j]? = some v → ∃ n', x.instances[j]? = some n' ∧ v.name = x.instName n' := by
        intro j v hj
        obtain ⟨n', hj', hm⟩ := (forall₂_getElem hvars).2 v hj
        refine ⟨n', hj', ?_⟩
        obtain ⟨lb, ub, lo, up, -, -, -, -, -, rfl⟩ := hm.made
        cases n'.var.dataType <;> rfl
      constructor
      · rintro ⟨j, v, q, hj, hvn, hq⟩
        obtain ⟨n', hj', hvn'⟩ := hname j v hj
        have : j = i := eq_of_nodup_map hnames hj' hi (by rw [← hvn', hvn])
        subst this
        exact ⟨q, hq⟩
      · rintro ⟨q, hq⟩
        obtain ⟨sv, hsv, hm⟩ := (forall₂_getElem hvars).1 n hi
        obtain ⟨n', hi', hvn'⟩ := hname i sv hsv
        rw [hi] at hi'
        cases hi'
        exact ⟨i, sv, q, hsv, hvn', hq⟩
  · intro name info hg
    have hrec := hinfo.recorded name
    rw [hg, hlist] at hrec
    cases hg2 : (infoList x x.instances).get? name with
    | none => rw [hg2] at hrec; cases hrec
    | some i2 =>
      have hm := Dict.mem_of_get? hg2
      have : name ∈ (infoList x x.instances).keys := List.mem_map.2 ⟨_, hm, rfl⟩
      rw [infoList_keys] at this
      obtain ⟨n, hn, rfl⟩ := List.mem_map.1 this
      exact ⟨n, hn, rfl⟩

/-- the names of `study0` satisfy the hypotheses of `c31_names_partial` -/
example : study0.fullVarName = true ∧ (∀ c ∈ study0.network.allComponents, c.id ≠ "") ∧
    (∀ c ∈ study0.network.allComponents, ∀ c' ∈ study0.network.allComponents,
      (c.id ++ "_").toList <+: (c'.id ++ "_").toList → c.id = c'.id) ∧
    (∀ c ∈ study0.network.allComponents, ∀ v ∈ study0.strategy.getVariables c.model, ¬ EndsWithIndex v.name) ∧
    study0.instances.map study0.instName = ["G_g_t0", "G_g_t1", "G_on_t0", "G_on_t1", "G_n"] := by
  have hno : ∀ s : String, '_' ∉ s.toList → ¬ EndsWithIndex s := by
    rintro s hs ⟨p, c, ds, h, -⟩
    exact hs (by rw [h]; simp)
  refine ⟨rfl, by decide, by decide, ?_, by decide +kernel⟩
  intro c hc v hv
  refine hno _ ?_
  revert v c
  decide

/-- a model with a variable -/
def oneVar (name : String) (idx : Idx) : Model :=
  { id := "M", variables_ := [(name, ⟨name, .continuous, none, none, idx, .operational⟩)] }

/-- C31 fails in general: the variable `b_c` of component `a` and the variable `c` of component `a_b` get the same name;
so do the variable `v` at timestep 1 and the variable `v_t1` of the same component.  Both problems are built.  In the first
one a single record remains under the shared name, with the column number of the second variable. -/
theorem c31_collisions :
    (∃ (x : OptCtx) (st : OptState) (n n' : Inst), x.fullVarName = true ∧ x.buildProblem = .ok st ∧ n ∈ x.instances ∧ n' ∈ x.instances ∧
      n.key ≠ n'.key ∧ x.instName n = x.instName n' ∧ st.infos.length < st.solver.vars.length ∧
      st.columns.get? n.key = some 0 ∧ (st.infos.get? (x.instName n)).map (·.columnId) = some 1) ∧
    (∃ (x : OptCtx) (st : OptState) (n n' : Inst), x.fullVarName = true ∧ x.buildProblem = .ok st ∧ n ∈ x.instances ∧ n' ∈ x.instances ∧
      n.comp.id = n'.comp.id ∧ n.key ≠ n'.key ∧ x.instName n = x.instName n') := by
  constructor
  · refine ⟨{ network := ⟨"net", [], [("a", ⟨oneVar "b_c" ⟨false, false⟩, "a"⟩), ("a_b", ⟨oneVar "c" ⟨false, false⟩, "a_b"⟩)], []⟩,
              database := [], timesteps := [0], scenarios := 1 }, _, _, _, rfl, rfl, List.mem_cons_self,
        List.mem_cons_of_mem _ (List.mem_singleton.2 rfl), ?_, rfl, ?_, rfl, rfl⟩
    · decide
    · decide
  · refine ⟨single { id := "M", variables_ := [("v", ⟨"v", .continuous, none, none, ⟨true, false⟩, .operational⟩),
        ("v_t1", ⟨"v_t1", .continuous, none, none, ⟨false, false⟩, .operational⟩)] } [] [0, 1], _, _, _, rfl, rfl,
        List.mem_cons_of_mem _ List.mem_cons_self, List.mem_cons_of_mem _ (List.mem_cons_of_mem _ (List.mem_singleton.2 rfl)), rfl, ?_, rfl⟩
    decide

/-- C31 fails with short variable names: all components then share the names of their variables. -/
theorem c31_short_names :
    ∃ (x : OptCtx) (st : OptState) (n n' : Inst), x.fullVarName = false ∧ x.buildProblem = .ok st ∧ n ∈ x.instances ∧ n' ∈ x.instances ∧
      n.comp.id ≠ n'.comp.id ∧ x.instName n = x.instName n' := by
  refine ⟨{ network := ⟨"net", [], [("a", ⟨oneVar "v" ⟨false, false⟩, "a"⟩), ("b", ⟨oneVar "v" ⟨false, false⟩, "b"⟩)], []⟩,
              database := [], timesteps := [0], scenarios := 1, fullVarName := false }, _, _, _, rfl, rfl, List.mem_cons_self,
        List.mem_cons_of_mem _ (List.mem_singleton.2 rfl), ?_, rfl⟩
  decide

end Verif.Props
