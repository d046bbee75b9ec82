import Verif.Lemmas.Affine
import Verif.Spec.Kept
import Verif.Lemmas.Columns
import Verif.Props.Rows
import Verif.Props.Models

/-! The rows and the objective of the problem. -/

namespace Verif
open Expr OptCtx

/-! ### Bounds -/

theorem aboveBound_fin {M : MCtx} {b : Expr} (hf : FinLits b) (q : ℚ) (t s : Int) : aboveBound M b q t s ↔ mden M b t s ≤ q := by
  cases b with
  | lit v =>
    obtain ⟨p, rfl⟩ := hf v (mem_subs_self _)
    exact Iff.rfl
  | _ => exact Iff.rfl

theorem belowBound_fin {M : MCtx} {b : Expr} (hf : FinLits b) (q : ℚ) (t s : Int) : belowBound M b q t s ↔ q ≤ mden M b t s := by
  cases b with
  | lit v =>
    obtain ⟨p, rfl⟩ := hf v (mem_subs_self _)
    exact Iff.rfl
  | _ => exact Iff.rfl

theorem instantiate_lit {v : Num} {cid : String} {ports : PortExprs} {b' : Expr} (h : instantiate (lit v) cid ports = .ok b') :
    b' = lit v := by
  cases h; rfl

/-- the value computed for a bound is the mathematical value of the bound -/
theorem bound_value {x : OptCtx} (hn : x.NetworkOk) (hx : x.DataOk) {ports : PortExprs}
    (hreg : registerConnections x.network.connections [] = .ok ports) (c : Component) {b b' : Expr} (hb : BoundOk b)
    (h1 : instantiate b c.id ports = .ok b') {t? s? : Option Int} {v : Num} (hv : x.expressionValue b' t? s? = .ok v)
    (t s : Int) (ht : t? = none ∨ t? = some t) (hs : s? = none ∨ s? = some s) (σ : TermKey → ℚ) (q : ℚ) :
    (v.isBelow q ↔ aboveBound (x.readIn σ c) b q t s) ∧ (v.isAbove q ↔ belowBound (x.readIn σ c) b q t s) := by
  rcases hb with (rfl | rfl) | hb
  · obtain rfl := instantiate_lit h1
    cases hv
    exact ⟨Iff.rfl, Iff.rfl⟩
  · obtain rfl := instantiate_lit h1
    cases hv
    exact ⟨Iff.rfl, Iff.rfl⟩
  · obtain ⟨p1, -, -⟩ := ports_all hn hreg
    have hf1 : FinLits b' := finLits_iff.2 (instantiate_all headDet_litFin hookP_litFin p1 (finLits_iff.1 hb.fin) h1)
    obtain ⟨hml, hval⟩ := Props.c15_instantiate (x.reading σ) x.network.connections hn.accepted (networkOk_clean hn) ports
      hreg c.id b b' hb.agg hb.cmp h1
    have := expressionValue_mden hx (fun c v t s => σ ⟨c, v, t.map (· % x.T), s⟩) "" (fun _ _ => []) b' hf1 hv t s ht hs
    have hd : mden ⟨x.reading σ, "", fun _ _ => []⟩ b' t s = mden (x.readIn σ c) b t s := by
      rw [← den_std (x.reading σ) "" (fun _ _ => []) b' hml t s]
      exact hval t s
    have hv' : v = .fin (mden (x.readIn σ c) b t s) := by rw [← hd]; exact this
    subst hv'
    rw [aboveBound_fin hb.fin, belowBound_fin hb.fin]
    exact ⟨Iff.rfl, Iff.rfl⟩

theorem boundOpt_lower {x : OptCtx} (hn : x.NetworkOk) (hx : x.DataOk) {ports : PortExprs}
    (hreg : registerConnections x.network.connections [] = .ok ports) (c : Component) {b b' : Option Expr}
    (hb : ∀ y, b = some y → BoundOk y) (h1 : instantiateBound c.id ports b = .ok b') {t? s? : Option Int} {v : Num}
    (hv : x.boundValue .ninf b' t? s? = .ok v) (t s : Int) (ht : t? = none ∨ t? = some t) (hs : s? = none ∨ s? = some s)
    (σ : TermKey → ℚ) (q : ℚ) : v.isBelow q ↔ aboveOpt (x.readIn σ c) b q t s := by
  cases b with
  | none => cases h1; cases hv; exact Iff.rfl
  | some y =>
    simp only [instantiateBound, bind_ok_iff, Except.ok.injEq] at h1
    obtain ⟨y', hy', rfl⟩ := h1
    exact (bound_value hn hx hreg c (hb y rfl) hy' hv t s ht hs σ q).1

theorem boundOpt_upper {x : OptCtx} (hn : x.NetworkOk) (hx : x.DataOk) {ports : PortExprs}
    (hreg : registerConnections x.network.connections [] = .ok ports) (c : Component) {b b' : Option Expr}
    (hb : ∀ y, b = some y → BoundOk y) (h1 : instantiateBound c.id ports b = .ok b') {t? s? : Option Int} {v : Num}
    (hv : x.boundValue .pinf b' t? s? = .ok v) (t s : Int) (ht : t? = none ∨ t? = some t) (hs : s? = none ∨ s? = some s)
    (σ : TermKey → ℚ) (q : ℚ) : v.isAbove q ↔ belowOpt (x.readIn σ c) b q t s := by
  cases b with
  | none => cases h1; cases hv; exact Iff.rfl
  | some y =>
    simp only [instantiateBound, bind_ok_iff, Except.ok.injEq] at h1
    obtain ⟨y', hy', rfl⟩ := h1
    exact (bound_value hn hx hreg c (hb y rfl) hy' hv t s ht hs σ q).2

/-! ### Columns -/

theorem mem_indexList {dep : Bool} {n : Nat} {i : Option Int} :
    i ∈ indexList dep n ↔ if dep then ∃ k : Nat, k < n ∧ i = some (k : Int) else i = none := by
  unfold indexList
  cases dep
  · simp
  · simp [eq_comm]

theorem mem_instances {x : OptCtx} {n : Inst} : n ∈ x.instances ↔
    n.comp ∈ x.network.allComponents ∧ n.var ∈ x.strategy.getVariables n.comp.model ∧
      n.t ∈ indexList n.var.structure_.time x.T ∧ n.s ∈ indexList n.var.structure_.scenario x.scenarios := by
  unfold OptCtx.instances
  simp only [List.mem_flatMap, List.mem_map]
  constructor
  · rintro ⟨c, hc, v, hv, t, ht, s, hs, rfl⟩
    exact ⟨hc, hv, ht, hs⟩
  · rintro ⟨hc, hv, ht, hs⟩
    exact ⟨n.comp, hc, n.var, hv, n.t, ht, n.s, hs, rfl⟩

/-- a solver variable accepts exactly the values that the declaration accepts, except that the bounds of booleans are ignored -/
theorem isVarFor_enforced {x : OptCtx} (hn : x.NetworkOk) (hx : x.DataOk) (hv : ∀ c ∈ x.network.allComponents, ∀ v ∈ x.strategy.getVariables c.model,
    ∀ b, v.lowerBound = some b ∨ v.upperBound = some b → BoundOk b) {ports : PortExprs}
    (hreg : registerConnections x.network.connections [] = .ok ports) {n : Inst} (hi : n ∈ x.instances) {sv : SolverVar}
    (h : IsVarFor x ports n sv) (t s : Int) (ht : n.t = none ∨ n.t = some t) (hs : n.s = none ∨ n.s = some s)
    (σ : TermKey → ℚ) (q : ℚ) : sv.Sat q ↔ enforcedVar (x.readIn σ n.comp) n.var q t s := by
  obtain ⟨lb, ub, lo, up, hlb, hub, hlo, hup, -, rfl⟩ := h.made
  obtain ⟨hc, hvar, -, -⟩ := mem_instances.1 hi
  have h1 := boundOpt_lower hn hx hreg n.comp (fun y hy => hv _ hc _ hvar y (.inl hy)) hlb hlo t s ht hs σ q
  have h2 := boundOpt_upper hn hx hreg n.comp (fun y hy => hv _ hc _ hvar y (.inr hy)) hub hup t s ht hs σ q
  unfold enforcedVar
  rw [← h1, ← h2]
  cases hty : n.var.dataType with
  | continuous => simp [solverVar, SolverVar.Sat, ofType]
  | integer => simp [solverVar, SolverVar.Sat, ofType]
  | boolean =>
    have key : ((0 : ℚ) ≤ q ∧ q ≤ 1 ∧ ∃ n : ℤ, q = n) ↔ q = 0 ∨ q = 1 := by
      constructor
      · rintro ⟨a, b, m, rfl⟩
        have ha : (0 : ℤ) ≤ m := by exact_mod_cast a
        have hb : m ≤ 1 := by exact_mod_cast b
        have : m = 0 ∨ m = 1 := by omega
        rcases this with rfl | rfl <;> simp
      · rintro (rfl | rfl)
        · exact ⟨le_refl _, by norm_num, 0, by simp⟩
        · exact ⟨by norm_num, le_refl _, 1, by simp⟩
    dsimp only
    rw [← key]
    simp [solverVar, SolverVar.Sat, Num.isBelow, Num.isAbove, show (0 : Num) = .fin 0 from rfl, show (1 : Num) = .fin 1 from rfl]

/-- when the declared bounds of booleans allow 0 and 1, nothing is lost -/
theorem enforcedVar_iff {x : OptCtx} (hv : x.VarsOk) {c : Component} (hc : c ∈ x.network.allComponents) {v : Variable}
    (hm : v ∈ x.strategy.getVariables c.model) (σ : TermKey → ℚ) (q : ℚ) (t s : Int) :
    enforcedVar (x.readIn σ c) v q t s ↔ aboveOpt (x.readIn σ c) v.lowerBound q t s ∧ belowOpt (x.readIn σ c) v.upperBound q t s ∧
      ofType v.dataType q := by
  unfold enforcedVar
  cases hty : v.dataType with
  | continuous => exact Iff.rfl
  | integer => exact Iff.rfl
  | boolean =>
    refine ⟨fun hq => ?_, fun h => h.2.2⟩
    obtain ⟨a, b⟩ := hv.boolean _ hc _ hm hty σ q t s hq
    exact ⟨a, b, hq⟩

/-! ### Rows -/

/-- indices at which a constraint is written -/
def rowIndices (x : OptCtx) (ports : PortExprs) (c : Component) (k : Constraint) : List (Int × Int) :=
  match instantiate k.expression c.id ports with
  | .error _ => []
  | .ok e =>
    match x.computeIndexing e with
    | .error _ => []
    | .ok i => (x.timeIndices i).flatMap fun t => (x.scenarioIndices i).map fun s => (t, s)

/-- the row `r` was written for constraint `k` of component `c` at `(t, s)` -/
structure IsRowFor (x : OptCtx) (ports : PortExprs) (cols : Dict TermKey Nat) (c : Component) (k : Constraint) (t s : Int)
    (r : Row) : Prop where
  made : ∃ e lb ub e2 l lo up, instantiate k.expression c.id ports = .ok e ∧ instantiate k.lowerBound c.id ports = .ok lb ∧
    instantiate k.upperBound c.id ports = .ok ub ∧ x.expandOperators e = .ok e2 ∧
    x.linearize e2 (some t) (some s) = .ok l ∧ x.expressionValue lb (some t) (some s) = .ok lo ∧
    x.expressionValue ub (some t) (some s) = .ok up ∧
    (l.Finite → ∀ (pt : Nat → ℚ) (σ : TermKey → ℚ), (∀ k i, cols.get? k = some i → pt i = σ k) →
      (r.Sat pt ↔ lo.isBelow (l.value fun k => σ (wrapKey x.T k)) ∧ up.isAbove (l.value fun k => σ (wrapKey x.T k))))
  name : r.name = c.id ++ "_" ++ k.name ++ "_t" ++ toString t ++ "_s" ++ toString s

/-- state while the rows are written -/
structure RowInv (x : OptCtx) (ports : PortExprs) (st0 : OptState)
    (done : List (Component × Constraint × Int × Int)) (st : OptState) : Prop where
  rows : List.Forall₂ (fun d r => IsRowFor x ports st0.columns d.1 d.2.1 d.2.2.1 d.2.2.2 r) done st.solver.rows
  vars : st.solver.vars = st0.solver.vars
  columns : st.columns = st0.columns
  infos : st.infos = st0.infos
  objective : st.solver.objective = st0.solver.objective
  offset : st.solver.offset = st0.solver.offset

theorem make_nocmp {k k' : Constraint} (hc : k.expression.isCmp = false) (h : Constraint.make k = .ok k') : k' = k := by
  unfold Constraint.make at h
  split at h
  · next heq => rw [heq] at hc; cases hc
  · simp only [bind_ok_iff] at h
    obtain ⟨cl, _, h⟩ := h
    split_ifs at h
    all_goals (rw [bind_ok_iff] at h; obtain ⟨cu, _, h⟩ := h; split_ifs at h)
    cases h
    rfl

theorem createRow_inv {x : OptCtx} {ports : PortExprs} {st0 st st' : OptState} {done} {c : Component} {k : Constraint}
    {e lb ub e2 : Expr} (h1 : instantiate k.expression c.id ports = .ok e) (h2 : instantiate k.lowerBound c.id ports = .ok lb)
    (h3 : instantiate k.upperBound c.id ports = .ok ub) (h4 : x.expandOperators e = .ok e2) {t s : Int}
    (hinv : RowInv x ports st0 done st)
    (h : x.createRow { name := c.id ++ "_" ++ k.name, expression := e, lowerBound := lb, upperBound := ub } e2 t st s = .ok st') :
    RowInv x ports st0 (done ++ [(c, k, t, s)]) st' := by
  unfold OptCtx.createRow at h
  simp only [bind_ok_iff] at h
  obtain ⟨l, hl, lo, hlo, up, hup, h⟩ := h
  have hrow : ∃ row, st' = { st with solver := { st.solver with rows := st.solver.rows ++ [row] } } ∧
      row.name = c.id ++ "_" ++ k.name ++ "_t" ++ toString t ++ "_s" ++ toString s ∧
      (l.Finite → ∀ (pt : Nat → ℚ) (σ : TermKey → ℚ), (∀ k i, st.columns.get? k = some i → pt i = σ k) →
      (row.Sat pt ↔ lo.isBelow (l.value fun k => σ (wrapKey x.T k)) ∧ up.isAbove (l.value fun k => σ (wrapKey x.T k)))) := by
    have h' := h
    unfold OptCtx.makeConstraint at h'
    rw [bind_ok_iff] at h'
    obtain ⟨coefs, hc, h'⟩ := h'
    cases h'
    refine ⟨_, rfl, rfl, fun hfin pt σ hσ => ?_⟩
    obtain ⟨row, hr, hsat⟩ := Props.c32_row x st _ t s _ lo up l hfin h
    have := congrArg (fun s : OptState => s.solver.rows) hr
    simp only [List.append_cancel_left_eq, List.cons.injEq, and_true] at this
    rw [this]
    exact hsat pt σ hσ
  obtain ⟨row, rfl, hname, hsat⟩ := hrow
  refine ⟨?_, hinv.vars, hinv.columns, hinv.infos, hinv.objective, hinv.offset⟩
  refine List.rel_append hinv.rows (.cons ⟨⟨e, lb, ub, e2, l, lo, up, h1, h2, h3, h4, hl, hlo, hup, ?_⟩, hname⟩ .nil)
  intro hfin pt σ hσ
  exact hsat hfin pt σ (by rw [hinv.columns]; exact hσ)

/-- the list of rows of a problem -/
def rowList (x : OptCtx) (ports : PortExprs) : List (Component × Constraint × Int × Int) :=
  x.network.allComponents.flatMap fun c => (x.strategy.getConstraints c.model).flatMap fun k =>
    (rowIndices x ports c k).map fun ts => (c, k, ts.1, ts.2)

theorem createConstraints_inv {x : OptCtx} (hn : x.NetworkOk)
    (hk : ∀ c ∈ x.network.allComponents, ∀ k ∈ x.strategy.getConstraints c.model, ExprOk k.expression ∧ BoundOk k.lowerBound ∧ BoundOk k.upperBound)
    {ports : PortExprs}
    (hreg : registerConnections x.network.connections [] = .ok ports) {st0 st : OptState} (h0 : st0.solver.rows = [])
    (h : x.createConstraints ports st0 = .ok st) : RowInv x ports st0 (rowList x ports) st := by
  have hinit : RowInv x ports st0 [] st0 := ⟨by rw [h0]; exact .nil, rfl, rfl, rfl, rfl, rfl⟩
  have := loop_trace (RowInv x ports st0) (fun c => (x.strategy.getConstraints c.model).flatMap fun k =>
    (rowIndices x ports c k).map fun ts => (c, k, ts.1, ts.2)) x.network.allComponents ?_ [] st0 st hinit h
  · simpa [rowList] using this
  intro c hc done s1 s2 hinv hs
  refine loop_trace (RowInv x ports st0) _ _ ?_ done s1 s2 hinv hs
  intro k hkm done s1 s2 hinv hs
  unfold OptCtx.createConstraintOf at hs
  simp only [bind_ok_iff] at hs
  obtain ⟨e, he, lb, hlb, ub, hub, k', hk', hs⟩ := hs
  have hek := (hk c hc k hkm).1
  have hml := (Props.c15_instantiate (x.unwrapped fun _ _ _ _ => 0) x.network.connections hn.accepted (networkOk_clean hn)
    ports hreg c.id _ e hek.agg hek.cmp he).1
  have hcmp : e.isCmp = false := by
    have := hml e (mem_subs_self _)
    cases e <;> simp_all [isModelLevel, isCmp]
  obtain rfl := make_nocmp hcmp hk'
  unfold OptCtx.createConstraint at hs
  simp only [bind_ok_iff] at hs
  obtain ⟨e2, he2, i, hi, hs⟩ := hs
  have hidx : rowIndices x ports c k = (x.timeIndices i).flatMap fun t => (x.scenarioIndices i).map fun s => (t, s) := by
    unfold rowIndices
    have hi : x.computeIndexing e = .ok i := hi
    simp only [he, hi]
  have := loop_trace (RowInv x ports st0) (fun t => (x.scenarioIndices i).flatMap fun s => [(c, k, t, s)]) _
    (fun t _ done s1 s2 hinv hs => loop_trace (RowInv x ports st0) (fun s => [(c, k, t, s)]) _
      (fun s _ done s1 s2 hinv hs => createRow_inv he hlb hub he2 hinv hs) done s1 s2 hinv hs) done s1 s2 hinv hs
  convert this using 2
  rw [hidx, List.map_flatMap]
  congr 1
  funext t
  rw [List.map_map, List.map_eq_flatMap]
  rfl

/-! ### Objective -/

/-- the linear expression `l` was computed for contribution `e` of component `c` -/
def IsObjFor (x : OptCtx) (ports : PortExprs) (d : Component × Expr) (l : LinExpr) : Prop :=
  ∃ e1 e2, instantiate d.2 d.1.id ports = .ok e1 ∧ x.expandOperators e1 = .ok e2 ∧ x.linearize e2 none none = .ok l

/-- state while the objective is written -/
structure ObjInv (x : OptCtx) (ports : PortExprs) (st0 : OptState) (done : List (Component × Expr)) (st : OptState) : Prop where
  vars : st.solver.vars = st0.solver.vars
  columns : st.columns = st0.columns
  rows : st.solver.rows = st0.solver.rows
  cost : ∃ ls, List.Forall₂ (IsObjFor x ports) done ls ∧ ((∀ l ∈ ls, l.Finite) →
    FinCoefs st.solver.objective ∧ st.solver.offset.isFin = true ∧
    ∀ (pt : Nat → ℚ) (σ : TermKey → ℚ), (∀ k i, st0.columns.get? k = some i → pt i = σ k) →
      st.solver.cost pt = (ls.map fun l => l.value fun k => σ (wrapKey x.T k)).sum)

theorem objectiveTerms_inv {x : OptCtx} (terms : List Term) (st st' : OptState) (h : loop x.objectiveTerm terms st = .ok st') :
    st'.solver.vars = st.solver.vars ∧ st'.columns = st.columns ∧ st'.solver.rows = st.solver.rows ∧
      st'.solver.offset = st.solver.offset ∧
      ((∀ u ∈ terms, u.coefficient.isFin = true) → FinCoefs st.solver.objective → FinCoefs st'.solver.objective ∧
        ∀ (pt : Nat → ℚ) (σ : TermKey → ℚ), (∀ k i, st.columns.get? k = some i → pt i = σ k) →
          linForm st'.solver.objective pt = linForm st.solver.objective pt +
            (terms.map fun u => u.coefficient.toQ * σ (wrapKey x.T u.key)).sum) := by
  induction terms generalizing st with
  | nil => cases h; exact ⟨rfl, rfl, rfl, rfl, fun _ h => ⟨h, fun pt σ _ => by simp⟩⟩
  | cons u terms ih =>
    rw [loop_cons, bind_ok_iff] at h
    obtain ⟨s1, h1, h⟩ := h
    unfold OptCtx.objectiveTerm at h1
    rw [bind_ok_iff] at h1
    obtain ⟨i, hi, h1⟩ := h1
    split at h1
    · cases h1
    · next v hv =>
      rw [bind_ok_iff] at h1
      obtain ⟨info, hinfo, h1⟩ := h1
      cases h1
      obtain ⟨a, b, c, d, hlin⟩ := ih _ h
      refine ⟨a, b, c, d, fun hf h0 => ?_⟩
      have hft := hf u (by simp)
      have hc := coefOf_fin h0 i
      obtain ⟨hf', hval⟩ := hlin (fun w hw => hf w (by simp [hw])) (finCoefs_set h0 i _ (isFin_add hc hft))
      refine ⟨hf', fun pt σ hσ => ?_⟩
      rw [hval pt σ hσ]
      simp only [linForm_set, toQ_add hc hft, hσ _ _ (componentVariable_ok hi), List.map_cons, List.sum_cons]
      ring

theorem createObjectives_inv {x : OptCtx} {ports : PortExprs} {st0 st : OptState} (hobj : st0.solver.objective = [])
    (hoff : st0.solver.offset = 0) (h : x.createObjectives ports st0 = .ok st) :
    ObjInv x ports st0 (x.network.allComponents.flatMap fun c => (x.contributions c).map fun e => (c, e)) st := by
  have hinit : ObjInv x ports st0 [] st0 := by
    refine ⟨rfl, rfl, rfl, [], .nil, fun _ => ⟨?_, ?_, ?_⟩⟩
    · rw [hobj]; intro i v h; cases h
    · rw [hoff]; rfl
    · intro pt σ _
      unfold Solver.cost
      rw [hobj, hoff]
      simp [linForm, Num.toQ, show (0 : Num) = .fin 0 from rfl]
  have := loop_trace (ObjInv x ports st0) (fun c => (x.contributions c).map fun e => (c, e)) x.network.allComponents ?_ []
    st0 st hinit h
  · simpa using this
  intro c hc done s1 s2 hinv hs
  have := loop_trace (ObjInv x ports st0) (fun o : Option Expr => (o.map fun e => (c, x.risk e)).toList) _ ?_ done s1 s2 hinv hs
  · convert this using 2
    unfold OptCtx.contributions
    generalize x.strategy.objectives c.model = l
    induction l with
    | nil => rfl
    | cons o l ih =>
      cases o with
      | none => simpa using ih
      | some e => simpa using ih
  intro o ho done s1 s2 hinv hs
  cases o with
  | none =>
    cases hs
    simpa using hinv
  | some e =>
    simp only [OptCtx.createObjectiveOf, OptCtx.createObjective, bind_ok_iff] at hs
    obtain ⟨e1, he1, e2, he2, l, hl, s3, hs3, hs⟩ := hs
    cases hs
    obtain ⟨ls, hls, hcost⟩ := hinv.cost
    obtain ⟨a, b, c', d, hlin⟩ := objectiveTerms_inv l.terms.values s1 s3 hs3
    refine ⟨a.trans hinv.vars, b.trans hinv.columns, c'.trans hinv.rows, ls ++ [l],
      List.rel_append hls (.cons ⟨e1, e2, he1, he2, hl⟩ .nil), fun hfin => ?_⟩
    obtain ⟨hf, ho, hc⟩ := hcost fun l hl => hfin l (by simp [hl])
    have hlf := hfin l (by simp)
    have hcoef : ∀ u ∈ l.terms.values, u.coefficient.isFin = true := by
      intro u hu
      obtain ⟨⟨k, u'⟩, hm, rfl⟩ := List.mem_map.1 hu
      exact hlf.coef k u' hm
    obtain ⟨hf', hval⟩ := hlin hcoef hf
    refine ⟨hf', isFin_add hlf.const (by rw [d]; exact ho), fun pt σ hσ => ?_⟩
    have hσ1 : ∀ k i, s1.columns.get? k = some i → pt i = σ k := by rw [hinv.columns]; exact hσ
    have hcost := hc pt σ hσ
    unfold Solver.cost at hcost ⊢
    simp only [List.map_append, List.sum_append, List.map_cons, List.map_nil, List.sum_cons, List.sum_nil, add_zero]
    rw [← hcost, hval pt σ hσ1, toQ_add hlf.const (by rw [d]; exact ho), d]
    unfold LinExpr.value Dict.values
    rw [List.map_map]
    simp only [Function.comp_def]
    ring

/-- the recorded information while the objective is written -/
structure ObjInfo (st0 st : OptState) : Prop where
  vars : st.solver.vars = st0.solver.vars
  recorded : ∀ name, (st.infos.get? name).map (fun i => (i.name, i.columnId)) =
    (st0.infos.get? name).map (fun i => (i.name, i.columnId))
  flag : ∀ name info, st.infos.get? name = some info → (info.isInObjective = true ↔
    ∃ j v q, st.solver.vars[j]? = some v ∧ v.name = name ∧ st.solver.objective.get? j = some q)

theorem objectiveTerm_info {x : OptCtx} {st0 st st' : OptState} {u : Term} (h0 : ObjInfo st0 st)
    (h : x.objectiveTerm st u = .ok st') : ObjInfo st0 st' := by
  unfold OptCtx.objectiveTerm at h
  rw [bind_ok_iff] at h
  obtain ⟨i, hi, h⟩ := h
  split at h
  · cases h
  next v hv =>
  rw [bind_ok_iff] at h
  obtain ⟨info, hinfo, h⟩ := h
  cases h
  rw [Props.get_ok_iff'] at hinfo
  refine ⟨h0.vars, fun name => ?_, fun name info' hi' => ?_⟩
  · rw [← h0.recorded name]
    show ((st.infos.set v.name _).get? name).map _ = _
    by_cases hn : name = v.name
    · subst hn
      rw [Dict.get?_set_self, hinfo]
      rfl
    · rw [Dict.get?_set_ne _ _ (Ne.symm hn)]
  · change (st.infos.set v.name _).get? name = some info' at hi'
    show _ ↔ ∃ j v' q, st.solver.vars[j]? = some v' ∧ v'.name = name ∧ (st.solver.objective.set i _).get? j = some q
    by_cases hn : name = v.name
    · subst hn
      rw [Dict.get?_set_self] at hi'
      cases hi'
      refine iff_of_true rfl ⟨i, v, _, hv, rfl, Dict.get?_set_self _ _ _⟩
    · rw [Dict.get?_set_ne _ _ (Ne.symm hn)] at hi'
      rw [h0.flag name info' hi']
      constructor
      · rintro ⟨j, v', q, hj, hvn, hq⟩
        have hji : j ≠ i := by
          rintro rfl
          rw [hv] at hj
          cases hj
          exact hn hvn.symm
        exact ⟨j, v', q, hj, hvn, by rw [Dict.get?_set_ne _ _ (Ne.symm hji)]; exact hq⟩
      · rintro ⟨j, v', q, hj, hvn, hq⟩
        have hji : j ≠ i := by
          rintro rfl
          rw [hv] at hj
          cases hj
          exact hn hvn.symm
        exact ⟨j, v', q, hj, hvn, by rw [Dict.get?_set_ne _ _ (Ne.symm hji)] at hq; exact hq⟩

theorem createObjectives_info {x : OptCtx} {ports : PortExprs} {st0 st : OptState} (hobj : st0.solver.objective = [])
    (hflags : ∀ k i, st0.infos.get? k = some i → i.isInObjective = false)
    (h : x.createObjectives ports st0 = .ok st) : ObjInfo st0 st := by
  refine loop_inv (ObjInfo st0) _ (fun s1 s2 c _ h1 h2 => loop_inv (ObjInfo st0) _ (fun s1 s2 o _ h1 h2 => ?_) s1 s2 h1 h2)
    st0 st ⟨rfl, fun _ => rfl, fun name info hi => ?_⟩ h
  · cases o with
    | none => cases h2; exact h1
    | some e =>
      simp only [OptCtx.createObjectiveOf, OptCtx.createObjective, bind_ok_iff] at h2
      obtain ⟨e1, he1, e2, he2, l, hl, s3, hs3, h2⟩ := h2
      cases h2
      have := loop_inv (ObjInfo st0) _ (fun s1 s2 u _ h1 h2 => objectiveTerm_info h1 h2) s1 s3 h1 hs3
      exact ⟨this.vars, this.recorded, this.flag⟩
  · rw [hflags _ _ hi, hobj]
    simp [Dict.get?]

end Verif
