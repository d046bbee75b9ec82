import Verif.Lemmas.Reading
import Verif.Lemmas.CopyOk
import Verif.Props.ProblemExamples

/-!
# C49: time bounds are constants of the study; C52: kinds of variables
-/

namespace Verif.Props
open Verif Expr OptCtx

/-- an expression without operands -/
def isLeafNode : Expr → Bool
  | lit _ | var _ | par _ | cvar .. | cpar .. | pvar .. | ppar .. | portField .. => true
  | _ => false

theorem leaves_isLeafNode (e : Expr) : ∀ y ∈ e.leaves, isLeafNode y = true := by
  induction e using Expr.ind with
  | add es ih =>
    intro y hy
    simp only [leaves, leavesList_eq, List.mem_flatten, List.mem_map] at hy
    obtain ⟨_, ⟨x, hx, rfl⟩, hy⟩ := hy
    exact ih x hx y hy
  | neg e ih => exact ih
  | allsum e ih => exact ih
  | scen e o ih => exact ih
  | agg e o ih => exact ih
  | mul l r ihl ihr => intro y hy; simp only [leaves, List.mem_append] at hy; exact hy.elim (ihl y) (ihr y)
  | div l r ihl ihr => intro y hy; simp only [leaves, List.mem_append] at hy; exact hy.elim (ihl y) (ihr y)
  | cmp l r c ihl ihr => intro y hy; simp only [leaves, List.mem_append] at hy; exact hy.elim (ihl y) (ihr y)
  | shift l r ihl ihr => intro y hy; simp only [leaves, List.mem_append] at hy; exact hy.elim (ihl y) (ihr y)
  | evalT l r ihl ihr => intro y hy; simp only [leaves, List.mem_append] at hy; exact hy.elim (ihl y) (ihr y)
  | tsum e l r ihe ihl ihr =>
    intro y hy; simp only [leaves, List.mem_append] at hy
    exact hy.elim (fun h => h.elim (ihe y) (ihl y)) (ihr y)
  | _ => intro y hy; simp only [leaves, List.mem_singleton] at hy; subst hy; rfl

/-- a successful evaluation reads every leaf, and only uses the values read -/
theorem evaluate_reads {p : ValueProvider} {e : Expr} : ∀ {v : Num}, evaluate p e = .ok v →
    (∀ l ∈ e.leaves, ∃ w, evaluate p l = .ok w) ∧
    ∀ q : ValueProvider, (∀ l ∈ e.leaves, ∀ w, evaluate p l = .ok w → evaluate q l = .ok w) → evaluate q e = .ok v := by
  induction e using Expr.ind with
  | lit v => intro w h; exact ⟨fun l hl => (by simp only [leaves, List.mem_singleton] at hl; subst hl; exact ⟨w, h⟩), fun q hq => hq _ (by simp [leaves]) w h⟩
  | var n => intro w h; exact ⟨fun l hl => (by simp only [leaves, List.mem_singleton] at hl; subst hl; exact ⟨w, h⟩), fun q hq => hq _ (by simp [leaves]) w h⟩
  | par n => intro w h; exact ⟨fun l hl => (by simp only [leaves, List.mem_singleton] at hl; subst hl; exact ⟨w, h⟩), fun q hq => hq _ (by simp [leaves]) w h⟩
  | cvar c n => intro w h; exact ⟨fun l hl => (by simp only [leaves, List.mem_singleton] at hl; subst hl; exact ⟨w, h⟩), fun q hq => hq _ (by simp [leaves]) w h⟩
  | cpar c n => intro w h; exact ⟨fun l hl => (by simp only [leaves, List.mem_singleton] at hl; subst hl; exact ⟨w, h⟩), fun q hq => hq _ (by simp [leaves]) w h⟩
  | pvar => intro w h; cases h
  | ppar => intro w h; cases h
  | portField => intro w h; cases h
  | neg e ih =>
    intro w h
    simp only [evaluate, bind_ok_iff] at h
    obtain ⟨a, ha, h⟩ := h
    obtain ⟨i1, i2⟩ := ih ha
    refine ⟨i1, fun q hq => ?_⟩
    simp only [evaluate, i2 q hq, ok_bind, h]
  | add es ih =>
    intro w h
    rw [evaluate_add, bind_ok_iff] at h
    obtain ⟨vs, hvs, h⟩ := h
    have hall : ∀ e ∈ es, ∃ v, evaluate p e = .ok v := appendAll_ok_of_all.1 ⟨vs, hvs⟩
    constructor
    · intro l hl
      simp only [leaves, leavesList_eq, List.mem_flatten, List.mem_map] at hl
      obtain ⟨_, ⟨e, he, rfl⟩, hl⟩ := hl
      obtain ⟨v, hv⟩ := hall e he
      exact (ih e he hv).1 l hl
    · intro q hq
      rw [evaluate_add]
      have : appendAll (evaluate q) es = appendAll (evaluate p) es := by
        refine appendAll_congr fun e he => ?_
        obtain ⟨v, hv⟩ := hall e he
        rw [hv]
        refine (ih e he hv).2 q fun l hl => hq l ?_
        simp only [leaves, leavesList_eq, List.mem_flatten, List.mem_map]
        exact ⟨_, ⟨e, he, rfl⟩, hl⟩
      rw [this, hvs, ok_bind, h]
  | mul l r ihl ihr =>
    intro w h
    simp only [evaluate, bind_ok_iff] at h
    obtain ⟨a, ha, b, hb, h⟩ := h
    obtain ⟨i1, i2⟩ := ihl ha
    obtain ⟨j1, j2⟩ := ihr hb
    refine ⟨fun k hk => (List.mem_append.1 hk).elim (i1 k) (j1 k), fun q hq => ?_⟩
    have e1 := i2 q fun k hk => hq k (List.mem_append.2 (.inl hk))
    have e2 := j2 q fun k hk => hq k (List.mem_append.2 (.inr hk))
    simp only [evaluate, e1, e2, ok_bind, h]
  | div l r ihl ihr =>
    intro w h
    simp only [evaluate, bind_ok_iff] at h
    obtain ⟨a, ha, b, hb, h⟩ := h
    obtain ⟨i1, i2⟩ := ihl ha
    obtain ⟨j1, j2⟩ := ihr hb
    refine ⟨fun k hk => (List.mem_append.1 hk).elim (i1 k) (j1 k), fun q hq => ?_⟩
    have e1 := i2 q fun k hk => hq k (List.mem_append.2 (.inl hk))
    have e2 := j2 q fun k hk => hq k (List.mem_append.2 (.inr hk))
    simp only [evaluate, e1, e2, ok_bind, h]
  | cmp => intro w h; cases h
  | shift => intro w h; cases h
  | evalT => intro w h; cases h
  | tsum => intro w h; cases h
  | allsum => intro w h; cases h
  | scen => intro w h; cases h
  | agg => intro w h; cases h

/-- **C49**: when a time bound (a shift, or an end of a sum over time) is accepted with the integer `n`, it only contains
literals and parameters that the models declare constant, and its value at every timestep and scenario of the study is
`n`. -/
theorem c49_time_bound (x : OptCtx) (e : Expr) (n : Int) (h : x.evaluateTimeBound e = .ok n) :
    (∀ l ∈ e.leaves, (∃ v, l = lit v) ∨ ∃ c p k d, l = cpar c p ∧ x.network.getComponent c = .ok k ∧
      k.model.parameters.get? p = some d ∧ d.structure_ = ⟨false, false⟩) ∧
    (x.cycle = true → x.timesteps ≠ [] → ∀ t s, x.expressionValue e t s = .ok (.fin n)) := by
  unfold OptCtx.evaluateTimeBound at h
  rw [bind_ok_iff] at h
  obtain ⟨v, hv, hn⟩ := h
  have hvn : v = .fin n := by
    cases v with
    | fin q =>
      simp only [floatToInt] at hn
      split_ifs at hn with hd
      cases hn
      exact congrArg Num.fin ((Rat.den_eq_one_iff q).1 hd).symm
    | pinf => cases hn
    | ninf => cases hn
    | nan => cases hn
  subst hvn
  obtain ⟨h1, h2⟩ := evaluate_reads hv
  constructor
  · intro l hl
    obtain ⟨w, hw⟩ := h1 l hl
    cases l with
    | lit v => exact .inl ⟨v, rfl⟩
    | cpar c p =>
      right
      simp only [evaluate, OptCtx.constantProvider, OptCtx.structures, bind_ok_iff, get_ok_iff', Except.ok.injEq] at hw
      obtain ⟨i, ⟨k, hk, d, hd, rfl⟩, hw⟩ := hw
      split_ifs at hw with hts
      refine ⟨c, p, k, d, rfl, hk, hd, ?_⟩
      cases hst : d.structure_ with
      | mk a b =>
        rw [hst] at hts
        simp only [Bool.or_eq_true, not_or, Bool.not_eq_true] at hts
        rw [hts.1, hts.2]
    | var => cases hw
    | par => cases hw
    | cvar => cases hw
    | pvar => cases hw
    | ppar => cases hw
    | portField => cases hw
    | _ => exact absurd (leaves_isLeafNode e _ hl) (by simp [isLeafNode])
  · intro hc hT t s
    refine h2 (x.valueProvider t s) fun l hl w hw => ?_
    cases l with
    | lit v => exact hw
    | cpar c p =>
      simp only [evaluate, OptCtx.constantProvider, bind_ok_iff] at hw
      obtain ⟨i, _, hw⟩ := hw
      split_ifs at hw
      simp only [OptCtx.parameterValue, OptCtx.absoluteTimestep, bind_ok_iff, Except.ok.injEq] at hw
      obtain ⟨d, hd, a, rfl, hw⟩ := hw
      show x.parameterValue t s c p = .ok w
      have ha : ∃ a, x.absoluteTimestep t = .ok a := by
        cases t with
        | none => exact ⟨none, rfl⟩
        | some t =>
          have hlen : x.timesteps.length ≠ 0 := by simpa using hT
          simp only [OptCtx.absoluteTimestep]
          rw [actualTimestep_eq hc (by simpa [OptCtx.T] using hlen), ok_bind]
          have hpos : (0 : Int) < (x.T : Int) := by simp only [OptCtx.T]; omega
          have h0 := Int.emod_nonneg t (ne_of_gt hpos)
          have h1 := Int.emod_lt_of_pos t hpos
          unfold pyIndex
          simp only [not_lt.2 h0, if_false]
          have hlt : (t % (x.T : Int)).toNat < x.timesteps.length := by
            simp only [OptCtx.T] at h1 ⊢
            omega
          rw [List.getElem?_eq_getElem hlt]
          exact ⟨_, rfl⟩
      obtain ⟨a, ha⟩ := ha
      unfold OptCtx.parameterValue
      rw [hd, ok_bind, ha, ok_bind]
      exact getValue_scenario_mono d a _ w (getValue_time_mono d none _ w hw a) s
    | var => cases hw
    | par => cases hw
    | cvar => cases hw
    | pvar => cases hw
    | ppar => cases hw
    | portField => cases hw
    | _ => exact absurd (leaves_isLeafNode e _ hl) (by simp [isLeafNode])

/-! ## C52 -/

/-- **C52**: a boolean variable is always accepted and ranges from 0 to 1; an integer or continuous variable has the given
bounds (none for a missing one), and is accepted exactly when they do not depend on variables.  All keep the given name,
structure and problem context; by default they vary over time and scenarios and are operational. -/
theorem c52_kinds (name : String) (lb ub : Option Expr) (st : Idx) (ctx : ProblemContext) :
    (∃ v a b, boolVar name st ctx = .ok v ∧ v.name = name ∧ v.structure_ = st ∧ v.context = ctx ∧ v.dataType = .boolean ∧
      v.lowerBound = some a ∧ v.upperBound = some b ∧ ∀ p, evaluate p a = .ok (.fin 0) ∧ evaluate p b = .ok (.fin 1)) ∧
    (∀ v, intVariable name lb ub st ctx = .ok v ↔ v = ⟨name, .integer, lb, ub, st, ctx⟩ ∧
      (∀ b, lb = some b → computeDegree b = .ok 0) ∧ ∀ b, ub = some b → computeDegree b = .ok 0) ∧
    (∀ v, floatVariable name lb ub st ctx = .ok v ↔ v = ⟨name, .continuous, lb, ub, st, ctx⟩ ∧
      (∀ b, lb = some b → computeDegree b = .ok 0) ∧ ∀ b, ub = some b → computeDegree b = .ok 0) ∧
    boolVar name = boolVar name ⟨true, true⟩ .operational ∧
    intVariable name = intVariable name none none ⟨true, true⟩ .operational ∧
    floatVariable name = floatVariable name none none ⟨true, true⟩ .operational := by
  have hb : ∀ (msg : String) (b : Option Expr), checkConstantBound msg b = .ok () ↔
      ∀ e, b = some e → computeDegree e = .ok 0 := by
    intro msg b
    refine ⟨fun h e he => checkConstantBound_ok h e he, fun h => ?_⟩
    cases b with
    | none => rfl
    | some e => simp [checkConstantBound, isConstant, h e rfl]
  have hm : ∀ v w : Variable, v.make = .ok w ↔ w = v ∧ (∀ b, v.lowerBound = some b → computeDegree b = .ok 0) ∧
      ∀ b, v.upperBound = some b → computeDegree b = .ok 0 := by
    intro v w
    refine ⟨variable_make_ok, fun ⟨h, h1, h2⟩ => ?_⟩
    unfold Variable.make
    rw [(hb _ _).2 h1, ok_bind, (hb _ _).2 h2, h, ok_bind]
  refine ⟨⟨_, _, _, rfl, rfl, rfl, rfl, rfl, rfl, rfl, fun p => ⟨rfl, rfl⟩⟩, fun v => hm _ v, fun v => hm _ v, rfl, rfl, rfl⟩

example : (∃ v, floatVariable "x" (some (lit 0)) (some (par "p")) = .ok v) ∧
    (∃ x, intVariable "x" (some (var "y")) none = .error x) := ⟨⟨_, rfl⟩, _, rfl⟩

/-- a parameter that is constant, one that varies over time, and the bound `n - 1` -/
example : let m : Model := { id := "m", parameters := [("n", ⟨"n", .integer, ⟨false, false⟩⟩), ("p", ⟨"p", .continuous, ⟨true, false⟩⟩)] }
    let x : OptCtx := { network := { id := "s", components := [("C", ⟨m, "C"⟩)] }, database := [(("C", "n"), .const 3), (("C", "p"), .timeSeries [(0, 1)])],
                        timesteps := [0], scenarios := 1, cycle := true, treeNode := "", fullVarName := false }
    x.evaluateTimeBound ((cpar "C" "n").addOp (lit (-1))) = .ok 2 ∧
    (∃ e, x.evaluateTimeBound (cpar "C" "p") = .error e) := ⟨by decide +kernel, ⟨.valueError "Parameter is not constant.", rfl⟩⟩

end Verif.Props
