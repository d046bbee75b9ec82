import Verif.Props.Expressions
import Verif.Props.Models
import Verif.Model.Tree

/-!
# C53: comparing model definitions
-/

namespace Verif.Props
open Verif Expr

/-- the same bound: absent in both, or the same expression -/
def NoNaNBound (b : Option Expr) : Prop := ∀ e, b = some e → NoNaN e

/-- the fields of a variable that the comparison looks at -/
structure SameVariable (a b : Variable) : Prop where
  name : a.name = b.name
  dataType : a.dataType = b.dataType
  lower : a.lowerBound = b.lowerBound
  upper : a.upperBound = b.upperBound
  structure_ : a.structure_ = b.structure_

structure SameConstraint (a b : Constraint) : Prop where
  name : a.name = b.name
  expression : a.expression = b.expression
  lower : a.lowerBound = b.lowerBound
  upper : a.upperBound = b.upperBound

theorem equalIfPresent_iff (a b : Option Expr) (ha : NoNaNBound a) :
    expressionsEqualIfPresent a b = .ok true ↔ a = b := by
  cases a with
  | none => cases b <;> simp [expressionsEqualIfPresent]
  | some x =>
    cases b with
    | none => simp [expressionsEqualIfPresent]
    | some y => simp only [expressionsEqualIfPresent, Option.some.injEq]; exact c03_exact x y (ha x rfl)

theorem equalIfPresent_total (a b : Option Expr) : ∃ r, expressionsEqualIfPresent a b = .ok r := by
  cases a <;> cases b <;> first | exact ⟨_, rfl⟩ | exact ⟨_, by simp [expressionsEqualIfPresent, expressionsEqual]; rfl⟩

/-- **C53 (partial), variables**: two variables without NaN in their bounds are equal exactly when they have the same
name, type, bounds and structure.  (The problem context is not compared: `c53_context_ignored`.) -/
theorem c53_variables_partial (a b : Variable) (hl : NoNaNBound a.lowerBound) (hu : NoNaNBound a.upperBound) :
    (∃ r, a.eqb b = .ok r) ∧ (a.eqb b = .ok true ↔ SameVariable a b) := by
  obtain ⟨l, hl'⟩ := equalIfPresent_total a.lowerBound b.lowerBound
  obtain ⟨u, hu'⟩ := equalIfPresent_total a.upperBound b.upperBound
  have el := equalIfPresent_iff a.lowerBound b.lowerBound hl
  have eu := equalIfPresent_iff a.upperBound b.upperBound hu
  rw [hl', Except.ok.injEq] at el
  rw [hu', Except.ok.injEq] at eu
  unfold Variable.eqb
  simp only [hl', hu', ok_bind]
  by_cases h0 : a.name = b.name ∧ a.dataType = b.dataType
  · simp only [h0.1, h0.2, ne_eq, not_true_eq_false, decide_false, Bool.or_false, Bool.false_eq_true, if_false]
    cases l <;> cases u
    · exact ⟨⟨_, rfl⟩, fun h => (by cases h), fun h => absurd (el.2 h.lower) (by simp)⟩
    · exact ⟨⟨_, rfl⟩, fun h => (by cases h), fun h => absurd (el.2 h.lower) (by simp)⟩
    · exact ⟨⟨_, rfl⟩, fun h => (by cases h), fun h => absurd (eu.2 h.upper) (by simp)⟩
    · refine ⟨⟨_, rfl⟩, ?_⟩
      simp only [Bool.not_true, Bool.false_eq_true, if_false, Bool.true_and, Except.ok.injEq, decide_eq_true_eq]
      exact ⟨fun h => ⟨h0.1, h0.2, el.1 rfl, eu.1 rfl, h⟩, fun h => h.structure_⟩
  · have : (decide (a.name ≠ b.name) || decide (a.dataType ≠ b.dataType)) = true := by
      simp only [Bool.or_eq_true, decide_eq_true_eq]
      by_contra hc
      push Not at hc
      exact h0 hc
    rw [if_pos this]
    exact ⟨⟨_, rfl⟩, fun h => (by cases h), fun h => absurd ⟨h.name, h.dataType⟩ h0⟩

/-- **C53 (partial), constraints**: two constraints without NaN are equal exactly when they have the same name,
expression and bounds.  (The problem context is not compared.) -/
theorem c53_constraints_partial (a b : Constraint) (he : NoNaN a.expression) (hl : NoNaN a.lowerBound) (hu : NoNaN a.upperBound) :
    a.eqb b = true ↔ SameConstraint a b := by
  have key : ∀ x y : Expr, NoNaN x → (exprEq 0 0 x y = true ↔ x = y) := fun x y hx =>
    ⟨exprEq_zero_eq x y, fun h => h ▸ exprEq_refl 0 0 x hx⟩
  simp only [Constraint.eqb, Bool.and_eq_true, beq_iff_eq, key _ _ he, key _ _ hl, key _ _ hu]
  exact ⟨fun ⟨⟨⟨h1, h2⟩, h3⟩, h4⟩ => ⟨h1, h2, h3, h4⟩, fun h => ⟨⟨⟨h.name, h.expression⟩, h.lower⟩, h.upper⟩⟩

/-- the same keys, with related values -/
def SameDict {κ α} [DecidableEq κ] (rel : α → α → Prop) (a b : Dict κ α) : Prop :=
  ∀ k, Option.Rel rel (Dict.get? a k) (Dict.get? b k)

theorem dictEqWith_iff {κ α} [DecidableEq κ] (eq : α → α → R Bool) (rel : α → α → Prop) (a b : Dict κ α)
    (na : (Dict.keys a).Nodup) (nb : (Dict.keys b).Nodup)
    (h : ∀ k v, (k, v) ∈ a → ∀ w, (∃ r, eq v w = .ok r) ∧ (eq v w = .ok true ↔ rel v w)) :
    (∃ r, dictEqWith eq a b = .ok r) ∧ (dictEqWith eq a b = .ok true ↔ SameDict rel a b) := by
  have go : ∀ l : List (κ × α), (∀ k v, (k, v) ∈ l → ∀ w, (∃ r, eq v w = .ok r) ∧ (eq v w = .ok true ↔ rel v w)) →
      (∃ r, dictEqWith.go eq b l = .ok r) ∧
      (dictEqWith.go eq b l = .ok true ↔ ∀ k v, (k, v) ∈ l → ∃ w, Dict.get? b k = some w ∧ rel v w) := by
    intro l
    induction l with
    | nil => intro _; exact ⟨⟨true, rfl⟩, fun _ k v hm => (by cases hm), fun _ => rfl⟩
    | cons kv rest ih =>
      intro hl
      obtain ⟨k, v⟩ := kv
      obtain ⟨i1, i2⟩ := ih fun k v hm => hl k v (List.mem_cons.2 (.inr hm))
      unfold dictEqWith.go
      cases hk : Dict.get? b k with
      | none =>
        refine ⟨⟨false, rfl⟩, fun hc => (by cases hc), fun hall => ?_⟩
        obtain ⟨w, hw, _⟩ := hall k v (by simp)
        rw [hk] at hw
        cases hw
      | some w =>
        obtain ⟨⟨r, hr⟩, hrel⟩ := hl k v (by simp) w
        simp only [hr, ok_bind]
        rw [hr, Except.ok.injEq] at hrel
        cases r with
        | false =>
          refine ⟨⟨false, rfl⟩, fun hc => (by cases hc), fun hall => ?_⟩
          obtain ⟨w', hw', hr'⟩ := hall k v (by simp)
          rw [hk] at hw'
          cases hw'
          exact absurd (hrel.2 hr') (by simp)
        | true =>
          simp only [if_true]
          refine ⟨i1, i2.trans ⟨fun hall k' v' hm => ?_, fun hall k' v' hm => hall k' v' (List.mem_cons.2 (.inr hm))⟩⟩
          rcases List.mem_cons.1 hm with heq | hm
          · cases heq
            exact ⟨w, hk, hrel.1 rfl⟩
          · exact hall k' v' hm
  have hlen : ∀ (d : Dict κ α), d.length = (Dict.keys d).length := fun d => by simp [Dict.keys]
  unfold dictEqWith
  split_ifs with hl
  · refine ⟨⟨_, rfl⟩, fun hc => (by cases hc), fun hs => absurd ?_ hl⟩
    rw [hlen, hlen]
    refine le_antisymm ?_ ?_
    · refine (List.subperm_of_subset na fun k hk => ?_).length_le
      obtain ⟨v, hv⟩ := Dict.mem_keys_iff.1 hk
      have := hs k
      rw [hv] at this
      cases hw : Dict.get? b k with
      | none => rw [hw] at this; cases this
      | some w => exact Dict.mem_keys_iff.2 ⟨w, hw⟩
    · refine (List.subperm_of_subset nb fun k hk => ?_).length_le
      obtain ⟨v, hv⟩ := Dict.mem_keys_iff.1 hk
      have := hs k
      rw [hv] at this
      cases hw : Dict.get? a k with
      | none => rw [hw] at this; cases this
      | some w => exact Dict.mem_keys_iff.2 ⟨w, hw⟩
  · obtain ⟨g1, g2⟩ := go a h
    refine ⟨g1, g2.trans ⟨fun hall k => ?_, fun hs k v hm => ?_⟩⟩
    · cases hk : Dict.get? a k with
      | some v =>
        obtain ⟨w, hw, hr⟩ := hall k v (Dict.mem_of_get? hk)
        rw [hw]
        exact .some hr
      | none =>
        cases hw : Dict.get? b k with
        | none => exact .none
        | some w =>
          -- the keys of `a` are among those of `b`, in the same number
          have hsub : Dict.keys a ⊆ Dict.keys b := by
            intro k' hk'
            obtain ⟨v, hv⟩ := Dict.mem_keys_iff.1 hk'
            obtain ⟨w', hw', _⟩ := hall k' v (Dict.mem_of_get? hv)
            exact Dict.mem_keys_iff.2 ⟨w', hw'⟩
          have hperm := (List.subperm_of_subset na hsub).perm_of_length_le
            (by rw [← hlen, ← hlen]; omega)
          have := hperm.mem_iff.2 (Dict.mem_keys_iff.2 ⟨w, hw⟩)
          exact absurd hk (by
            obtain ⟨v, hv⟩ := Dict.mem_keys_iff.1 this
            rw [hv]
            simp)
    · have hk := Dict.get?_of_mem na hm
      have := hs k
      rw [hk] at this
      cases hw : Dict.get? b k with
      | none => rw [hw] at this; cases this
      | some w => rw [hw] at this; cases this with | some h => exact ⟨w, rfl, h⟩

/-- the dictionaries of a model are dictionaries, and its bounds and constraints have no NaN -/
structure Comparable (m : Model) : Prop where
  keys : (Dict.keys m.constraints).Nodup ∧ (Dict.keys m.bindingConstraints).Nodup ∧ (Dict.keys m.parameters).Nodup ∧
    (Dict.keys m.variables_).Nodup ∧ (Dict.keys m.ports).Nodup ∧ (Dict.keys m.portFieldsDefinitions).Nodup
  constraints : ∀ k c, (k, c) ∈ m.constraints ++ m.bindingConstraints → NoNaN c.expression ∧ NoNaN c.lowerBound ∧ NoNaN c.upperBound
  variables_ : ∀ k v, (k, v) ∈ m.variables_ → NoNaNBound v.lowerBound ∧ NoNaNBound v.upperBound

/-- what the comparison of models looks at -/
structure SameModel (a b : Model) : Prop where
  id : a.id = b.id
  constraints : SameDict SameConstraint a.constraints b.constraints
  bindingConstraints : SameDict SameConstraint a.bindingConstraints b.bindingConstraints
  interBlockDyn : a.interBlockDyn = b.interBlockDyn
  parameters : SameDict Eq a.parameters b.parameters
  variables_ : SameDict SameVariable a.variables_ b.variables_
  operational : a.objectiveOperational.isSome = b.objectiveOperational.isSome
  investment : a.objectiveInvestment.isSome = b.objectiveInvestment.isSome
  ports : SameDict Eq a.ports b.ports
  definitions : SameDict (fun x y => x.portField = y.portField) a.portFieldsDefinitions b.portFieldsDefinitions

/-- **C53 (partial), models**: two models are equal exactly when they have the same identifier, constraints, parameters,
variables and ports and define the same port fields, and each has an objective of each kind when the other does.
(The objectives and the definitions of the port fields themselves are not compared: `c53_objective_ignored`,
`c53_definition_ignored`.) -/
theorem c53_models_partial (a b : Model) (ha : Comparable a) (hb : Comparable b) :
    a.eqb b = .ok true ↔ SameModel a b := by
  obtain ⟨n1, n2, n3, n4, n5, n6⟩ := ha.keys
  obtain ⟨m1, m2, m3, m4, m5, m6⟩ := hb.keys
  obtain ⟨⟨r1, e1⟩, i1⟩ := dictEqWith_iff (fun x y => .ok (Constraint.eqb x y)) SameConstraint a.constraints b.constraints n1 m1
    fun k v hm w => ⟨⟨_, rfl⟩, by
      obtain ⟨h1, h2, h3⟩ := ha.constraints k v (List.mem_append.2 (.inl hm))
      rw [Except.ok.injEq]; exact c53_constraints_partial v w h1 h2 h3⟩
  obtain ⟨⟨r2, e2⟩, i2⟩ := dictEqWith_iff (fun x y => .ok (Constraint.eqb x y)) SameConstraint a.bindingConstraints b.bindingConstraints n2 m2
    fun k v hm w => ⟨⟨_, rfl⟩, by
      obtain ⟨h1, h2, h3⟩ := ha.constraints k v (List.mem_append.2 (.inr hm))
      rw [Except.ok.injEq]; exact c53_constraints_partial v w h1 h2 h3⟩
  obtain ⟨⟨r3, e3⟩, i3⟩ := dictEqWith_iff (fun x y => .ok (decide (x = y))) Eq a.parameters b.parameters n3 m3
    fun k v _ w => ⟨⟨_, rfl⟩, by simp⟩
  obtain ⟨⟨r4, e4⟩, i4⟩ := dictEqWith_iff Variable.eqb SameVariable a.variables_ b.variables_ n4 m4
    fun k v hm w => c53_variables_partial v w (ha.variables_ k v hm).1 (ha.variables_ k v hm).2
  obtain ⟨⟨r5, e5⟩, i5⟩ := dictEqWith_iff (fun x y => .ok (decide (x = y))) Eq a.ports b.ports n5 m5
    fun k v _ w => ⟨⟨_, rfl⟩, by simp⟩
  obtain ⟨⟨r6, e6⟩, i6⟩ := dictEqWith_iff (fun x y : PortFieldDefinition => .ok (decide (x.portField = y.portField)))
    (fun x y : PortFieldDefinition => x.portField = y.portField) a.portFieldsDefinitions b.portFieldsDefinitions n6 m6
    fun k v _ w => ⟨⟨_, rfl⟩, by simp⟩
  have ho : ∀ x y : Option Expr, objectiveEq x y = .ok true ↔ x.isSome = y.isSome := by
    intro x y; cases x <;> cases y <;> simp [objectiveEq]
  have ho' : ∀ x y : Option Expr, objectiveEq x y ≠ .ok false := by
    intro x y; cases x <;> cases y <;> simp [objectiveEq]
  rw [e1, Except.ok.injEq] at i1
  rw [e2, Except.ok.injEq] at i2
  rw [e3, Except.ok.injEq] at i3
  rw [e4, Except.ok.injEq] at i4
  rw [e5, Except.ok.injEq] at i5
  rw [e6, Except.ok.injEq] at i6
  have hi : SameModel a b ↔ a.id = b.id ∧ r1 = true ∧ r2 = true ∧ a.interBlockDyn = b.interBlockDyn ∧ r3 = true ∧ r4 = true ∧
      objectiveEq a.objectiveOperational b.objectiveOperational = .ok true ∧
      objectiveEq a.objectiveInvestment b.objectiveInvestment = .ok true ∧ r5 = true ∧ r6 = true := by
    rw [i1, i2, i3, i4, i5, i6, ho, ho]
    exact ⟨fun ⟨h1, h2, h3, h4, h5, h6, h7, h8, h9, h10⟩ => ⟨h1, h2, h3, h4, h5, h6, h7, h8, h9, h10⟩,
      fun ⟨h1, h2, h3, h4, h5, h6, h7, h8, h9, h10⟩ => ⟨h1, h2, h3, h4, h5, h6, h7, h8, h9, h10⟩⟩
  rw [hi]
  unfold Model.eqb
  simp only [e1, e2, e3, e4, e5, e6, ok_bind]
  by_cases h1 : a.id = b.id
  swap
  · simp [h1]
  cases r1
  · simp [h1]
  cases r2
  · simp [h1]
  by_cases h2 : a.interBlockDyn = b.interBlockDyn
  swap
  · simp [h1, h2]
  cases r3
  · simp [h1, h2]
  cases r4
  · simp [h1, h2]
  cases o1 : objectiveEq a.objectiveOperational b.objectiveOperational with
  | error e => simp [h1, h2]
  | ok o =>
    cases o
    · exact absurd o1 (ho' _ _)
    cases o2 : objectiveEq a.objectiveInvestment b.objectiveInvestment with
    | error e => simp [h1, h2]
    | ok o =>
      cases o
      · exact absurd o2 (ho' _ _)
      cases r5 <;> cases r6 <;> simp [h1, h2]

/-- two components are equal exactly when their identifiers and models are -/
theorem c53_components_partial (a b : Component) (ha : Comparable a.model) (hb : Comparable b.model) :
    a.eqb b = .ok true ↔ a.id = b.id ∧ SameModel a.model b.model := by
  have h := c53_models_partial a.model b.model ha hb
  unfold Component.eqb
  cases hm : a.model.eqb b.model with
  | error e => rw [hm] at h; simpa using fun _ hs => (by simpa using h.2 hs)
  | ok r =>
    rw [hm, Except.ok.injEq] at h
    simp only [ok_bind, Except.ok.injEq, Bool.and_eq_true, beq_iff_eq, h]
    exact and_comm

/-- **C53 is violated**: variables and constraints that differ by their problem context only are equal, -/
theorem c53_context_ignored : ∃ a b : Variable, a.context ≠ b.context ∧ a.eqb b = .ok true :=
  ⟨⟨"x", .continuous, none, none, ⟨true, true⟩, .operational⟩, ⟨"x", .continuous, none, none, ⟨true, true⟩, .investment⟩,
    by decide, by rfl⟩

/-- models with different objectives are equal, -/
theorem c53_objective_ignored : ∃ a b : Model, a.objectiveOperational ≠ b.objectiveOperational ∧ a.eqb b = .ok true :=
  ⟨{ id := "m", objectiveOperational := some (lit 1) }, { id := "m", objectiveOperational := some (lit 2) },
    by intro h; injection h with h; injection h with h; exact absurd h (by decide), by rfl⟩

/-- models with different definitions of a port field are equal, -/
theorem c53_definition_ignored : ∃ a b : Model, a.portFieldsDefinitions ≠ b.portFieldsDefinitions ∧ a.eqb b = .ok true :=
  ⟨{ id := "m", portFieldsDefinitions := [(⟨"p", "f"⟩, ⟨⟨"p", "f"⟩, lit 1⟩)] },
   { id := "m", portFieldsDefinitions := [(⟨"p", "f"⟩, ⟨⟨"p", "f"⟩, lit 2⟩)] },
    by
      intro h
      have := congrArg (fun d => (Dict.get? d (⟨"p", "f"⟩ : PortFieldId)).map (·.definition)) h
      simp only [Dict.get?_cons, if_true, Option.map_some, Option.some.injEq, Expr.lit.injEq] at this
      exact absurd this (by decide), by rfl⟩

/-- and comparing a model that has an objective with one that has none is an error instead of `False`. -/
theorem c53_objective_raises : ∃ a b : Model, ∃ m, a.eqb b = .error (.typeError m) :=
  ⟨{ id := "m", objectiveOperational := some (lit 1) }, { id := "m" }, _, rfl⟩

/-- a model with a variable and a constraint meets the hypotheses -/
example : Comparable
    ⟨"m", [("c", ⟨"c", var "x", lit 0, lit .pinf, .operational⟩)], [], false, [],
      [("x", ⟨"x", .continuous, some (lit 0), none, ⟨true, true⟩, .operational⟩)], none, none, [], []⟩ := by
  refine ⟨⟨by decide, by decide, by decide, by decide, by decide, by decide⟩, ?_, ?_⟩
  · intro k c h
    simp only [List.append_nil, List.mem_singleton, Prod.mk.injEq] at h
    obtain ⟨rfl, rfl⟩ := h
    refine ⟨?_, ?_, ?_⟩ <;> intro v hv <;> simp [subs] at hv <;> subst hv <;> decide
  · intro k v h
    simp only [List.mem_singleton, Prod.mk.injEq] at h
    obtain ⟨rfl, rfl⟩ := h
    refine ⟨fun e he => ?_, fun e he => (by cases he)⟩
    cases he
    intro v hv; simp [subs] at hv; subst hv; decide

end Verif.Props
