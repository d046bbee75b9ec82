import Verif.Spec.Buildable
import Verif.Lemmas.Eval
import Verif.Lemmas.Reading

/-! # A check of the expressions of models that implies that they can be used -/

namespace Verif
open Verif.Expr Verif.OptCtx

namespace Expr

/-- no variable and no port inside -/
def knownB (e : Expr) : Bool := e.subs.all fun y => !y.isUnknown

theorem known_of {e : Expr} (h : e.knownB = true) : e.Known := by
  intro y hy
  have := List.all_eq_true.1 h y hy
  simpa using this

/-- a node of a whole number: integer literals, parameters of the list, opposites, sums and products -/
def wholeNodeB (ps : List String) : Expr → Bool
  | lit (.fin q) => q.den == 1
  | par n => ps.contains n
  | neg _ => true
  | add es => !es.isEmpty
  | mul .. => true
  | _ => false

/-- a whole number, if the parameters of the list are whole numbers -/
def wholeB (ps : List String) (e : Expr) : Bool := e.subs.all (wholeNodeB ps)

mutual
/-- the expression fits, if the parameters of `ds` are never zero and the parameters of `ws` are whole numbers -/
def fitsB (leaf : Expr → Bool) (ds ws : List String) : Expr → Bool
  | lit v => v.isFin
  | neg e => fitsB leaf ds ws e
  | add es => !es.isEmpty && fitsAllB leaf ds ws es
  | mul l r => fitsB leaf ds ws l && fitsB leaf ds ws r && (l.knownB || r.knownB)
  | div l (par n) => fitsB leaf ds ws l && leaf (par n) && ds.contains n
  | shift e k => fitsB leaf ds ws e && wholeB ws k && e.subs.all fun y => !y.isTimeFixing
  | evalT e k => fitsB leaf ds ws e && wholeB ws k && e.subs.all fun y => !y.isTimeFixing
  | tsum e a b => fitsB leaf ds ws e && wholeB ws a && wholeB ws b && e.subs.all fun y => !y.isTimeFixing
  | allsum e => fitsB leaf ds ws e
  | scen e .expectation => fitsB leaf ds ws e && e.subs.all fun y => !y.isScen
  | var n => leaf (var n)
  | par n => leaf (par n)
  | agg (portField ..) .portSum => true
  | _ => false
def fitsAllB (leaf : Expr → Bool) (ds ws : List String) : List Expr → Bool
  | [] => true
  | e :: es => fitsB leaf ds ws e && fitsAllB leaf ds ws es
end

theorem fitsAllB_iff (leaf : Expr → Bool) (ds ws : List String) (es : List Expr) :
    fitsAllB leaf ds ws es = true ↔ ∀ e ∈ es, fitsB leaf ds ws e = true := by
  induction es with
  | nil => simp [fitsAllB]
  | cons e es ih => simp [fitsAllB, ih]

theorem fitsAll_of (leaf amount : Expr → Prop) (M : MCtx) (es : List Expr) (h : ∀ e ∈ es, Fits leaf amount M e) :
    FitsAll leaf amount M es := by
  induction es with
  | nil => trivial
  | cons e es ih => exact ⟨h e (by simp), ih fun x hx => h x (by simp [hx])⟩

theorem whole_mden {M : MCtx} {ps : List String} (hp : ∀ n ∈ ps, ∃ z : ℤ, mden M (.par n) 0 0 = z) (e : Expr) :
    wholeB ps e = true → ∃ z : ℤ, mden M e 0 0 = z := by
  induction e using Expr.ind with
  | lit v =>
    intro h
    cases v with
    | fin q =>
      simp only [wholeB, subs, List.all_cons, List.all_nil, Bool.and_true, wholeNodeB, beq_iff_eq] at h
      exact ⟨q.num, by simp only [mden]; exact (Rat.den_eq_one_iff q).1 h |>.symm⟩
    | pinf => simp [wholeB, subs, wholeNodeB] at h
    | ninf => simp [wholeB, subs, wholeNodeB] at h
    | nan => simp [wholeB, subs, wholeNodeB] at h
  | par n =>
    intro h
    simp only [wholeB, subs, List.all_cons, List.all_nil, Bool.and_true, wholeNodeB, List.contains_iff_mem] at h
    exact hp n h
  | neg e ih =>
    intro h
    simp only [wholeB, subs, List.all_cons, Bool.and_eq_true] at h
    obtain ⟨z, hz⟩ := ih h.2
    exact ⟨-z, by simp [mden, hz]⟩
  | mul l r ihl ihr =>
    intro h
    simp only [wholeB, subs, List.all_cons, List.all_append, Bool.and_eq_true] at h
    obtain ⟨z, hz⟩ := ihl h.2.1
    obtain ⟨w, hw⟩ := ihr h.2.2
    exact ⟨z * w, by simp [mden, hz, hw]⟩
  | add es ih =>
    intro h
    have h' : ∀ e ∈ es, wholeB ps e = true := by
      intro e he
      unfold wholeB at h ⊢
      rw [List.all_eq_true] at h ⊢
      exact fun y hy => h y (mem_subs_add.2 (.inr ⟨e, he, hy⟩))
    rw [mden_add]
    clear h
    induction es with
    | nil => exact ⟨0, by simp⟩
    | cons e es ihes =>
      obtain ⟨z, hz⟩ := ih e (by simp) (h' e (by simp))
      obtain ⟨w, hw⟩ := ihes (fun x hx => ih x (by simp [hx])) fun x hx => h' x (by simp [hx])
      exact ⟨z + w, by simp [hz, hw]⟩
  | _ => intro h; simp [wholeB, subs, wholeNodeB] at h

end Expr

namespace OptCtx

variable {x : OptCtx} {c : Component}

theorem amount_of {ws : List String} (hw : ∀ n ∈ ws, (∃ p, c.model.parameters.get? n = some p ∧ p.structure_ = ⟨false, false⟩) ∧
    ∃ z : ℤ, mden (x.constants c) (.par n) 0 0 = z) {k : Expr} (h : wholeB ws k = true) : x.Amount c k := by
  refine ⟨⟨?_, ?_, ?_, ?_⟩, whole_mden (fun n hn => (hw n hn).2) k h⟩
  all_goals unfold wholeB at h; rw [List.all_eq_true] at h
  · intro y hy
    have := h y hy
    cases y <;> simp_all [wholeNodeB, isArith]
  · intro v hv
    have := h _ hv
    cases v <;> simp_all [wholeNodeB]
  · intro n hn
    have := h _ hn
    simp only [wholeNodeB, List.contains_iff_mem] at this
    obtain ⟨p, hp, hs⟩ := (hw n this).1
    exact ⟨p, hp, by simp [hs], by simp [hs]⟩
  · intro l r hd
    have := h _ hd
    simp [wholeNodeB] at this

/-- the symbols of the model -/
def leafB (m : Model) : Expr → Bool
  | .var n => m.variables_.values.any fun v => v.name = n
  | .par n => (m.parameters.get? n).isSome
  | _ => false

theorem usable_of {ds ws : List String} (hv : x.strategy.getVariables c.model = c.model.variables_.values)
    (hd : ∀ n ∈ ds, ∀ t s : Int, 0 ≤ s → s < x.scenarios → mden (x.constants c) (.par n) t s ≠ 0)
    (hw : ∀ n ∈ ws, (∃ p, c.model.parameters.get? n = some p ∧ p.structure_ = ⟨false, false⟩) ∧
      ∃ z : ℤ, mden (x.constants c) (.par n) 0 0 = z) (e : Expr) : fitsB (leafB c.model) ds ws e = true → x.Usable c e := by
  unfold OptCtx.Usable
  have hleaf : ∀ n, leafB c.model (.par n) = true → x.Leaf c (.par n) := by
    intro n h
    exact Option.isSome_iff_exists.1 h
  induction e using Expr.ind with
  | lit v => intro h; simpa [fitsB, Fits] using h
  | var n =>
    intro h
    simp only [fitsB, leafB, List.any_eq_true, decide_eq_true_eq] at h
    obtain ⟨v, hm, hn⟩ := h
    exact ⟨v, by rw [hv]; exact hm, hn⟩
  | par n => intro h; exact hleaf n (by simpa [fitsB] using h)
  | neg e ih => intro h; simp only [fitsB] at h; simpa [Fits] using ih h
  | allsum e ih => intro h; simp only [fitsB] at h; simpa [Fits] using ih h
  | add es ih =>
    intro h
    simp only [fitsB, Bool.and_eq_true, Bool.not_eq_true', fitsAllB_iff] at h
    simp only [Fits]
    refine ⟨?_, fitsAll_of _ _ _ _ fun e he => ih e he (h.2 e he)⟩
    rintro rfl
    simp at h
  | mul l r ihl ihr =>
    intro h
    simp only [fitsB, Bool.and_eq_true, Bool.or_eq_true] at h
    simp only [Fits]
    exact ⟨ihl h.1.1, ihr h.1.2, h.2.imp known_of known_of⟩
  | div l r ihl ihr =>
    intro h
    cases r with
    | par n =>
      simp only [fitsB, Bool.and_eq_true, List.contains_iff_mem] at h
      simp only [Fits]
      refine ⟨ihl h.1.1, hleaf n h.1.2, by simp [Known, subs, isUnknown], ?_⟩
      intro t s h0 h1
      exact hd n h.2 t s h0 h1
    | _ => simp [fitsB] at h
  | shift e k ih _ =>
    intro h
    simp only [fitsB, Bool.and_eq_true, List.all_eq_true, Bool.not_eq_true'] at h
    simp only [Fits]
    exact ⟨ih h.1.1, amount_of hw h.1.2, h.2⟩
  | evalT e k ih _ =>
    intro h
    simp only [fitsB, Bool.and_eq_true, List.all_eq_true, Bool.not_eq_true'] at h
    simp only [Fits]
    exact ⟨ih h.1.1, amount_of hw h.1.2, h.2⟩
  | tsum e a b ih _ _ =>
    intro h
    simp only [fitsB, Bool.and_eq_true, List.all_eq_true, Bool.not_eq_true'] at h
    simp only [Fits]
    exact ⟨ih h.1.1.1, amount_of hw h.1.1.2, amount_of hw h.1.2, h.2⟩
  | scen e o ih =>
    intro h
    cases o with
    | expectation =>
      simp only [fitsB, Bool.and_eq_true, List.all_eq_true, Bool.not_eq_true'] at h
      simp only [Fits]
      exact ⟨ih h.1, trivial, h.2⟩
    | _ => simp [fitsB] at h
  | agg e o _ =>
    intro h
    cases e with
    | portField p f =>
      cases o with
      | portSum => simp only [Fits]; exact ⟨rfl, p, f, rfl⟩
      | _ => simp [fitsB] at h
    | _ => simp [fitsB] at h
  | _ => intro h; simp [fitsB] at h

/-- a node of a bound: literals, parameters that vary as the variable does, opposites, sums and products -/
def boundNodeB (m : Model) (vary : Idx) : Expr → Bool
  | .lit v => v.isFin
  | .par n => match m.parameters.get? n with
    | some p => (!p.structure_.time || vary.time) && (!p.structure_.scenario || vary.scenario)
    | none => false
  | .neg _ => true
  | .add es => !es.isEmpty
  | .mul .. => true
  | _ => false

/-- a bound without division -/
def boundB (m : Model) (vary : Idx) : Option Expr → Bool
  | none => true
  | some (.lit .pinf) => true
  | some (.lit .ninf) => true
  | some e => e.subs.all (boundNodeB m vary)

theorem boundFits_of {vary : Idx} {b : Option Expr} (h : boundB c.model vary b = true) : x.BoundFits c vary b := by
  intro e he
  subst he
  by_cases hi : e.IsInfinite
  · exact .inl hi
  · right
    have h' : ∀ y ∈ e.subs, boundNodeB c.model vary y = true := by
      unfold boundB at h
      split at h
      · rename_i h0; cases h0
      · rename_i h0; cases h0; exact absurd (.inl rfl) hi
      · rename_i h0; cases h0; exact absurd (.inr rfl) hi
      · rename_i h0; cases h0; exact List.all_eq_true.1 h
    refine ⟨?_, ?_, ?_, ?_⟩
    · intro y hy
      have := h' y hy
      cases y <;> simp_all [boundNodeB, isArith]
    · intro v hv
      have := h' _ hv
      exact (Num.isFin_iff v).1 (by simpa [boundNodeB] using this)
    · intro n hn
      have := h' _ hn
      simp only [boundNodeB] at this
      split at this
      · rename_i p hp
        simp only [Bool.and_eq_true, Bool.or_eq_true, Bool.not_eq_true'] at this
        refine ⟨p, hp, ?_, ?_⟩
        · intro ht; rcases this.1 with h | h
          · rw [h] at ht; cases ht
          · exact h
        · intro ht; rcases this.2 with h | h
          · rw [h] at ht; cases ht
          · exact h
      · cases this
    · intro l r hd
      have := h' _ hd
      simp [boundNodeB] at this

end OptCtx
end Verif
