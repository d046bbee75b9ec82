import Verif.Spec.ComparedAny
import Verif.Lemmas.Compared
import Verif.Lemmas.Kept

/-! # Values of expressions when some parameters grow and others shrink -/

namespace Verif
open Verif.Expr Verif.OptCtx Verif.Shipped Verif.Props

/-- expressions have the same values when the symbols that they use have -/
theorem mden_used {M M' : MCtx} {P : Int → Prop} (h0 : P 0) (hw : ∀ w : Nat, w < M.D.S → P w) (hT : M'.D.T = M.D.T) (hS : M'.D.S = M.D.S) (e : Expr) :
    (∀ n, .var n ∈ e.subs → ∀ t s, P s → mden M' (.var n) t s = mden M (.var n) t s) →
    (∀ n, .par n ∈ e.subs → ∀ t s, P s → mden M' (.par n) t s = mden M (.par n) t s) →
    (∀ p f, .portField p f ∈ e.subs → ∀ t s, P s → ((M'.ports p f).map fun v => v t s) = ((M.ports p f).map fun v => v t s)) →
    (∀ y ∈ e.subs, y.hasComponent = false) → ∀ t s, P s → mden M' e t s = mden M e t s := by
  induction e using Expr.ind with
  | lit v => intro _ _ _ _ t s _; cases v <;> simp [mden]
  | var n => intro hv _ _ _ t s hs; exact hv n (mem_subs_self _) t s hs
  | par n => intro _ hp _ _ t s hs; exact hp n (mem_subs_self _) t s hs
  | portField p f =>
    intro _ _ hports _ t s hs
    have := hports p f (mem_subs_self _) t s hs
    simp only [mden]
    generalize M.ports p f = l at this
    generalize M'.ports p f = l' at this
    rcases l with _ | ⟨a, _ | ⟨b, l⟩⟩ <;> rcases l' with _ | ⟨a', _ | ⟨b', l'⟩⟩ <;> simp_all
  | agg e a _ =>
    intro _ _ hports _ t s hs
    cases e with
    | portField p f => simp only [mden, hports p f (by simp [subs]) t s hs]
    | _ => simp [mden]
  | cmp l r c _ _ => intro _ _ _ _ t s _; simp [mden]
  | cvar c n => intro _ _ _ h; exact absurd (h _ (mem_subs_self _)) (by simp [hasComponent])
  | cpar c n => intro _ _ _ h; exact absurd (h _ (mem_subs_self _)) (by simp [hasComponent])
  | pvar c n ti si => intro _ _ _ h; exact absurd (h _ (mem_subs_self _)) (by simp [hasComponent])
  | ppar c n ti si => intro _ _ _ h; exact absurd (h _ (mem_subs_self _)) (by simp [hasComponent])
  | add es ih =>
    intro hv hp hf h t s hs
    rw [mden_add, mden_add]
    congr 1
    exact List.map_congr_left fun x hx => ih x hx (fun n hn => hv n (mem_subs_add.2 (.inr ⟨x, hx, hn⟩)))
      (fun n hn => hp n (mem_subs_add.2 (.inr ⟨x, hx, hn⟩))) (fun p f hn => hf p f (mem_subs_add.2 (.inr ⟨x, hx, hn⟩)))
      (fun y hy => h y (mem_subs_add.2 (.inr ⟨x, hx, hy⟩))) t s hs
  | neg e ih =>
    intro hv hp hf h t s hs
    simp only [mden, ih (fun n hn => hv n (by simp [subs, hn])) (fun n hn => hp n (by simp [subs, hn])) (fun p f hn => hf p f (by simp [subs, hn]))
      (fun y hy => h y (by simp [subs, hy])) t s hs]
  | mul l r ihl ihr =>
    intro hv hp hf h t s hs
    simp only [mden, ihl (fun n hn => hv n (by simp [subs, hn])) (fun n hn => hp n (by simp [subs, hn])) (fun p f hn => hf p f (by simp [subs, hn]))
      (fun y hy => h y (by simp [subs, hy])) t s hs, ihr (fun n hn => hv n (by simp [subs, hn])) (fun n hn => hp n (by simp [subs, hn]))
      (fun p f hn => hf p f (by simp [subs, hn])) (fun y hy => h y (by simp [subs, hy])) t s hs]
  | div l r ihl ihr =>
    intro hv hp hf h t s hs
    simp only [mden, ihl (fun n hn => hv n (by simp [subs, hn])) (fun n hn => hp n (by simp [subs, hn])) (fun p f hn => hf p f (by simp [subs, hn]))
      (fun y hy => h y (by simp [subs, hy])) t s hs, ihr (fun n hn => hv n (by simp [subs, hn])) (fun n hn => hp n (by simp [subs, hn]))
      (fun p f hn => hf p f (by simp [subs, hn])) (fun y hy => h y (by simp [subs, hy])) t s hs]
  | shift e k ih ihk =>
    intro hv hp hf h t s hs
    simp only [mden, ihk (fun n hn => hv n (by simp [subs, hn])) (fun n hn => hp n (by simp [subs, hn])) (fun p f hn => hf p f (by simp [subs, hn]))
      (fun y hy => h y (by simp [subs, hy])) 0 0 h0, ih (fun n hn => hv n (by simp [subs, hn])) (fun n hn => hp n (by simp [subs, hn]))
      (fun p f hn => hf p f (by simp [subs, hn])) (fun y hy => h y (by simp [subs, hy])) _ s hs]
  | evalT e k ih ihk =>
    intro hv hp hf h t s hs
    simp only [mden, ihk (fun n hn => hv n (by simp [subs, hn])) (fun n hn => hp n (by simp [subs, hn])) (fun p f hn => hf p f (by simp [subs, hn]))
      (fun y hy => h y (by simp [subs, hy])) 0 0 h0, ih (fun n hn => hv n (by simp [subs, hn])) (fun n hn => hp n (by simp [subs, hn]))
      (fun p f hn => hf p f (by simp [subs, hn])) (fun y hy => h y (by simp [subs, hy])) _ s hs]
  | tsum e a b ih iha ihb =>
    intro hv hp hf h t s hs
    simp only [mden, iha (fun n hn => hv n (by simp [subs, hn])) (fun n hn => hp n (by simp [subs, hn])) (fun p f hn => hf p f (by simp [subs, hn]))
      (fun y hy => h y (by simp [subs, hy])) 0 0 h0, ihb (fun n hn => hv n (by simp [subs, hn])) (fun n hn => hp n (by simp [subs, hn]))
      (fun p f hn => hf p f (by simp [subs, hn])) (fun y hy => h y (by simp [subs, hy])) 0 0 h0,
      ih (fun n hn => hv n (by simp [subs, hn])) (fun n hn => hp n (by simp [subs, hn]))
      (fun p f hn => hf p f (by simp [subs, hn])) (fun y hy => h y (by simp [subs, hy])) _ s hs]
  | allsum e ih =>
    intro hv hp hf h t s hs
    simp only [mden, hT, ih (fun n hn => hv n (by simp [subs, hn])) (fun n hn => hp n (by simp [subs, hn])) (fun p f hn => hf p f (by simp [subs, hn]))
      (fun y hy => h y (by simp [subs, hy])) _ s hs]
  | scen e o ih =>
    intro hv hp hf h t s _
    simp only [mden, hS]
    congr 1
    exact Finset.sum_congr rfl fun w hm => ih (fun n hn => hv n (by simp [subs, hn])) (fun n hn => hp n (by simp [subs, hn]))
      (fun p f hn => hf p f (by simp [subs, hn])) (fun y hy => h y (by simp [subs, hy])) t w (hw w (Finset.mem_range.1 hm))

/-- what may happen to a parameter -/
inductive Move
  | same
  | more
  | less
  | free
  deriving DecidableEq

/-- all parameters of the expression stay the same -/
def Expr.fixed (k : String → Move) (e : Expr) : Bool := e.subs.all fun
  | .par n => decide (k n = .same)
  | _ => true

/-- the expression has no variables and no port fields -/
def Expr.data (e : Expr) : Bool := e.subs.all fun
  | .var _ => false
  | .portField .. => false
  | _ => true

mutual
/-- the expression can only grow (`up`) or only shrink, by a number that does not depend on the variables -/
def Expr.moves (k : String → Move) : Bool → Expr → Bool
  | true, .par n => k n = .same || k n = .more
  | false, .par n => k n = .same || k n = .less
  | up, .neg e => e.moves k (!up)
  | up, .add es => movesAll k up es
  | up, .shift e n => e.moves k up && n.fixed k && n.data
  | up, .evalT e n => e.moves k up && n.fixed k && n.data
  | up, .tsum e a b => e.moves k up && a.fixed k && a.data && b.fixed k && b.data
  | up, .allsum e => e.moves k up
  | up, .scen e _ => e.moves k up
  | _, e => e.fixed k
/-- the same for operands of a sum -/
def movesAll (k : String → Move) : Bool → List Expr → Bool
  | _, [] => true
  | up, e :: es => e.moves k up && movesAll k up es
end

theorem movesAll_iff {k : String → Move} {up : Bool} : ∀ {es : List Expr}, movesAll k up es = true ↔ ∀ e ∈ es, e.moves k up = true
  | [] => by simp [movesAll]
  | e :: es => by simp [movesAll, movesAll_iff (es := es)]

theorem fixed_par {k : String → Move} {e : Expr} (h : e.fixed k = true) {n : String} (hn : .par n ∈ e.subs) : k n = .same := by
  have := List.all_eq_true.1 h _ hn
  simpa using this

/-- the readings of the same component for all values of the variables, with two sets of data -/
structure Moved (k : String → Move) (P : Int → Prop) {ι : Type} (M M' : ι → MCtx) (p p' : String → Int → Int → ℚ) : Prop where
  zero : P 0
  each : ∀ i (w : Nat), w < (M i).D.S → P w
  T : ∀ i, (M' i).D.T = (M i).D.T
  S : ∀ i, (M' i).D.S = (M i).D.S
  T' : ∀ i j, (M i).D.T = (M j).D.T
  S' : ∀ i j, (M i).D.S = (M j).D.S
  var : ∀ i n t s, P s → mden (M' i) (.var n) t s = mden (M i) (.var n) t s
  par : ∀ i n t s, P s → mden (M i) (.par n) t s = p n t s
  par' : ∀ i n t s, P s → mden (M' i) (.par n) t s = p' n t s
  ports : ∀ i q f t s, P s → (((M' i).ports q f).map fun v => v t s) = (((M i).ports q f).map fun v => v t s)
  same : ∀ n, k n = .same → ∀ t s, P s → p' n t s = p n t s
  more : ∀ n, k n = .more → ∀ t s, P s → p n t s ≤ p' n t s
  less : ∀ n, k n = .less → ∀ t s, P s → p' n t s ≤ p n t s

namespace Moved
variable {k : String → Move} {P : Int → Prop} {ι : Type} {M M' : ι → MCtx} {p p' : String → Int → Int → ℚ}

theorem fixed (h : Moved k P M M' p p') {e : Expr} (hf : e.fixed k = true) (he : ∀ y ∈ e.subs, y.hasComponent = false) (i : ι) (t s : Int) (hs : P s) :
    mden (M' i) e t s = mden (M i) e t s := by
  refine mden_used h.zero (h.each i) (h.T i) (h.S i) e (fun n _ t s hs => h.var i n t s hs) (fun n hn t s hs => ?_) (fun q f _ t s hs => h.ports i q f t s hs)
    he t s hs
  rw [h.par' i n t s hs, h.par i n t s hs]
  exact h.same n (fixed_par hf hn) t s hs

theorem const (h : Moved k P M M' p p') {e : Expr} (hd : e.data = true) (he : ∀ y ∈ e.subs, y.hasComponent = false) (i j : ι) (t s : Int) (hs : P s) :
    mden (M i) e t s = mden (M j) e t s := by
  refine mden_used h.zero (h.each j) (h.T' i j) (h.S' i j) e (fun n hn => ?_) (fun n hn t s hs => by rw [h.par i n t s hs, h.par j n t s hs]) (fun q f hn => ?_)
    he t s hs
  · exact absurd (List.all_eq_true.1 hd _ hn) (by simp)
  · exact absurd (List.all_eq_true.1 hd _ hn) (by simp)

/-- an expression that can only grow, or only shrink, does so by the same number for all values of the variables -/
theorem shift (h : Moved k P M M' p p') (i0 : ι) (e : Expr) : ∀ up, e.moves k up = true → (∀ y ∈ e.subs, y.hasComponent = false) →
    ∃ d : Int → Int → ℚ, (∀ t s, P s → if up then 0 ≤ d t s else d t s ≤ 0) ∧
      ∀ i t s, P s → mden (M' i) e t s = mden (M i) e t s + d t s := by
  have zero : ∀ (e : Expr) (up : Bool), e.fixed k = true → (∀ y ∈ e.subs, y.hasComponent = false) →
      ∃ d : Int → Int → ℚ, (∀ t s, P s → if up then 0 ≤ d t s else d t s ≤ 0) ∧ ∀ i t s, P s → mden (M' i) e t s = mden (M i) e t s + d t s := by
    intro e up hf he
    refine ⟨fun _ _ => 0, fun t s _ => by split_ifs <;> exact le_rfl, fun i t s hs => ?_⟩
    rw [add_zero]
    exact h.fixed hf he i t s hs
  induction e using Expr.ind with
  | lit v => exact fun up hm he => zero _ up (by cases up <;> simpa [Expr.moves] using hm) he
  | var n => exact fun up hm he => zero _ up (by cases up <;> simpa [Expr.moves] using hm) he
  | par n =>
    intro up hm he
    refine ⟨fun t s => p' n t s - p n t s, ?_, ?_⟩
    · intro t s hs
      cases up with
      | true =>
        simp only [Expr.moves, Bool.or_eq_true, decide_eq_true_eq] at hm
        simp only [if_true, sub_nonneg]
        rcases hm with hm | hm
        · exact (h.same n hm t s hs).ge
        · exact h.more n hm t s hs
      | false =>
        simp only [Expr.moves, Bool.or_eq_true, decide_eq_true_eq] at hm
        simp only [Bool.false_eq_true, if_false, sub_nonpos]
        rcases hm with hm | hm
        · exact (h.same n hm t s hs).le
        · exact h.less n hm t s hs
    · intro i t s hs
      rw [h.par i n t s hs, h.par' i n t s hs]
      ring
  | portField p f => exact fun up hm he => zero _ up (by cases up <;> simpa [Expr.moves] using hm) he
  | agg e a _ => exact fun up hm he => zero _ up (by cases up <;> simpa [Expr.moves] using hm) he
  | cmp l r c _ _ => exact fun up hm he => zero _ up (by cases up <;> simpa [Expr.moves] using hm) he
  | cvar c n => exact fun up hm he => zero _ up (by cases up <;> simpa [Expr.moves] using hm) he
  | cpar c n => exact fun up hm he => zero _ up (by cases up <;> simpa [Expr.moves] using hm) he
  | pvar c n ti si => exact fun up hm he => zero _ up (by cases up <;> simpa [Expr.moves] using hm) he
  | ppar c n ti si => exact fun up hm he => zero _ up (by cases up <;> simpa [Expr.moves] using hm) he
  | mul l r _ _ => exact fun up hm he => zero _ up (by cases up <;> simpa [Expr.moves] using hm) he
  | div l r _ _ => exact fun up hm he => zero _ up (by cases up <;> simpa [Expr.moves] using hm) he
  | add es ih =>
    intro up hm he
    replace hm : movesAll k up es = true := by cases up <;> simpa [Expr.moves] using hm
    rw [movesAll_iff] at hm
    have hes : ∀ e ∈ es, ∀ y ∈ e.subs, y.hasComponent = false := fun e h y hy => he y (mem_subs_add.2 (.inr ⟨e, h, hy⟩))
    clear he
    simp only [mden_add]
    induction es with
    | nil => exact ⟨fun _ _ => 0, fun t s _ => by split_ifs <;> exact le_rfl, fun i t s _ => by simp⟩
    | cons a es ihs =>
      obtain ⟨d1, a1, b1⟩ := ih a List.mem_cons_self up (hm a List.mem_cons_self) (hes a List.mem_cons_self)
      obtain ⟨d2, a2, b2⟩ := ihs (fun x hx => ih x (List.mem_cons_of_mem _ hx)) (fun x hx => hm x (List.mem_cons_of_mem _ hx))
        (fun x hx => hes x (List.mem_cons_of_mem _ hx))
      refine ⟨fun t s => d1 t s + d2 t s, fun t s hs => ?_, fun i t s hs => ?_⟩
      · have := a1 t s hs
        have := a2 t s hs
        cases up with
        | true => simp only [if_true] at *; linarith
        | false => simp only [Bool.false_eq_true, if_false] at *; linarith
      · simp only [List.map_cons, List.sum_cons]
        rw [b1 i t s hs, b2 i t s hs]
        ring
  | neg e ih =>
    intro up hm he
    obtain ⟨d, a, b⟩ := ih (!up) (by cases up <;> simpa [Expr.moves] using hm) fun y hy => he y (by simp [subs, hy])
    refine ⟨fun t s => - d t s, fun t s hs => ?_, fun i t s hs => ?_⟩
    · have := a t s hs
      cases up <;> simpa using this
    · simp only [mden, b i t s hs]
      ring
  | shift e n ih _ =>
    intro up hm he
    have hm : (e.moves k up = true ∧ n.fixed k = true) ∧ n.data = true := by cases up <;> simpa [Expr.moves] using hm
    have hen : ∀ y ∈ n.subs, y.hasComponent = false := fun y hy => he y (by simp [subs, hy])
    obtain ⟨d, a, b⟩ := ih up hm.1.1 fun y hy => he y (by simp [subs, hy])
    refine ⟨fun t s => d (t + (mden (M i0) n 0 0).floor) s, fun t s hs => a _ s hs, fun i t s hs => ?_⟩
    simp only [mden]
    rw [h.fixed hm.1.2 hen i 0 0 h.zero, h.const hm.2 hen i0 i 0 0 h.zero, b i _ s hs]
  | evalT e n ih _ =>
    intro up hm he
    have hm : (e.moves k up = true ∧ n.fixed k = true) ∧ n.data = true := by cases up <;> simpa [Expr.moves] using hm
    have hen : ∀ y ∈ n.subs, y.hasComponent = false := fun y hy => he y (by simp [subs, hy])
    obtain ⟨d, a, b⟩ := ih up hm.1.1 fun y hy => he y (by simp [subs, hy])
    refine ⟨fun t s => d (mden (M i0) n 0 0).floor s, fun t s hs => a _ s hs, fun i t s hs => ?_⟩
    simp only [mden]
    rw [h.fixed hm.1.2 hen i 0 0 h.zero, h.const hm.2 hen i0 i 0 0 h.zero, b i _ s hs]
  | tsum e n m ih _ _ =>
    intro up hm he
    have hm : (((e.moves k up = true ∧ n.fixed k = true) ∧ n.data = true) ∧ m.fixed k = true) ∧ m.data = true := by
      cases up <;> simpa [Expr.moves] using hm
    have hen : ∀ y ∈ n.subs, y.hasComponent = false := fun y hy => he y (by simp [subs, hy])
    have hem : ∀ y ∈ m.subs, y.hasComponent = false := fun y hy => he y (by simp [subs, hy])
    obtain ⟨d, a, b⟩ := ih up hm.1.1.1.1 fun y hy => he y (by simp [subs, hy])
    refine ⟨fun t s => ∑ j ∈ Finset.Icc (mden (M i0) n 0 0).floor (mden (M i0) m 0 0).floor, d (t + j) s, fun t s hs => ?_, fun i t s hs => ?_⟩
    · cases up with
      | true => exact Finset.sum_nonneg fun j _ => a (t + j) s hs
      | false => exact Finset.sum_nonpos fun j _ => a (t + j) s hs
    · simp only [mden]
      rw [h.fixed hm.1.1.1.2 hen i 0 0 h.zero, h.const hm.1.1.2 hen i0 i 0 0 h.zero, h.fixed hm.1.2 hem i 0 0 h.zero, h.const hm.2 hem i0 i 0 0 h.zero,
        ← Finset.sum_add_distrib]
      exact Finset.sum_congr rfl fun j _ => b i _ s hs
  | allsum e ih =>
    intro up hm he
    obtain ⟨d, a, b⟩ := ih up (by cases up <;> simpa [Expr.moves] using hm) fun y hy => he y (by simp [subs, hy])
    refine ⟨fun _ s => ∑ u ∈ Finset.range (M i0).D.T, d u s, fun t s hs => ?_, fun i t s hs => ?_⟩
    · cases up with
      | true => exact Finset.sum_nonneg fun j _ => a j s hs
      | false => exact Finset.sum_nonpos fun j _ => a j s hs
    · simp only [mden]
      rw [h.T i, h.T' i0 i, ← Finset.sum_add_distrib]
      exact Finset.sum_congr rfl fun j _ => b i _ s hs
  | scen e o ih =>
    intro up hm he
    obtain ⟨d, a, b⟩ := ih up (by cases up <;> simpa [Expr.moves] using hm) fun y hy => he y (by simp [subs, hy])
    refine ⟨fun t _ => (∑ w ∈ Finset.range (M i0).D.S, d t w) / (M i0).D.S, fun t s hs => ?_, fun i t s hs => ?_⟩
    · cases up with
      | true => exact div_nonneg (Finset.sum_nonneg fun j hj => a t j (h.each i0 j (Finset.mem_range.1 hj))) (by positivity)
      | false => exact div_nonpos_of_nonpos_of_nonneg (Finset.sum_nonpos fun j hj => a t j (h.each i0 j (Finset.mem_range.1 hj))) (by positivity)
    · simp only [mden]
      rw [h.S i, h.S' i0 i, ← add_div, ← Finset.sum_add_distrib]
      congr 1
      exact Finset.sum_congr rfl fun j hj => b i _ _ (h.each i j (Finset.mem_range.1 hj))

end Moved
end Verif
