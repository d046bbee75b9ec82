import Verif.Lemmas.Kept

/-! # Expressions have finitely many non-zero coefficients -/

namespace Verif
open Verif.Expr Verif.OptCtx

/-- one instance at one, the others at zero -/
def oneKey (k : TermKey) : String → String → Option Int → Option Int → ℚ := fun c v t s => if k = ⟨c, v, t, s⟩ then 1 else 0

/-- `g` is the same as with all instances at zero, except for finitely many instances at one -/
def Few {β : Type} (g : (String → String → Option Int → Option Int → ℚ) → β) : Prop :=
  {k : TermKey | g (oneKey k) ≠ g fun _ _ _ _ => 0}.Finite

namespace Few

variable {β γ δ : Type}

theorem const (b : β) : Few fun _ => b := by simp [Few]

theorem map {g : (String → String → Option Int → Option Int → ℚ) → β} (h : Few g) (f : β → γ) : Few fun v => f (g v) :=
  h.subset fun k hk e => hk (by simp only [e])

theorem map2 {g : (String → String → Option Int → Option Int → ℚ) → β} {g' : (String → String → Option Int → Option Int → ℚ) → γ} (h : Few g)
    (h' : Few g') (f : β → γ → δ) : Few fun v => f (g v) (g' v) := by
  refine (Set.Finite.union h h').subset fun k hk => ?_
  by_contra hn
  simp only [Set.mem_union, Set.mem_ofPred_eq, not_or, not_not] at hn
  exact hk (by simp only [hn.1, hn.2])

theorem list {ι : Type} {g : ι → (String → String → Option Int → Option Int → ℚ) → β} (l : List ι) (h : ∀ i ∈ l, Few (g i)) :
    Few fun v => l.map fun i => g i v := by
  induction l with
  | nil => exact const _
  | cons a l ih => exact (h a List.mem_cons_self).map2 (ih fun i hi => h i (List.mem_cons_of_mem _ hi)) List.cons

theorem flat {ι : Type} {g : ι → (String → String → Option Int → Option Int → ℚ) → List β} (l : List ι) (h : ∀ i ∈ l, Few (g i)) :
    Few fun v => l.flatMap fun i => g i v := by
  induction l with
  | nil => exact const _
  | cons a l ih => exact (h a List.mem_cons_self).map2 (ih fun i hi => h i (List.mem_cons_of_mem _ hi)) (· ++ ·)

theorem sum {ι : Type} {g : ι → (String → String → Option Int → Option Int → ℚ) → ℚ} (S : Finset ι) (h : ∀ i ∈ S, Few (g i)) :
    Few fun v => ∑ i ∈ S, g i v := by
  have := (list S.toList (g := g) fun i hi => h i (Finset.mem_toList.1 hi)).map List.sum
  simpa using this

/-- something read at a place that may change -/
theorem at_ {g : β → (String → String → Option Int → Option Int → ℚ) → γ} {a : (String → String → Option Int → Option Int → ℚ) → β} (ha : Few a)
    (h : ∀ b, Few (g b)) : Few fun v => g (a v) v := by
  refine (Set.Finite.union ha (h (a fun _ _ _ _ => 0))).subset fun k hk => ?_
  by_contra hn
  simp only [Set.mem_union, Set.mem_ofPred_eq, not_or, not_not] at hn
  exact hk (by simp only [hn.1, hn.2])

theorem key (c v : String) (t s : Option Int) : Few fun var => var c v t s := by
  refine (Set.finite_singleton (⟨c, v, t, s⟩ : TermKey)).subset fun k hk => ?_
  by_contra hn
  refine hk ?_
  show (if k = ⟨c, v, t, s⟩ then (1 : ℚ) else 0) = 0
  rw [if_neg (by simpa using hn)]

end Few

theorem few_mden (x : OptCtx) (id : String) {P : (String → String → Option Int → Option Int → ℚ) → String → String → List (Int → Int → ℚ)}
    (hP : ∀ p f t s, Few fun var => (P var p f).map fun v => v t s) (e : Expr) :
    ∀ t s, Few fun var => mden (componentCtx (x.unwrapped var) id (P var)) e t s := by
  induction e using Expr.ind with
  | lit v => intro t s; cases v <;> exact Few.const _
  | var n => intro t s; simp only [mden]; exact Few.key id n (atT (x.varIdx id n) t) (atS (x.varIdx id n) s)
  | par n => intro t s; simp only [mden]; exact Few.const (x.dataValue id n (atT (x.parIdx id n) t) (atS (x.parIdx id n) s))
  | portField p f =>
    intro t s
    have := (hP p f t s).map fun l => match l with
      | [v] => v
      | _ => 0
    refine this.subset fun k hk e => hk ?_
    have z : ∀ var, mden (componentCtx (x.unwrapped var) id (P var)) (.portField p f) t s = match (P var p f).map fun v => v t s with
        | [v] => v
        | _ => 0 := by
      intro var
      show (match P var p f with
        | [v] => v t s
        | _ => 0) = _
      rcases P var p f with _ | ⟨a, _ | ⟨b, l⟩⟩ <;> rfl
    dsimp only at e ⊢
    rw [z, z]
    exact e
  | agg e a _ =>
    intro t s
    cases e with
    | portField p f => exact (hP p f t s).map List.sum
    | _ => simp only [mden]; exact Few.const _
  | cmp l r c _ _ => intro t s; simp only [mden]; exact Few.const _
  | cvar c n => intro t s; simp only [mden]; exact Few.key c n (atT (x.varIdx c n) t) (atS (x.varIdx c n) s)
  | cpar c n => intro t s; simp only [mden]; exact Few.const (x.dataValue c n (atT (x.parIdx c n) t) (atS (x.parIdx c n) s))
  | pvar c n ti si => intro t s; simp only [mden]; exact Few.key _ _ _ _
  | ppar c n ti si => intro t s; simp only [mden]; exact Few.const (x.dataValue c n (ti.at t) (si.at s))
  | add es ih =>
    intro t s
    simp only [mden_add]
    exact (Few.list es fun e he => ih e he t s).map List.sum
  | neg e ih => intro t s; simp only [mden]; exact (ih t s).map fun a => -a
  | mul l r ihl ihr => intro t s; simp only [mden]; exact (ihl t s).map2 (ihr t s) fun a b => a * b
  | div l r ihl ihr => intro t s; simp only [mden]; exact (ihl t s).map2 (ihr t s) fun a b => a / b
  | shift e k ihe ihk =>
    intro t s
    simp only [mden]
    exact ((ihk 0 0).map fun q => t + q.floor).at_ fun u => ihe u s
  | evalT e k ihe ihk =>
    intro t s
    simp only [mden]
    exact ((ihk 0 0).map fun q => q.floor).at_ fun u => ihe u s
  | tsum e a b ihe iha ihb =>
    intro t s
    simp only [mden]
    have ha : Few fun var => ((mden (componentCtx (x.unwrapped var) id (P var)) a 0 0).floor, (mden (componentCtx (x.unwrapped var) id (P var)) b 0 0).floor) :=
      (iha 0 0).map2 (ihb 0 0) fun q q' => (q.floor, q'.floor)
    have hg : ∀ w : Int × Int, Few fun var => ∑ k ∈ Finset.Icc w.1 w.2, mden (componentCtx (x.unwrapped var) id (P var)) e (t + k) s :=
      fun w => Few.sum (Finset.Icc w.1 w.2) fun k _ => ihe (t + k) s
    exact Few.at_ ha hg
  | allsum e ih => intro t s; simp only [mden]; exact Few.sum (Finset.range x.T) fun u _ => ih u s
  | scen e o ih => intro t s; simp only [mden]; exact (Few.sum (Finset.range x.scenarios) fun w _ => ih t w).map fun q => q / (x.scenarios : ℚ)

/-- finitely many instances have a coefficient that is not zero -/
theorem coefficient_finite (x : OptCtx) (c : Component) (e : Expr) (t s : Int) : {k | x.coefficient c e t s k ≠ 0}.Finite := by
  have := few_mden x c.id (P := fun var => attached (x.unwrapped var) x.network.connections c.id) (fun p f t s => ?_) e t s
  · refine this.subset fun k hk => ?_
    exact fun z => hk (sub_eq_zero.2 z)
  · unfold attached
    simp only [List.map_flatMap]
    refine Few.flat _ fun j _ => ?_
    have hv : Few fun var => j.value (x.unwrapped var) f t s := by
      unfold PortsConnection.value
      cases j.port1.fieldDef f with
      | some d => exact few_mden x _ (P := fun _ => noPorts) (fun _ _ _ _ => Few.const _) d t s
      | none =>
        cases j.port2.fieldDef f with
        | some d => exact few_mden x _ (P := fun _ => noPorts) (fun _ _ _ _ => Few.const _) d t s
        | none => exact Few.const _
    unfold PortsConnection.brings
    split_ifs
    · exact hv.map fun q => [q] ++ [q]
    · exact hv.map fun q => [q] ++ []
    · exact hv.map fun q => [] ++ [q]
    · exact Few.const []
    · exact Few.const []

end Verif
