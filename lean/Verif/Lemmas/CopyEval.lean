import Verif.Lemmas.Eval

/-! Copying visitors preserve evaluation. -/

namespace Verif

/-- Copying with hooks `h` turns leaves into expressions that evaluate under `q` as the leaf does under `p`. -/
structure HookSound (h : Hooks) (p q : ValueProvider) : Prop where
  var : ∀ n e, h.var n = .ok e → evaluate q e = p.var n ∧ e ≠ .add []
  par : ∀ n e, h.par n = .ok e → evaluate q e = p.par n ∧ e ≠ .add []
  cvar : ∀ c n e, h.cvar c n = .ok e → evaluate q e = p.cvar c n ∧ e ≠ .add []
  cpar : ∀ c n e, h.cpar c n = .ok e → evaluate q e = p.cpar c n ∧ e ≠ .add []
  pvar : ∀ c n ti si e, h.pvar c n ti si = .ok e → ∃ ti' si', e = .pvar c n ti' si'
  ppar : ∀ c n ti si e, h.ppar c n ti si = .ok e → ∃ ti' si', e = .ppar c n ti' si'
  portField : ∀ p f e, h.portField p f = .ok e → e = .portField p f
  agg : h.agg = none

theorem copyWith_eval {h : Hooks} {p q : ValueProvider} (hs : HookSound h p q) (e : Expr) :
    ∀ e', copyWith h e = .ok e' → evaluate q e' = evaluate p e ∧ e' ≠ .add [] := by
  induction e using Expr.ind with
  | lit v => intro e' h'; simp only [copyWith, Except.ok.injEq] at h'; subst h'; exact ⟨rfl, by simp⟩
  | var n => intro e' h'; exact hs.var n e' h'
  | par n => intro e' h'; exact hs.par n e' h'
  | cvar c n => intro e' h'; exact hs.cvar c n e' h'
  | cpar c n => intro e' h'; exact hs.cpar c n e' h'
  | pvar c n ti si =>
    intro e' h'
    obtain ⟨ti', si', rfl⟩ := hs.pvar c n ti si e' h'
    exact ⟨rfl, by simp⟩
  | ppar c n ti si =>
    intro e' h'
    obtain ⟨ti', si', rfl⟩ := hs.ppar c n ti si e' h'
    exact ⟨rfl, by simp⟩
  | portField pt f =>
    intro e' h'
    obtain rfl := hs.portField pt f e' h'
    exact ⟨rfl, by simp⟩
  | neg e ih =>
    intro e' h'
    simp only [copyWith, bind_ok_iff, Except.ok.injEq] at h'
    obtain ⟨a, ha, rfl⟩ := h'
    refine ⟨?_, by simp [Expr.negOp, Expr.mulOp, Expr.divOp]⟩
    simp only [Expr.negOp, evaluate, (ih a ha).1]
  | add es ih =>
    intro e' h'
    rw [copyWith_add, bind_ok_iff] at h'
    obtain ⟨es', hes, hf⟩ := h'
    have h2 := forall₂_and_mem (appendAll_ok_iff.1 hes)
      (S := fun x y => evaluate q y = evaluate p x ∧ y ≠ .add []) (fun x hx y hr => ih x hx y hr)
    have hne : ∀ e ∈ es', e ≠ .add [] := by
      intro e he
      obtain ⟨x, _, hx⟩ := forall₂_mem_right h2 he
      exact hx.2
    refine ⟨?_, foldAdd_ne_nil hf hne⟩
    rw [evaluate_foldAdd q hf hne, evaluate_add, evaluate_add]
    rw [appendAll_eq_of_forall₂ (h2.imp fun _ _ h => h.1)]
  | mul l r ihl ihr =>
    intro e' h'
    simp only [copyWith, bind_ok_iff, Except.ok.injEq] at h'
    obtain ⟨a, ha, b, hb, rfl⟩ := h'
    refine ⟨?_, by simp [Expr.negOp, Expr.mulOp, Expr.divOp]⟩
    simp only [Expr.mulOp, evaluate, (ihl a ha).1, (ihr b hb).1]
  | div l r ihl ihr =>
    intro e' h'
    simp only [copyWith, bind_ok_iff, Except.ok.injEq] at h'
    obtain ⟨a, ha, b, hb, rfl⟩ := h'
    refine ⟨?_, by simp [Expr.negOp, Expr.mulOp, Expr.divOp]⟩
    simp only [Expr.divOp, evaluate, (ihl a ha).1, (ihr b hb).1]
  | cmp l r c ihl ihr =>
    intro e' h'
    simp only [copyWith, bind_ok_iff, Except.ok.injEq] at h'
    obtain ⟨a, ha, b, hb, rfl⟩ := h'
    exact ⟨rfl, by simp⟩
  | shift e k _ _ =>
    intro e' h'
    simp only [copyWith, bind_ok_iff, Except.ok.injEq] at h'
    obtain ⟨a, ha, b, hb, rfl⟩ := h'
    exact ⟨rfl, by simp⟩
  | evalT e k _ _ =>
    intro e' h'
    simp only [copyWith, bind_ok_iff, Except.ok.injEq] at h'
    obtain ⟨a, ha, b, hb, rfl⟩ := h'
    exact ⟨rfl, by simp⟩
  | tsum e a b _ _ _ =>
    intro e' h'
    simp only [copyWith, bind_ok_iff, Except.ok.injEq] at h'
    obtain ⟨a, ha, b, hb, c, hc, rfl⟩ := h'
    exact ⟨rfl, by simp⟩
  | allsum e _ =>
    intro e' h'
    simp only [copyWith, bind_ok_iff, Except.ok.injEq] at h'
    obtain ⟨a, ha, rfl⟩ := h'
    exact ⟨rfl, by simp⟩
  | scen e op _ =>
    intro e' h'
    simp only [copyWith, bind_ok_iff, Except.ok.injEq] at h'
    obtain ⟨a, ha, rfl⟩ := h'
    exact ⟨rfl, by simp⟩
  | agg e a _ =>
    intro e' h'
    simp only [copyWith, hs.agg, bind_ok_iff, Except.ok.injEq] at h'
    obtain ⟨a, ha, rfl⟩ := h'
    exact ⟨rfl, by simp⟩

/-- If the leaf hooks never raise unless the corresponding evaluation raises, a failing copy means a failing
evaluation. -/
theorem copyWith_error {h : Hooks} {p : ValueProvider}
    (hvar : ∀ n x, h.var n = .error x → ∃ y, p.var n = .error y)
    (hpar : ∀ n x, h.par n = .error x → ∃ y, p.par n = .error y)
    (hcvar : ∀ c n x, h.cvar c n = .error x → ∃ y, p.cvar c n = .error y)
    (hcpar : ∀ c n x, h.cpar c n = .error x → ∃ y, p.cpar c n = .error y) (e : Expr) :
    ∀ x, copyWith h e = .error x → ∃ y, evaluate p e = .error y := by
  induction e using Expr.ind with
  | lit v => intro x h'; simp [copyWith] at h'
  | var n => intro x h'; exact hvar n x h'
  | par n => intro x h'; exact hpar n x h'
  | cvar c n => intro x h'; exact hcvar c n x h'
  | cpar c n => intro x h'; exact hcpar c n x h'
  | neg e ih =>
    intro x h'
    simp only [copyWith] at h'
    cases hc : copyWith h e with
    | error z =>
      obtain ⟨y, hy⟩ := ih z hc
      exact ⟨y, by simp [evaluate, hy]⟩
    | ok z => simp [hc] at h'
  | add es ih =>
    intro x h'
    rw [copyWith_add] at h'
    rw [evaluate_add]
    by_cases hes : es = []
    · subst hes; exact ⟨_, rfl⟩
    · suffices hh : ∃ y, appendAll (evaluate p) es = .error y by
        obtain ⟨y, hy⟩ := hh; exact ⟨y, by simp [hy]⟩
      have hfail : ∃ z, appendAll (copyWith h) es = .error z := by
        cases hc : appendAll (copyWith h) es with
        | error z => exact ⟨z, rfl⟩
        | ok es' =>
          rw [hc, ok_bind] at h'
          have : es' ≠ [] := by
            rintro rfl
            have := appendAll_length hc
            simp at this
            exact hes (List.length_eq_zero_iff.1 this.symm)
          obtain ⟨e, he⟩ := foldAdd_ok (plus := Expr.addOp) this
          simp [he] at h'
      obtain ⟨z, hz⟩ := hfail
      clear h' hes x
      induction es generalizing z with
      | nil => simp at hz
      | cons e es ih2 =>
        rw [appendAll_cons] at hz ⊢
        cases hc : copyWith h e with
        | error z =>
          obtain ⟨y, hy⟩ := ih e (by simp) z hc
          exact ⟨y, by simp [hy]⟩
        | ok e' =>
          rw [hc, ok_bind] at hz
          cases hev : evaluate p e with
          | error y => exact ⟨y, rfl⟩
          | ok v =>
            cases hc2 : appendAll (copyWith h) es with
            | ok es' => simp [hc2] at hz
            | error z' =>
              obtain ⟨y, hy⟩ := ih2 (fun e he => ih e (by simp [he])) z' hc2
              exact ⟨y, by simp [hy]⟩
  | mul l r ihl ihr =>
    intro x h'
    simp only [copyWith] at h'
    cases hc : copyWith h l with
    | error z => obtain ⟨y, hy⟩ := ihl z hc; exact ⟨y, by simp [evaluate, hy]⟩
    | ok l' =>
      cases hc2 : copyWith h r with
      | error z =>
        obtain ⟨y, hy⟩ := ihr z hc2
        cases hl : evaluate p l with
        | error y' => exact ⟨y', by simp [evaluate, hl]⟩
        | ok v => exact ⟨y, by simp [evaluate, hl, hy]⟩
      | ok r' => simp [hc, hc2] at h'
  | div l r ihl ihr =>
    intro x h'
    simp only [copyWith] at h'
    cases hc : copyWith h l with
    | error z => obtain ⟨y, hy⟩ := ihl z hc; exact ⟨y, by simp [evaluate, hy]⟩
    | ok l' =>
      cases hc2 : copyWith h r with
      | error z =>
        obtain ⟨y, hy⟩ := ihr z hc2
        cases hl : evaluate p l with
        | error y' => exact ⟨y', by simp [evaluate, hl]⟩
        | ok v => exact ⟨y, by simp [evaluate, hl, hy]⟩
      | ok r' => simp [hc, hc2] at h'
  | _ => intro x h'; exact ⟨_, rfl⟩

end Verif
