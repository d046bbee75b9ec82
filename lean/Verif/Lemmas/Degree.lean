import Verif.Lemmas.Eval
import Verif.Spec.Expr
import Verif.Spec.Assign
import Mathlib.Tactic.FieldSimp

/-! Lemmas on the degree visitor and evaluation. -/

namespace Verif
open Expr

theorem le_foldl_max (d : Nat) (ds : List Nat) : d ≤ ds.foldl max d ∧ ∀ x ∈ ds, x ≤ ds.foldl max d := by
  induction ds generalizing d with
  | nil => simp
  | cons a ds ih =>
    have := ih (max d a)
    simp only [List.foldl_cons, List.mem_cons, forall_eq_or_imp]
    refine ⟨?_, ?_, this.2⟩ <;> have := this.1 <;> omega

theorem pyMax_le {ds : List Nat} {m : Nat} (h : pyMax ds = .ok m) : ∀ x ∈ ds, x ≤ m := by
  cases ds with
  | nil => simp [pyMax] at h
  | cons d ds =>
    simp only [pyMax, Except.ok.injEq] at h
    subst h
    have := le_foldl_max d ds
    simpa using this

/-- operands of a sum of degree `d` have degree at most `d` -/
theorem degree_add_operands {es : List Expr} {d : Nat} (h : computeDegree (add es) = .ok d) :
    ∀ e ∈ es, ∃ k, computeDegree e = .ok k ∧ k ≤ d := by
  rw [computeDegree_add, bind_ok_iff] at h
  obtain ⟨ds, hds, hm⟩ := h
  intro e he
  obtain ⟨k, hk, hek⟩ := forall₂_mem_left (appendAll_ok_iff.1 hds) he
  exact ⟨k, hek, pyMax_le hm k hk⟩

theorem degree_zero_eval {p q : ValueProvider} (hpar : p.par = q.par) (hcpar : p.cpar = q.cpar)
    (e : Expr) : computeDegree e = .ok 0 → evaluate p e = evaluate q e := by
  induction e using Expr.ind with
  | par n => intro _; simp [evaluate, hpar]
  | cpar c n => intro _; simp [evaluate, hcpar]
  | var n => intro h; simp [computeDegree] at h
  | cvar c n => intro h; simp [computeDegree] at h
  | neg e ih => intro h; simp only [evaluate, ih h]
  | add es ih =>
    intro h
    rw [evaluate_add, evaluate_add, appendAll_congr]
    intro e he
    obtain ⟨k, hk, hle⟩ := degree_add_operands h e he
    obtain rfl : k = 0 := by omega
    exact ih e he hk
  | mul l r ihl ihr =>
    intro h
    simp only [computeDegree, bind_ok_iff, Except.ok.injEq] at h
    obtain ⟨a, ha, b, hb, hab⟩ := h
    obtain rfl : a = 0 := by omega
    obtain rfl : b = 0 := by omega
    simp only [evaluate, ihl ha, ihr hb]
  | div l r ihl ihr =>
    intro h
    simp only [computeDegree, bind_ok_iff] at h
    obtain ⟨b, hb, hl⟩ := h
    by_cases h0 : b = 0
    · subst h0; simp only [ne_eq, not_true_eq_false, if_false] at hl
      simp only [evaluate, ihl hl, ihr hb]
    · simp [h0] at hl
  | _ => intro _; rfl

theorem finLits_of_subs {e x : Expr} (h : FinLits e) (hs : ∀ y ∈ x.subs, y ∈ e.subs) : FinLits x :=
  fun v hv => h v (hs _ hv)

theorem finLits_add {es : List Expr} (h : FinLits (add es)) : ∀ e ∈ es, FinLits e :=
  fun e he => finLits_of_subs h fun _ hy => mem_subs_add.2 (.inr ⟨e, he, hy⟩)

/-- sum of finite values is finite -/
theorem appendAll_eval_fin {p : ValueProvider} {es : List Expr}
    (h : ∀ e ∈ es, ∀ v, evaluate p e = .ok v → ∃ q, v = .fin q) {vs : List Num}
    (hv : appendAll (evaluate p) es = .ok vs) : ∃ qs : List ℚ, vs = qs.map .fin := by
  induction es generalizing vs with
  | nil => exact ⟨[], by simpa using hv.symm⟩
  | cons e es ih =>
    rw [appendAll_cons] at hv
    simp only [bind_ok_iff, Except.ok.injEq] at hv
    obtain ⟨v, hv1, vs', hvs, rfl⟩ := hv
    obtain ⟨q, rfl⟩ := h e (by simp) v hv1
    obtain ⟨qs, rfl⟩ := ih (fun e he => h e (by simp [he])) hvs
    exact ⟨q :: qs, rfl⟩

theorem sum_map_fin (qs : List ℚ) : (qs.map Num.fin).sum = .fin qs.sum := by
  induction qs with
  | nil => rfl
  | cons q qs ih => simp only [List.map_cons, List.sum_cons, ih, Num.fin_add_fin]

/-- a provider of finite values gives finite results -/
structure FinProv (p : ValueProvider) : Prop where
  var : ∀ n v, p.var n = .ok v → ∃ q, v = .fin q
  cvar : ∀ c n v, p.cvar c n = .ok v → ∃ q, v = .fin q
  par : ∀ n v, p.par n = .ok v → ∃ q, v = .fin q
  cpar : ∀ c n v, p.cpar c n = .ok v → ∃ q, v = .fin q

theorem evaluate_fin {p : ValueProvider} (hp : FinProv p) (e : Expr) :
    FinLits e → ∀ v, evaluate p e = .ok v → ∃ q, v = .fin q := by
  induction e using Expr.ind with
  | lit w =>
    intro h v hv
    simp only [evaluate, Except.ok.injEq] at hv
    subst hv
    exact h w (by simp [subs])
  | var n => intro _ v hv; exact hp.var n v hv
  | par n => intro _ v hv; exact hp.par n v hv
  | cvar c n => intro _ v hv; exact hp.cvar c n v hv
  | cpar c n => intro _ v hv; exact hp.cpar c n v hv
  | neg e ih =>
    intro h v hv
    simp only [evaluate, bind_ok_iff, Except.ok.injEq] at hv
    obtain ⟨a, ha, rfl⟩ := hv
    obtain ⟨q, rfl⟩ := ih (finLits_of_subs h (by simp +contextual [subs])) a ha
    exact ⟨-q, rfl⟩
  | add es ih =>
    intro h v hv
    rw [evaluate_add, bind_ok_iff] at hv
    obtain ⟨vs, hvs, hf⟩ := hv
    obtain ⟨qs, rfl⟩ := appendAll_eval_fin (fun e he => ih e he (finLits_add h e he)) hvs
    have hne : qs.map Num.fin ≠ [] := by rintro h0; simp [h0, foldAdd] at hf
    rw [foldAdd_sum _ hne, sum_map_fin] at hf
    exact ⟨_, (Except.ok.inj hf).symm⟩
  | mul l r ihl ihr =>
    intro h v hv
    simp only [evaluate, bind_ok_iff, Except.ok.injEq] at hv
    obtain ⟨a, ha, b, hb, rfl⟩ := hv
    obtain ⟨q, rfl⟩ := ihl (finLits_of_subs h (by simp +contextual [subs])) a ha
    obtain ⟨q', rfl⟩ := ihr (finLits_of_subs h (by simp +contextual [subs])) b hb
    exact ⟨q * q', rfl⟩
  | div l r ihl ihr =>
    intro h v hv
    simp only [evaluate, bind_ok_iff] at hv
    obtain ⟨a, ha, b, hb, hab⟩ := hv
    obtain ⟨q, rfl⟩ := ihl (finLits_of_subs h (by simp +contextual [subs])) a ha
    obtain ⟨q', rfl⟩ := ihr (finLits_of_subs h (by simp +contextual [subs])) b hb
    by_cases h0 : q' = 0
    · simp [Num.div, h0] at hab
    · rw [Num.div_fin _ _ h0] at hab
      exact ⟨_, (Except.ok.inj hab).symm⟩
  | _ => intro _ v hv; simp [evaluate] at hv

theorem finProv_assign {par : String → R Num} {cpar : String → String → R Num} (h : FinPars par cpar)
    (v : String → ℚ) (cv : String → String → ℚ) : FinProv (assign par cpar v cv) where
  var n w hw := ⟨v n, (Except.ok.inj hw).symm⟩
  cvar c n w hw := ⟨cv c n, (Except.ok.inj hw).symm⟩
  par := h.par
  cpar := h.cpar

theorem degree_one_eval {par : String → R Num} {cpar : String → String → R Num} (hf : FinPars par cpar)
    (v w : String → ℚ) (cv cw : String → String → ℚ) (k : ℚ) (e : Expr) :
    ∀ d, computeDegree e = .ok d → d ≤ 1 → FinLits e → ∀ x, evaluate (assign par cpar v cv) e = .ok (.fin x) →
      ∃ y, evaluate (assign par cpar w cw) e = .ok (.fin y) ∧
        evaluate (assign par cpar (fun n => mix k (v n) (w n)) (fun c n => mix k (cv c n) (cw c n))) e
          = .ok (.fin (mix k x y)) := by
  have mixself : ∀ x, mix k x x = x := fun x => by unfold mix; ring
  set V := assign par cpar v cv with hV
  set W := assign par cpar w cw with hW
  set M := assign par cpar (fun n => mix k (v n) (w n)) (fun c n => mix k (cv c n) (cw c n)) with hM
  have fV : FinProv V := finProv_assign hf v cv
  have cW : ∀ e, computeDegree e = .ok 0 → evaluate V e = evaluate W e :=
    fun e => degree_zero_eval (p := V) (q := W) rfl rfl e
  have cM : ∀ e, computeDegree e = .ok 0 → evaluate V e = evaluate M e :=
    fun e => degree_zero_eval (p := V) (q := M) rfl rfl e
  have zero : ∀ e x, computeDegree e = .ok 0 → evaluate V e = .ok (.fin x) →
      ∃ y, evaluate W e = .ok (.fin y) ∧ evaluate M e = .ok (.fin (mix k x y)) := by
    intro e x h0 hx
    exact ⟨x, by rw [← cW e h0, hx], by rw [← cM e h0, hx, mixself]⟩
  induction e using Expr.ind with
  | lit a => intro d _ _ _ x hx; exact zero _ x rfl hx
  | par n => intro d _ _ _ x hx; exact zero _ x rfl hx
  | cpar c n => intro d _ _ _ x hx; exact zero _ x rfl hx
  | var n =>
    intro d _ _ _ x hx
    simp only [evaluate, hV, assign, Except.ok.injEq, Num.fin_inj] at hx
    exact ⟨w n, rfl, by simp [evaluate, hM, assign, hx]⟩
  | cvar c n =>
    intro d _ _ _ x hx
    simp only [evaluate, hV, assign, Except.ok.injEq, Num.fin_inj] at hx
    exact ⟨cw c n, rfl, by simp [evaluate, hM, assign, hx]⟩
  | neg e ih =>
    intro d hd hle hl x hx
    have hl' := finLits_of_subs hl (x := e) (by simp +contextual [subs])
    simp only [evaluate, bind_ok_iff, Except.ok.injEq] at hx
    obtain ⟨a, ha, hax⟩ := hx
    obtain ⟨q, rfl⟩ := evaluate_fin fV e hl' a ha
    simp only [Num.neg_fin, Num.fin_inj] at hax
    subst hax
    obtain ⟨y, h1, h2⟩ := ih d hd hle hl' q ha
    refine ⟨-y, by simp [evaluate, h1], ?_⟩
    simp only [evaluate, h2, ok_bind, Num.neg_fin, Except.ok.injEq, Num.fin_inj, mix]
    ring
  | add es ih =>
    intro d hd hle hl x hx
    have hne : es ≠ [] := by rintro rfl; simp [evaluate, evaluateList, foldAdd] at hx
    have key : ∀ fs : List Expr, (∀ e ∈ fs, e ∈ es) → ∀ vs, appendAll (evaluate V) fs = .ok vs →
        ∃ xs ys : List ℚ, vs = xs.map .fin ∧ appendAll (evaluate W) fs = .ok (ys.map .fin) ∧
          ∃ zs : List ℚ, appendAll (evaluate M) fs = .ok (zs.map .fin) ∧ zs.sum = mix k xs.sum ys.sum := by
      intro fs
      induction fs with
      | nil =>
        intro _ vs hvs
        simp only [appendAll_nil, Except.ok.injEq] at hvs
        exact ⟨[], [], hvs.symm, rfl, [], rfl, by simp [mix]⟩
      | cons f fs ih2 =>
        intro hmem vs hvs
        simp only [appendAll_cons, bind_ok_iff, Except.ok.injEq] at hvs
        obtain ⟨a, ha, vs', hvs', rfl⟩ := hvs
        have hfe := hmem f (by simp)
        obtain ⟨q, rfl⟩ := evaluate_fin fV f (finLits_add hl f hfe) a ha
        obtain ⟨j, hj, hjd⟩ := degree_add_operands hd f hfe
        obtain ⟨y, h1, h2⟩ := ih f hfe j hj (by omega) (finLits_add hl f hfe) q ha
        obtain ⟨xs, ys, rfl, hW', zs, hM', hz⟩ := ih2 (fun e he => hmem e (by simp [he])) vs' hvs'
        refine ⟨q :: xs, y :: ys, rfl, by simp [h1, hW'], mix k q y :: zs, by simp [h2, hM'], ?_⟩
        simp only [List.sum_cons, hz, mix]
        ring
    rw [evaluate_add, bind_ok_iff] at hx
    obtain ⟨vs, hvs, hsum⟩ := hx
    obtain ⟨xs, ys, rfl, hW', zs, hM', hz⟩ := key es (fun e he => he) vs hvs
    have ne : ∀ {g : Expr → R Num} {qs : List ℚ}, appendAll g es = .ok (qs.map .fin) → qs.map Num.fin ≠ [] := by
      intro g qs hg h0
      have := appendAll_length hg
      rw [h0] at this
      exact hne (List.length_eq_zero_iff.1 (by simpa using this.symm))
    rw [foldAdd_sum _ (ne hvs), sum_map_fin, Except.ok.injEq, Num.fin_inj] at hsum
    refine ⟨ys.sum, ?_, ?_⟩
    · rw [evaluate_add, hW', ok_bind, foldAdd_sum _ (ne hW'), sum_map_fin]
    · rw [evaluate_add, hM', ok_bind, foldAdd_sum _ (ne hM'), sum_map_fin, hz, hsum]
  | mul l r ihl ihr =>
    intro d hd hle hl x hx
    have fl := finLits_of_subs hl (x := l) (by simp +contextual [subs])
    have fr := finLits_of_subs hl (x := r) (by simp +contextual [subs])
    simp only [computeDegree, bind_ok_iff, Except.ok.injEq] at hd
    obtain ⟨da, hda, db, hdb, rfl⟩ := hd
    simp only [evaluate, bind_ok_iff, Except.ok.injEq] at hx
    obtain ⟨a, ha, b, hb, hab⟩ := hx
    obtain ⟨qa, rfl⟩ := evaluate_fin fV l fl a ha
    obtain ⟨qb, rfl⟩ := evaluate_fin fV r fr b hb
    simp only [Num.fin_mul_fin, Num.fin_inj] at hab
    subst hab
    obtain ⟨ya, a1, a2⟩ := ihl da hda (by omega) fl qa ha
    obtain ⟨yb, b1, b2⟩ := ihr db hdb (by omega) fr qb hb
    refine ⟨ya * yb, by simp [evaluate, a1, b1], ?_⟩
    simp only [evaluate, a2, b2, ok_bind, Num.fin_mul_fin, Except.ok.injEq, Num.fin_inj]
    rcases Nat.eq_zero_or_pos da with h0 | h0
    · subst h0
      have := cW l hda
      rw [ha, a1] at this
      obtain rfl : qa = ya := by simpa using this
      unfold mix; ring
    · obtain rfl : db = 0 := by omega
      have := cW r hdb
      rw [hb, b1] at this
      obtain rfl : qb = yb := by simpa using this
      unfold mix; ring
  | div l r ihl ihr =>
    intro d hd hle hl x hx
    have fl := finLits_of_subs hl (x := l) (by simp +contextual [subs])
    have fr := finLits_of_subs hl (x := r) (by simp +contextual [subs])
    simp only [computeDegree, bind_ok_iff] at hd
    obtain ⟨db, hdb, hd⟩ := hd
    by_cases h0 : db = 0
    swap
    · simp [h0] at hd
    subst h0
    simp only [ne_eq, not_true_eq_false, if_false] at hd
    simp only [evaluate, bind_ok_iff] at hx
    obtain ⟨a, ha, b, hb, hab⟩ := hx
    obtain ⟨qa, rfl⟩ := evaluate_fin fV l fl a ha
    obtain ⟨qb, rfl⟩ := evaluate_fin fV r fr b hb
    by_cases hq : qb = 0
    · simp [Num.div, hq] at hab
    rw [Num.div_fin _ _ hq, Except.ok.injEq, Num.fin_inj] at hab
    subst hab
    obtain ⟨ya, a1, a2⟩ := ihl d hd hle fl qa ha
    have bW := cW r hdb
    have bM := cM r hdb
    rw [hb] at bW bM
    refine ⟨ya / qb, ?_, ?_⟩
    · simp only [evaluate, a1, ← bW, ok_bind]; exact Num.div_fin _ _ hq
    · simp only [evaluate, a2, ← bM, ok_bind]
      rw [Num.div_fin _ _ hq]
      simp only [mix, Except.ok.injEq, Num.fin_inj]
      ring
  | _ => intro d _ _ _ x hx; simp [evaluate] at hx

end Verif
