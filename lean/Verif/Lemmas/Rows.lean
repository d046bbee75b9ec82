import Verif.Spec.Problem
import Verif.Lemmas.Dict
import Verif.Lemmas.Basic

/-! Loops, timesteps, rows: lemmas on the construction of the optimization problem. -/

namespace Verif

theorem loop_cons {σ α} (f : σ → α → R σ) (a : α) (l : List α) (st : σ) :
    loop f (a :: l) st = f st a >>= fun st' => loop f l st' := rfl

theorem loop_append {σ α} (f : σ → α → R σ) (l l' : List α) (st : σ) :
    loop f (l ++ l') st = loop f l st >>= fun st' => loop f l' st' := by
  induction l generalizing st with
  | nil => rfl
  | cons a l ih =>
    rw [List.cons_append, loop_cons, loop_cons]
    cases f st a with
    | error e => rfl
    | ok s => exact ih s

theorem loop_flatMap {σ α β} (f : σ → α → R σ) (g : β → List α) (l : List β) (st : σ) :
    loop (fun st b => loop f (g b) st) l st = loop f (l.flatMap g) st := by
  induction l generalizing st with
  | nil => rfl
  | cons b l ih =>
    rw [List.flatMap_cons, loop_append, loop_cons]
    cases loop f (g b) st with
    | error e => rfl
    | ok s => exact ih s

theorem loop_map {σ α β} (f : σ → α → R σ) (g : β → α) (l : List β) (st : σ) :
    loop f (l.map g) st = loop (fun st b => f st (g b)) l st := by
  induction l generalizing st with
  | nil => rfl
  | cons b l ih =>
    rw [List.map_cons, loop_cons, loop_cons]
    cases f st (g b) with
    | error e => rfl
    | ok s => exact ih s

/-- a property kept by every step of the loop -/
theorem loop_inv {σ α} {f : σ → α → R σ} (P : σ → Prop) (l : List α) (hstep : ∀ st st' a, a ∈ l → P st → f st a = .ok st' → P st')
    (st st' : σ) (h0 : P st) (h : loop f l st = .ok st') : P st' := by
  induction l generalizing st with
  | nil => cases h; exact h0
  | cons a l ih =>
    rw [loop_cons, bind_ok_iff] at h
    obtain ⟨s1, h1, h⟩ := h
    exact ih (fun st st' b hb => hstep st st' b (by simp [hb])) s1 (hstep st s1 a (by simp) h0 h1) h

/-- every step of a successful loop succeeded -/
theorem loop_step {σ α} {f : σ → α → R σ} (l : List α) (st st' : σ) (h : loop f l st = .ok st') :
    ∀ a ∈ l, ∃ s1 s2, f s1 a = .ok s2 := by
  induction l generalizing st with
  | nil => intro a ha; cases ha
  | cons b l ih =>
    rw [loop_cons, bind_ok_iff] at h
    obtain ⟨s1, h1, h⟩ := h
    intro a ha
    rcases List.mem_cons.1 ha with rfl | ha
    · exact ⟨_, _, h1⟩
    · exact ih s1 h a ha

/-! ## timesteps -/

/-- the instance at the timestep of the block -/
def wrapKey (T : Nat) (k : TermKey) : TermKey := { k with time := k.time.map (· % (T : Int)) }

theorem actualTimestep_ok {x : OptCtx} {t u : Int} (h : x.actualTimestep t = .ok u) :
    x.cycle = true ∧ x.T ≠ 0 ∧ u = t % x.T := by
  unfold OptCtx.actualTimestep at h
  split_ifs at h with h1 h2
  cases h
  exact ⟨h1, h2, rfl⟩

theorem actualTimestep_eq {x : OptCtx} (hc : x.cycle = true) (hT : x.T ≠ 0) (t : Int) :
    x.actualTimestep t = .ok (t % x.T) := by
  have : x.blockLength ≠ 0 := hT
  unfold OptCtx.actualTimestep
  rw [if_pos hc, if_neg this]
  rfl

theorem componentVariable_ok {x : OptCtx} {cols : Dict TermKey Nat} {k : TermKey} {i : Nat}
    (h : x.componentVariable cols k = .ok i) : cols.get? (wrapKey x.T k) = some i := by
  obtain ⟨c, v, t, s⟩ := k
  have get : ∀ k', Dict.get cols k' = .ok i → cols.get? k' = some i := by
    intro k' h
    unfold Dict.get at h
    split at h
    · cases h; assumption
    · cases h
  cases t with
  | none => exact get _ h
  | some t =>
    simp only [OptCtx.componentVariable, bind_ok_iff] at h
    obtain ⟨u, hu, h⟩ := h
    obtain ⟨_, _, rfl⟩ := actualTimestep_ok hu
    exact get _ h

theorem componentVariable_eq {x : OptCtx} (hc : x.cycle = true) (hT : x.T ≠ 0) (cols : Dict TermKey Nat) (k : TermKey) :
    x.componentVariable cols k = cols.get (wrapKey x.T k) := by
  obtain ⟨c, v, t, s⟩ := k
  cases t with
  | none => rfl
  | some t => simp [OptCtx.componentVariable, actualTimestep_eq hc hT, wrapKey]

/-! ## linear forms -/

theorem linForm_nil (x : Nat → ℚ) : linForm [] x = 0 := rfl

theorem linForm_set (d : Dict Nat Num) (i : Nat) (v : Num) (x : Nat → ℚ) :
    linForm (d.set i v) x = linForm d x + (v.toQ - (coefOf d i).toQ) * x i := by
  induction d with
  | nil => simp [linForm, Dict.set, coefOf, Num.toQ, show (0 : Num) = .fin 0 from rfl]
  | cons p d ih =>
    obtain ⟨j, w⟩ := p
    by_cases h : j = i
    · subst h
      simp only [Dict.set, if_true, linForm, List.map_cons, List.sum_cons, coefOf, Dict.get?, Option.getD_some]
      ring
    · have hc : coefOf ((j, w) :: d) i = coefOf d i := by simp [coefOf, Dict.get?, h]
      have hl : ∀ (e : Dict Nat Num), linForm ((j, w) :: e) x = w.toQ * x j + linForm e x := fun e => rfl
      rw [hc, Dict.set, if_neg h, hl, hl, ih]
      ring

/-- all coefficients are finite -/
def FinCoefs (d : Dict Nat Num) : Prop := ∀ i v, d.get? i = some v → v.isFin = true

theorem coefOf_fin {d : Dict Nat Num} (h : FinCoefs d) (i : Nat) : (coefOf d i).isFin = true := by
  unfold coefOf
  cases hd : d.get? i with
  | none => rfl
  | some v => exact h i v hd

theorem toQ_add {a b : Num} (ha : a.isFin = true) (hb : b.isFin = true) : (a + b).toQ = a.toQ + b.toQ := by
  obtain ⟨p, rfl⟩ := (Num.isFin_iff a).1 ha
  obtain ⟨q, rfl⟩ := (Num.isFin_iff b).1 hb
  rfl

theorem isFin_add {a b : Num} (ha : a.isFin = true) (hb : b.isFin = true) : (a + b).isFin = true := by
  obtain ⟨p, rfl⟩ := (Num.isFin_iff a).1 ha
  obtain ⟨q, rfl⟩ := (Num.isFin_iff b).1 hb
  rfl

theorem finCoefs_set {d : Dict Nat Num} (h : FinCoefs d) (i : Nat) (v : Num) (hv : v.isFin = true) : FinCoefs (d.set i v) := by
  intro j w hj
  rw [Dict.get?_set] at hj
  split at hj
  · cases hj; exact hv
  · exact h j w hj

theorem rowCoefs_linForm {x : OptCtx} {cols : Dict TermKey Nat} (terms : List Term) (coefs0 coefs : Dict Nat Num)
    (hf : ∀ t ∈ terms, t.coefficient.isFin = true) (h0 : FinCoefs coefs0)
    (h : x.rowCoefs cols terms coefs0 = .ok coefs) (pt : Nat → ℚ) (σ : TermKey → ℚ)
    (hσ : ∀ k i, cols.get? k = some i → pt i = σ k) :
    FinCoefs coefs ∧
      linForm coefs pt = linForm coefs0 pt + (terms.map fun t => t.coefficient.toQ * σ (wrapKey x.T t.key)).sum := by
  induction terms generalizing coefs0 with
  | nil => cases h; simp [h0]
  | cons t terms ih =>
    unfold OptCtx.rowCoefs at h
    rw [loop_cons, bind_ok_iff] at h
    obtain ⟨c1, h1, h⟩ := h
    rw [bind_ok_iff] at h1
    obtain ⟨i, hi, h1⟩ := h1
    cases h1
    have hi := componentVariable_ok hi
    have hft := hf t (by simp)
    have hc := coefOf_fin h0 i
    obtain ⟨a, b⟩ := ih _ (fun u hu => hf u (by simp [hu])) (finCoefs_set h0 i _ (isFin_add hft hc)) h
    refine ⟨a, ?_⟩
    rw [b, linForm_set, toQ_add hft hc, hσ _ _ hi, List.map_cons, List.sum_cons]
    ring

/-! ## bounds -/

theorem isBelow_sub (b : Num) (c v : ℚ) : (b - .fin c).isBelow v ↔ b.isBelow (v + c) := by
  cases b with
  | fin q => simp only [Num.fin_sub_fin, Num.isBelow]; exact sub_le_iff_le_add
  | pinf => exact Iff.rfl
  | ninf => exact Iff.rfl
  | nan => exact Iff.rfl

theorem isAbove_sub (b : Num) (c v : ℚ) : (b - .fin c).isAbove v ↔ b.isAbove (v + c) := by
  cases b with
  | fin q => simp only [Num.fin_sub_fin, Num.isAbove]; exact le_sub_iff_add_le
  | pinf => exact Iff.rfl
  | ninf => exact Iff.rfl
  | nan => exact Iff.rfl

end Verif
