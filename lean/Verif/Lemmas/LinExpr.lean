import Verif.Lemmas.Dict
import Verif.Spec.Lin

/-! Lemmas on linear expressions. -/

namespace Verif

theorem isCloseAbs_fin (a b : ℚ) : isCloseAbs (.fin a) (.fin b) = decide (|a - b| < 1 / 10 ^ 16) := by
  have : isCloseAbs (.fin a) (.fin b) = (decide (|a - b| ≤ EPS) && !decide (Num.fin |a - b| = Num.fin EPS)) := by
    simp only [isCloseAbs, Num.fin_sub_fin]; rfl
  rw [this, Bool.eq_iff_iff]
  simp only [Bool.and_eq_true, decide_eq_true_eq, Bool.not_eq_true', decide_eq_false_iff_not, Num.fin_inj]
  exact lt_iff_le_and_ne.symm

theorem isZero_fin (q : ℚ) : isZero (.fin q) = decide (|q| < 1 / 10 ^ 16) := by
  have := isCloseAbs_fin q 0
  rw [sub_zero] at this
  exact this

theorem isZero_iff (v : Num) : isZero v = true ↔ v.Small := by
  cases v with
  | fin q => rw [isZero_fin]; simp [Num.Small]
  | pinf => exact ⟨fun h => (by cases h), fun ⟨q, h, _⟩ => (by cases h)⟩
  | ninf => exact ⟨fun h => (by cases h), fun ⟨q, h, _⟩ => (by cases h)⟩
  | nan => exact ⟨fun h => (by cases h), fun ⟨q, h, _⟩ => (by cases h)⟩

theorem small_zero : (0 : Num).Small := ⟨0, rfl, by norm_num⟩

theorem dropSmall_eq (v : Num) : dropSmall v = if isZero v then 0 else v := by
  cases v with
  | fin q =>
    simp only [dropSmall, isZero_fin, decide_eq_true_eq]; rfl
  | pinf => rfl
  | ninf => rfl
  | nan => rfl

@[simp] theorem dropSmall_zero : dropSmall 0 = 0 := by
  rw [dropSmall_eq, (isZero_iff 0).2 small_zero]; rfl

theorem dropSmall_idem (v : Num) : dropSmall (dropSmall v) = dropSmall v := by
  by_cases h : isZero v
  · rw [dropSmall_eq v, if_pos h, dropSmall_zero]
  · rw [dropSmall_eq v, if_neg h, dropSmall_eq v, if_neg h]

namespace LinExpr
open Dict

variable {α β : Type} [DecidableEq α]

theorem foldl_erase_nodup (l : Dict α β) (c : α × β → Bool) (acc : Dict α β) (h : acc.keys.Nodup) :
    (l.foldl (fun (acc : Dict α β) kv => if c kv then acc.erase kv.1 else acc) acc).keys.Nodup := by
  induction l generalizing acc with
  | nil => exact h
  | cons kv l ih =>
    rw [List.foldl_cons]
    apply ih
    split
    · exact nodup_erase h _
    · exact h

theorem foldl_erase_get? (l : Dict α β) (nd : l.keys.Nodup) (c : α × β → Bool) (acc : Dict α β)
    (h : acc.keys.Nodup) (k : α) :
    (l.foldl (fun (acc : Dict α β) kv => if c kv then acc.erase kv.1 else acc) acc).get? k =
      match l.get? k with
      | some v => if c (k, v) then none else acc.get? k
      | none => acc.get? k := by
  induction l generalizing acc with
  | nil => rfl
  | cons kv l ih =>
    obtain ⟨k0, v0⟩ := kv
    simp only [keys, List.map_cons, List.nodup_cons] at nd
    rw [List.foldl_cons, ih nd.2 _ (by split; exact nodup_erase h _; exact h)]
    have key : (if c (k0, v0) = true then acc.erase k0 else acc).get? k =
        if c (k0, v0) = true ∧ k0 = k then none else acc.get? k := by
      by_cases hc : c (k0, v0) = true
      · simp [hc, get?_erase h]
      · simp [hc]
    rw [key]
    by_cases h0 : k0 = k
    · subst h0
      have : Dict.get? l k0 = none := get?_eq_none_iff.2 nd.1
      simp only [this, get?_cons, if_true, and_true]
    · simp only [get?_cons, h0, if_false, and_false]

theorem get?_removeZeros {d : Dict TermKey Term} (nd : d.keys.Nodup) (k : TermKey) :
    (removeZeros d).get? k =
      match d.get? k with
      | some t => if isZero t.coefficient then none else some t
      | none => none := by
  unfold removeZeros
  rw [foldl_erase_get? d nd (fun kv => isZero kv.2.coefficient) d nd]
  cases h : d.get? k <;> rfl

theorem nodup_removeZeros {d : Dict TermKey Term} (nd : d.keys.Nodup) : (removeZeros d).keys.Nodup :=
  foldl_erase_nodup d (fun kv => isZero kv.2.coefficient) d nd

theorem nodup_mergeDicts (a b : Dict TermKey Term) (f : Term → Term → Term) (g : Term → Term) :
    (mergeDicts a b f g).keys.Nodup := by
  unfold mergeDicts
  have h1 : ∀ (l : Dict TermKey Term) (acc : Dict TermKey Term), acc.keys.Nodup →
      (l.foldl (fun (res : Dict TermKey Term) kv =>
        match b.get? kv.1 with
        | some r => res.set kv.1 (f kv.2 r)
        | none => res.set kv.1 kv.2) acc).keys.Nodup := by
    intro l
    induction l with
    | nil => exact fun _ h => h
    | cons kv l ih =>
      intro acc h
      rw [List.foldl_cons]
      apply ih
      split <;> exact nodup_set h _ _
  have h2 := h1 a [] (by simp [keys])
  have := nodup_foldl_setIf b (fun kv => !a.contains kv.1) (fun kv => g kv.2) _ h2
  convert this using 3
  · funext acc kv
    cases a.contains kv.1 <;> rfl
  · rfl

theorem get?_mergeDicts {a b : Dict TermKey Term} (na : a.keys.Nodup) (nb : b.keys.Nodup)
    (f : Term → Term → Term) (g : Term → Term) (k : TermKey) :
    (mergeDicts a b f g).get? k =
      match a.get? k, b.get? k with
      | some l, some r => some (f l r)
      | some l, none => some l
      | none, some r => some (g r)
      | none, none => none := by
  have h1 := get?_foldl_setIf a na (fun _ => true)
    (fun kv => match b.get? kv.1 with | some r => f kv.2 r | none => kv.2) [] k
  have h2 := fun acc => get?_foldl_setIf b nb (fun kv => !a.contains kv.1) (fun kv => g kv.2) acc k
  have e : mergeDicts a b f g =
      b.foldl (fun (acc : Dict TermKey Term) kv => if (!a.contains kv.1) = true then acc.set kv.1 (g kv.2) else acc)
        (a.foldl (fun (acc : Dict TermKey Term) kv => if true = true then
          acc.set kv.1 (match b.get? kv.1 with | some r => f kv.2 r | none => kv.2) else acc) []) := by
    unfold mergeDicts
    simp only
    congr 1
    · funext acc kv
      cases a.contains kv.1 <;> rfl
    · congr 1
      funext acc kv
      cases b.get? kv.1 <;> rfl
  rw [e, h2, h1]
  cases ha : a.get? k with
  | none =>
    have : a.contains k = false := contains_false_iff.2 ha
    cases hb : b.get? k <;> simp [this]
  | some l =>
    have : a.contains k = true := by simp [Dict.contains, ha]
    cases hb : b.get? k <;> simp [this, hb]

theorem own_get {l : LinExpr} (h : l.Canonical) {k : TermKey} {t : Term} (ht : l.terms.get? k = some t) : t.key = k :=
  h.own k t (mem_of_get? ht)

/-- canonical from the lookup function -/
theorem canonical_of {l : LinExpr} (nd : l.terms.keys.Nodup) (h : ∀ k t, l.terms.get? k = some t → t.key = k) :
    l.Canonical := ⟨nd, fun k t hm => h k t (get?_of_mem nd hm)⟩

theorem canonical_empty : empty.Canonical := ⟨by simp [empty], by simp [empty]⟩

theorem get?_addTerms {a b : LinExpr} (ha : a.Canonical) (hb : b.Canonical) (k : TermKey) :
    (addTerms a.terms b.terms).get? k =
      if k ∈ a.terms.keys ∨ k ∈ b.terms.keys then some ⟨a.coef k + b.coef k, k⟩ else none := by
  unfold addTerms
  rw [get?_mergeDicts ha.nodup hb.nodup]
  simp only [coef]
  cases h1 : a.terms.get? k with
  | none =>
    cases h2 : b.terms.get? k with
    | none =>
      rw [if_neg]
      exact not_or.2 ⟨get?_eq_none_iff.1 h1, get?_eq_none_iff.1 h2⟩
    | some r =>
      obtain ⟨c, k'⟩ := r
      have := own_get hb h2
      simp only at this
      subst this
      rw [if_pos (.inr (mem_keys_iff.2 ⟨_, h2⟩))]
      simp only [h1, h2, Num.zero_add]
  | some l =>
    obtain ⟨c, k'⟩ := l
    have := own_get ha h1
    simp only at this
    subst this
    cases h2 : b.terms.get? k' with
    | none =>
      rw [if_pos (.inl (mem_keys_iff.2 ⟨_, h1⟩))]
      simp only [h1, h2, Num.add_zero]
    | some r =>
      obtain ⟨c2, k2⟩ := r
      have := own_get hb h2
      simp only at this
      subst this
      rw [if_pos (.inl (mem_keys_iff.2 ⟨_, h1⟩))]

theorem Num_zero_sub (a : Num) : 0 - a = -a := by rw [Num.sub_eq, Num.zero_add]
theorem Num_sub_zero (a : Num) : a - 0 = a := by
  have : (-(0 : Num)) = 0 := by show Num.fin _ = Num.fin _; rw [neg_zero]
  rw [Num.sub_eq, this, Num.add_zero]

theorem get?_subTerms {a b : LinExpr} (ha : a.Canonical) (hb : b.Canonical) (k : TermKey) :
    (subTerms a.terms b.terms).get? k =
      if k ∈ a.terms.keys ∨ k ∈ b.terms.keys then some ⟨a.coef k - b.coef k, k⟩ else none := by
  unfold subTerms
  rw [get?_mergeDicts ha.nodup hb.nodup]
  simp only [coef]
  cases h1 : a.terms.get? k with
  | none =>
    cases h2 : b.terms.get? k with
    | none =>
      rw [if_neg]
      exact not_or.2 ⟨get?_eq_none_iff.1 h1, get?_eq_none_iff.1 h2⟩
    | some r =>
      obtain ⟨c, k'⟩ := r
      have := own_get hb h2
      simp only at this
      subst this
      rw [if_pos (.inr (mem_keys_iff.2 ⟨_, h2⟩))]
      simp only [h1, h2, Num_zero_sub]
  | some l =>
    obtain ⟨c, k'⟩ := l
    have := own_get ha h1
    simp only at this
    subst this
    cases h2 : b.terms.get? k' with
    | none =>
      rw [if_pos (.inl (mem_keys_iff.2 ⟨_, h1⟩))]
      simp only [h1, h2, Num_sub_zero]
    | some r =>
      obtain ⟨c2, k2⟩ := r
      have := own_get hb h2
      simp only at this
      subst this
      rw [if_pos (.inl (mem_keys_iff.2 ⟨_, h1⟩))]

theorem coef_zero_of_not_mem {l : LinExpr} {k : TermKey} (h : k ∉ l.terms.keys) : l.coef k = 0 := by
  unfold coef; rw [get?_eq_none_iff.2 h]

/-- lookup after dropping zeros, for a dict whose lookup is described by a coefficient function -/
theorem get?_removeZeros' {d : Dict TermKey Term} (nd : d.keys.Nodup) (P : TermKey → Prop) [DecidablePred P]
    (c : TermKey → Num) (h : ∀ k, d.get? k = if P k then some ⟨c k, k⟩ else none) (h0 : ∀ k, ¬ P k → c k = 0)
    (k : TermKey) : (removeZeros d).get? k = if isZero (c k) then none else some ⟨c k, k⟩ := by
  rw [get?_removeZeros nd, h k]
  by_cases hp : P k
  · simp [hp]
  · simp only [hp, if_false, h0 k hp, (isZero_iff 0).2 small_zero, if_true]

theorem get?_iadd {a b : LinExpr} (ha : a.Canonical) (hb : b.Canonical) (k : TermKey) :
    (a.iadd b).terms.get? k = if isZero (a.coef k + b.coef k) then none else some ⟨a.coef k + b.coef k, k⟩ := by
  refine get?_removeZeros' (nodup_mergeDicts _ _ _ _) (fun k => k ∈ a.terms.keys ∨ k ∈ b.terms.keys)
    (fun k => a.coef k + b.coef k) (get?_addTerms ha hb) (fun k h => ?_) k
  rw [not_or] at h
  rw [coef_zero_of_not_mem h.1, coef_zero_of_not_mem h.2, Num.add_zero]

theorem get?_isub {a b : LinExpr} (ha : a.Canonical) (hb : b.Canonical) (k : TermKey) :
    (a.isub b).terms.get? k = if isZero (a.coef k - b.coef k) then none else some ⟨a.coef k - b.coef k, k⟩ := by
  refine get?_removeZeros' (nodup_mergeDicts _ _ _ _) (fun k => k ∈ a.terms.keys ∨ k ∈ b.terms.keys)
    (fun k => a.coef k - b.coef k) (get?_subTerms ha hb) (fun k h => ?_) k
  rw [not_or] at h
  rw [coef_zero_of_not_mem h.1, coef_zero_of_not_mem h.2, Num_sub_zero]

/-- canonical, without small coefficient, with the given coefficients -/
theorem ofLookup {l : LinExpr} (nd : l.terms.keys.Nodup) {c : TermKey → Num}
    (h : ∀ k, l.terms.get? k = if isZero (c k) then none else some ⟨c k, k⟩) :
    l.Canonical ∧ l.NoSmall ∧ ∀ k, l.coef k = dropSmall (c k) := by
  have key : ∀ k t, l.terms.get? k = some t → isZero (c k) = false ∧ t = ⟨c k, k⟩ := by
    intro k t ht
    rw [h k] at ht
    cases hz : isZero (c k)
    · simp [hz] at ht; exact ⟨rfl, ht.symm⟩
    · simp [hz] at ht
  refine ⟨canonical_of nd fun k t ht => by rw [(key k t ht).2], fun k t hm hs => ?_, fun k => ?_⟩
  · obtain ⟨h1, h2⟩ := key k t (get?_of_mem nd hm)
    rw [h2] at hs
    rw [(isZero_iff _).2 hs] at h1
    cases h1
  · rw [coef, h k, dropSmall_eq]
    cases isZero (c k) <;> rfl

theorem iadd_spec {a b : LinExpr} (ha : a.Canonical) (hb : b.Canonical) :
    (a.iadd b).Canonical ∧ (a.iadd b).NoSmall ∧ ∀ k, (a.iadd b).coef k = dropSmall (a.coef k + b.coef k) :=
  ofLookup (nodup_removeZeros (nodup_mergeDicts _ _ _ _)) (get?_iadd ha hb)

theorem isub_spec {a b : LinExpr} (ha : a.Canonical) (hb : b.Canonical) :
    (a.isub b).Canonical ∧ (a.isub b).NoSmall ∧ ∀ k, (a.isub b).coef k = dropSmall (a.coef k - b.coef k) :=
  ofLookup (nodup_removeZeros (nodup_mergeDicts _ _ _ _)) (get?_isub ha hb)

@[simp] theorem coef_empty (k : TermKey) : empty.coef k = 0 := rfl

theorem copy_spec {a : LinExpr} (ha : a.Canonical) :
    (empty.iadd a).Canonical ∧ (empty.iadd a).NoSmall ∧ (∀ k, (empty.iadd a).coef k = dropSmall (a.coef k)) ∧
      (empty.iadd a).constant = a.constant := by
  obtain ⟨h1, h2, h3⟩ := iadd_spec canonical_empty ha
  refine ⟨h1, h2, fun k => by rw [h3 k, coef_empty, Num.zero_add], ?_⟩
  exact Num.zero_add _

theorem coef_of_noSmall {l : LinExpr} (h : l.NoSmall) (k : TermKey) : dropSmall (l.coef k) = l.coef k := by
  unfold coef
  cases hk : l.terms.get? k with
  | none => exact dropSmall_zero
  | some t =>
    have := h k t (mem_of_get? hk)
    rw [dropSmall_eq, if_neg]
    rwa [isZero_iff]

theorem mapCoef_spec {d : Dict TermKey Term} {c : Num} (f : Num → Num) (f0 : f 0 = 0)
    (h : (⟨d, c⟩ : LinExpr).Canonical) (c' : Num) :
    (⟨mapCoef f d, c'⟩ : LinExpr).Canonical ∧
      ∀ k, (⟨mapCoef f d, c'⟩ : LinExpr).coef k = f ((⟨d, c⟩ : LinExpr).coef k) := by
  have hg : ∀ k, (mapCoef f d).get? k = (d.get? k).map fun t => { t with coefficient := f t.coefficient } :=
    fun k => get?_map d (fun _ (t : Term) => (⟨f t.coefficient, t.key⟩ : Term)) k
  have nd : (mapCoef f d).keys.Nodup := by
    have : (mapCoef f d).keys = d.keys := by simp [mapCoef, keys, List.map_map, Function.comp_def]
    rw [this]; exact h.nodup
  refine ⟨canonical_of nd fun k t ht => ?_, fun k => ?_⟩
  · simp only [hg, Option.map_eq_some_iff] at ht
    obtain ⟨t', ht', rfl⟩ := ht
    exact own_get (t := t') h ht'
  · simp only [coef, hg]
    cases hd : d.get? k with
    | none => exact f0.symm
    | some t => rfl

theorem terms_nil_iff {l : LinExpr} : l.terms.isEmpty = true ↔ l.terms = [] := by simp

theorem coef_of_nil {l : LinExpr} (h : l.terms = []) (k : TermKey) : l.coef k = 0 := by
  unfold coef; rw [h]; rfl

/-! ### constructors -/

theorem ofDict_spec (d : Dict TermKey Term) (nd : d.keys.Nodup) (own : ∀ k t, (k, t) ∈ d → t.key = k) (c : Num) :
    (ofDict d c).Canonical ∧ (ofDict d c).NoSmall ∧
      ∀ k, (ofDict d c).coef k = dropSmall ((⟨d, c⟩ : LinExpr).coef k) := by
  have hg := fun k => get?_foldl_setIf d nd (fun kv => !isZero kv.2.coefficient) (fun kv => kv.2) [] k
  have e : (ofDict d c).terms = d.foldl (fun (acc : Dict TermKey Term) kv =>
      if (!isZero kv.2.coefficient) = true then acc.set kv.1 kv.2 else acc) [] := by
    unfold ofDict
    simp only
    congr 1
    funext acc kv
    cases isZero kv.2.coefficient <;> rfl
  refine ofLookup ?_ fun k => ?_
  · rw [e]; exact nodup_foldl_setIf _ _ _ _ (by simp [keys])
  · rw [e, hg k]
    cases hd : d.get? k with
    | none =>
      have : (⟨d, c⟩ : LinExpr).coef k = 0 := by unfold coef; simp only [hd]
      rw [this]
      simp [(isZero_iff 0).2 small_zero]
    | some t =>
      have h1 : (⟨d, c⟩ : LinExpr).coef k = t.coefficient := by unfold coef; simp only [hd]
      rw [h1]
      have := own k t (mem_of_get? hd)
      subst this
      cases hz : isZero t.coefficient <;> simp [hz]

theorem ofList_spec (ts : List Term) (c : Num) : (ofList ts c).Canonical ∧ (ofList ts c).NoSmall := by
  have : ∀ (ts : List Term) (acc : Dict TermKey Term), acc.keys.Nodup →
      (∀ k t, (k, t) ∈ acc → t.key = k ∧ ¬ t.coefficient.Small) →
      let r := ts.foldl (fun acc t => if isZero t.coefficient then acc else acc.set t.key t) acc
      r.keys.Nodup ∧ ∀ k t, (k, t) ∈ r → t.key = k ∧ ¬ t.coefficient.Small := by
    intro ts
    induction ts with
    | nil => exact fun acc h1 h2 => ⟨h1, h2⟩
    | cons t ts ih =>
      intro acc h1 h2
      simp only [List.foldl_cons]
      apply ih
      · split
        · exact h1
        · exact nodup_set h1 _ _
      · split
        · exact h2
        · next hz =>
          intro k t' hm
          rcases mem_set hm with ⟨rfl, rfl⟩ | hm
          · exact ⟨rfl, fun hs => hz ((isZero_iff _).2 hs)⟩
          · exact h2 k t' hm
  obtain ⟨h1, h2⟩ := this ts [] (by simp [keys]) (by simp)
  exact ⟨⟨h1, fun k t hm => (h2 k t hm).1⟩, fun k t hm => (h2 k t hm).2⟩

end LinExpr
end Verif
