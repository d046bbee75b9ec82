import Verif.Model.Dict
import Mathlib.Data.List.Nodup

/-! Lemmas on insertion-ordered dictionaries. -/

namespace Verif
namespace Dict
variable {α β γ : Type} [DecidableEq α]

@[simp] theorem get?_nil (k : α) : get? ([] : Dict α β) k = none := rfl

@[simp] theorem get?_cons (k' : α) (v : β) (d : Dict α β) (k : α) :
    get? ((k', v) :: d) k = if k' = k then some v else get? d k := rfl

theorem get?_set (d : Dict α β) (k : α) (v : β) (k' : α) :
    (d.set k v).get? k' = if k = k' then some v else d.get? k' := by
  induction d with
  | nil => simp [set]
  | cons kv d ih =>
    obtain ⟨k0, v0⟩ := kv
    unfold set
    by_cases h0 : k0 = k
    · subst h0
      by_cases h1 : k0 = k' <;> simp [h1]
    · simp only [h0, if_false, get?_cons, ih]
      by_cases h1 : k0 = k'
      · subst h1; simp [Ne.symm h0]
      · simp [h1]

theorem get?_set_self (d : Dict α β) (k : α) (v : β) : (d.set k v).get? k = some v := by simp [get?_set]

theorem get?_set_ne (d : Dict α β) {k k' : α} (v : β) (h : k ≠ k') : (d.set k v).get? k' = d.get? k' := by
  simp [get?_set, h]

theorem get?_eq_none_iff {d : Dict α β} {k : α} : d.get? k = none ↔ k ∉ d.keys := by
  induction d with
  | nil => simp [keys]
  | cons kv d ih =>
    obtain ⟨k0, v0⟩ := kv
    by_cases h : k0 = k
    · subst h; simp [keys]
    · simp only [get?_cons, h, if_false, ih, keys, List.map_cons, List.mem_cons, not_or]
      exact ⟨fun hk => ⟨fun e => h e.symm, hk⟩, fun hk => hk.2⟩

theorem mem_keys_iff {d : Dict α β} {k : α} : k ∈ d.keys ↔ ∃ v, d.get? k = some v := by
  rw [← Option.ne_none_iff_exists', ne_eq, get?_eq_none_iff, not_not]

theorem contains_iff {d : Dict α β} {k : α} : d.contains k = true ↔ k ∈ d.keys := by
  rw [contains, Option.isSome_iff_exists, mem_keys_iff]

theorem contains_false_iff {d : Dict α β} {k : α} : d.contains k = false ↔ d.get? k = none := by
  unfold contains; cases d.get? k <;> simp

theorem mem_of_get? {d : Dict α β} {k : α} {v : β} (h : d.get? k = some v) : (k, v) ∈ d := by
  induction d with
  | nil => simp at h
  | cons kv d ih =>
    obtain ⟨k0, v0⟩ := kv
    by_cases hk : k0 = k
    · subst hk; simp at h; simp [h]
    · simp only [get?_cons, hk, if_false] at h
      exact List.mem_cons_of_mem _ (ih h)

theorem get?_of_mem {d : Dict α β} (nd : d.keys.Nodup) {k : α} {v : β} (h : (k, v) ∈ d) : d.get? k = some v := by
  induction d with
  | nil => simp at h
  | cons kv d ih =>
    obtain ⟨k0, v0⟩ := kv
    simp only [keys, List.map_cons, List.nodup_cons] at nd
    rcases List.mem_cons.1 h with h | h
    · cases h; simp
    · have : k0 ≠ k := by rintro rfl; exact nd.1 (List.mem_map_of_mem (f := Prod.fst) h)
      simp only [get?_cons, this, if_false]
      exact ih nd.2 h

theorem get?_eq_some_iff {d : Dict α β} (nd : d.keys.Nodup) {k : α} {v : β} :
    d.get? k = some v ↔ (k, v) ∈ d := ⟨mem_of_get?, get?_of_mem nd⟩

theorem keys_set (d : Dict α β) (k : α) (v : β) :
    (d.set k v).keys = if k ∈ d.keys then d.keys else d.keys ++ [k] := by
  induction d with
  | nil => simp [set, keys]
  | cons kv d ih =>
    obtain ⟨k0, v0⟩ := kv
    unfold set
    by_cases h0 : k0 = k
    · subst h0; simp [keys]
    · have h0' : k ≠ k0 := fun h => h0 h.symm
      simp only [h0, if_false]
      simp only [keys, List.map_cons, List.mem_cons, h0', false_or] at ih ⊢
      rw [ih]
      split <;> simp_all

theorem nodup_set {d : Dict α β} (nd : d.keys.Nodup) (k : α) (v : β) : (d.set k v).keys.Nodup := by
  rw [keys_set]
  split
  · exact nd
  · next h => exact List.nodup_append'.2 ⟨nd, by simp, by simpa using h⟩

theorem mem_keys_set {d : Dict α β} {k k' : α} {v : β} : k' ∈ (d.set k v).keys ↔ k' = k ∨ k' ∈ d.keys := by
  rw [keys_set]
  split
  · next h => constructor
              · exact .inr
              · rintro (rfl | h') <;> assumption
  · simp [or_comm]

theorem mem_set {d : Dict α β} {k k' : α} {v v' : β} (h : (k', v') ∈ d.set k v) :
    (k' = k ∧ v' = v) ∨ (k', v') ∈ d := by
  induction d with
  | nil => simpa [set] using h
  | cons kv d ih =>
    obtain ⟨k0, v0⟩ := kv
    unfold set at h
    split at h
    · next h0 =>
      subst h0
      rcases List.mem_cons.1 h with h | h
      · exact .inl (by simpa using h)
      · exact .inr (List.mem_cons_of_mem _ h)
    · rcases List.mem_cons.1 h with h | h
      · exact .inr (by simp [h])
      · rcases ih h with h | h
        · exact .inl h
        · exact .inr (List.mem_cons_of_mem _ h)

theorem keys_erase_sublist (d : Dict α β) (k : α) : (d.erase k).keys.Sublist d.keys := by
  induction d with
  | nil => simp [erase, keys]
  | cons kv d ih =>
    obtain ⟨k0, v0⟩ := kv
    unfold erase
    split
    · exact List.sublist_cons_self _ _
    · exact ih.cons_cons _

theorem nodup_erase {d : Dict α β} (nd : d.keys.Nodup) (k : α) : (d.erase k).keys.Nodup :=
  nd.sublist (keys_erase_sublist d k)

theorem get?_erase {d : Dict α β} (nd : d.keys.Nodup) (k k' : α) :
    (d.erase k).get? k' = if k = k' then none else d.get? k' := by
  induction d with
  | nil => simp [erase]
  | cons kv d ih =>
    obtain ⟨k0, v0⟩ := kv
    simp only [keys, List.map_cons, List.nodup_cons] at nd
    unfold erase
    by_cases h0 : k0 = k
    · subst h0
      simp only [if_true, get?_cons]
      by_cases h1 : k0 = k'
      · subst h1; simpa using get?_eq_none_iff.2 nd.1
      · simp [h1]
    · simp only [h0, if_false, get?_cons, ih nd.2]
      by_cases h1 : k0 = k'
      · subst h1; simp [Ne.symm h0]
      · simp [h1]

/-- a loop that sets, for some items, the value computed from the item -/
theorem get?_foldl_setIf (d : Dict α β) (nd : d.keys.Nodup) (c : α × β → Bool) (f : α × β → γ) (acc : Dict α γ)
    (k : α) :
    (d.foldl (fun (acc : Dict α γ) kv => if c kv then acc.set kv.1 (f kv) else acc) acc).get? k =
      match d.get? k with
      | some v => if c (k, v) then some (f (k, v)) else acc.get? k
      | none => acc.get? k := by
  induction d generalizing acc with
  | nil => rfl
  | cons kv d ih =>
    obtain ⟨k0, v0⟩ := kv
    simp only [keys, List.map_cons, List.nodup_cons] at nd
    rw [List.foldl_cons, ih nd.2]
    by_cases h0 : k0 = k
    · subst h0
      have : get? d k0 = none := get?_eq_none_iff.2 nd.1
      simp only [this, get?_cons, if_true]
      split <;> simp [get?_set]
    · simp only [get?_cons, h0, if_false]
      have : (if c (k0, v0) = true then acc.set k0 (f (k0, v0)) else acc).get? k = acc.get? k := by
        split
        · exact get?_set_ne _ _ h0
        · rfl
      rw [this]

theorem nodup_foldl_setIf (d : Dict α β) (c : α × β → Bool) (f : α × β → γ) (acc : Dict α γ)
    (h : acc.keys.Nodup) :
    (d.foldl (fun (acc : Dict α γ) kv => if c kv then acc.set kv.1 (f kv) else acc) acc).keys.Nodup := by
  induction d generalizing acc with
  | nil => exact h
  | cons kv d ih =>
    rw [List.foldl_cons]
    apply ih
    split
    · exact nodup_set h _ _
    · exact h

/-- `d.update(e)` -/
theorem get?_update (d e : Dict α β) (nd : e.keys.Nodup) (k : α) :
    (d.update e).get? k = (e.get? k).or (d.get? k) := by
  have := get?_foldl_setIf e nd (fun _ => true) (fun kv => kv.2) d k
  simp only [if_true] at this
  rw [update, this]
  cases e.get? k <;> rfl

/-- dict equality is pointwise for dicts with the same keys -/
theorem get?_map (d : Dict α β) (f : α → β → γ) (k : α) :
    get? (d.map fun kv => (kv.1, f kv.1 kv.2)) k = (d.get? k).map (f k) := by
  induction d with
  | nil => rfl
  | cons kv d ih =>
    obtain ⟨k0, v0⟩ := kv
    simp only [List.map_cons, get?_cons, ih]
    by_cases h : k0 = k
    · subst h; simp
    · simp [h]

theorem set_of_notMem {d : Dict α β} {k : α} {v : β} (h : k ∉ d.keys) : d.set k v = d ++ [(k, v)] := by
  induction d with
  | nil => rfl
  | cons x d ih =>
    obtain ⟨k', v'⟩ := x
    simp only [keys, List.map_cons, List.mem_cons, not_or] at h
    rw [set, if_neg (Ne.symm h.1), ih h.2, List.cons_append]

theorem foldl_set_of_nodup (l : List (α × β)) (d : Dict α β) (h : (d.keys ++ l.map Prod.fst).Nodup) :
    l.foldl (fun d kv => set d kv.1 kv.2) d = d ++ l := by
  induction l generalizing d with
  | nil => simp
  | cons x l ih =>
    have hx : x.1 ∉ d.keys := fun hm => by
      rw [List.nodup_append] at h
      exact h.2.2 _ hm _ (by simp) rfl
    rw [List.foldl_cons, set_of_notMem hx, ih]
    · simp
    · simpa [keys] using h

/-- items with distinct keys are kept as they are -/
theorem ofItems_of_nodup {l : List (α × β)} (h : (l.map Prod.fst).Nodup) : ofItems l = l := by
  rw [ofItems, foldl_set_of_nodup]
  · rfl
  · simpa [keys] using h

theorem nodup_foldl_set (l : List (α × β)) (d : Dict α β) (h : d.keys.Nodup) :
    (keys (l.foldl (fun d kv => set d kv.1 kv.2) d)).Nodup := by
  induction l generalizing d with
  | nil => exact h
  | cons x l ih => exact ih _ (nodup_set h _ _)

theorem nodup_ofItems (l : List (α × β)) : (ofItems l).keys.Nodup := nodup_foldl_set l [] (by simp [keys])

theorem nodup_update (d e : Dict α β) (h : d.keys.Nodup) : (d.update e).keys.Nodup := nodup_foldl_set e d h

/-- the last item with a key wins -/
theorem get?_ofItems (l : List (α × β)) (k : α) : (ofItems l).get? k = (l.reverse.find? fun x => x.1 = k).map Prod.snd := by
  have key : ∀ (l : List (α × β)) (d : Dict α β), get? (l.foldl (fun d kv => set d kv.1 kv.2) d) k =
      ((l.reverse.find? fun x => x.1 = k).map Prod.snd).or (d.get? k) := by
    intro l
    induction l with
    | nil => intro d; rfl
    | cons x l ih =>
      intro d
      rw [List.foldl_cons, ih, get?_set, List.reverse_cons, List.find?_append]
      cases List.find? (fun x => decide (x.1 = k)) l.reverse with
      | some y => rfl
      | none =>
        by_cases h : x.1 = k
        · simp [h]
        · simp [h]
  rw [ofItems, key]
  simp

end Dict
end Verif
