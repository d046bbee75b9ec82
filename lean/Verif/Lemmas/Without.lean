import Verif.Spec.Without
import Verif.Lemmas.ShippedBuild
import Verif.Lemmas.Rearranged

/-!
# Studies without one of their components
-/

namespace Verif
open Verif.Shipped

/-- rules only mention what ports receive in the block -/
theorem Rules.named_received {ref : String} {r : Rules} (h : Rules.named ref = some r) (R R' : Readings) (e1 : R'.T = R.T) (e2 : R'.S = R.S)
    (e3 : R'.v = R.v) (e4 : R'.p = R.p) (e : ∀ p f, ∀ t s : Nat, t < R.T → s < R.S → R'.received p f t s = R.received p f t s) :
    r.cost R' = r.cost R ∧ ∀ t s : Nat, t < R.T → s < R.S → (r.accepts R' t s ↔ r.accepts R t s) := by
  obtain ⟨T, S, v, p, rec⟩ := R
  obtain ⟨T', S', v', p', rec'⟩ := R'
  dsimp only at e1 e2 e3 e4 e
  subst e1 e2 e3 e4
  obtain ⟨m, hm⟩ := shipped_named h
  simp only [shippedModels, List.mem_cons, List.not_mem_nil, or_false, Prod.mk.injEq] at hm
  have total : ∀ (q f : String) (s : Nat), s < S' → (∑ t ∈ Finset.range T', rec' q f t s) = ∑ t ∈ Finset.range T', rec q f t s := fun q f s hs =>
    Finset.sum_congr rfl fun t ht => e q f t s (Finset.mem_range.1 ht) hs
  rcases hm with ⟨-, -, rfl⟩ | ⟨-, -, rfl⟩ | ⟨-, -, rfl⟩ | ⟨-, -, rfl⟩ | ⟨-, -, rfl⟩ | ⟨-, -, rfl⟩ | ⟨-, -, rfl⟩ | ⟨-, -, rfl⟩ | ⟨-, -, rfl⟩ | ⟨-, -, rfl⟩ |
    ⟨-, -, rfl⟩ | ⟨-, -, rfl⟩ | ⟨-, -, rfl⟩ | ⟨-, -, rfl⟩ | ⟨-, -, rfl⟩ | ⟨-, -, rfl⟩ | ⟨-, -, rfl⟩
  · refine ⟨rfl, fun t s ht hs => ?_⟩
    show (_ ∧ _ ∧ rec' "balance_port" "flow" t s + _ = _) ↔ (_ ∧ _ ∧ rec "balance_port" "flow" t s + _ = _)
    rw [e _ _ t s ht hs]
  · exact ⟨rfl, fun _ _ _ _ => Iff.rfl⟩
  · exact ⟨rfl, fun _ _ _ _ => Iff.rfl⟩
  · exact ⟨rfl, fun _ _ _ _ => Iff.rfl⟩
  · exact ⟨rfl, fun _ _ _ _ => Iff.rfl⟩
  · exact ⟨rfl, fun _ _ _ _ => Iff.rfl⟩
  · exact ⟨rfl, fun _ _ _ _ => Iff.rfl⟩
  · exact ⟨rfl, fun _ _ _ _ => Iff.rfl⟩
  · exact ⟨rfl, fun _ _ _ _ => Iff.rfl⟩
  · refine ⟨rfl, fun t s ht hs => ?_⟩
    show (rec' "p_balance_port" "flow" t s = 0 ∧ rec' "q_balance_port" "flow" t s = 0) ↔ (rec "p_balance_port" "flow" t s = 0 ∧ rec "q_balance_port" "flow" t s = 0)
    rw [e _ _ t s ht hs, e _ _ t s ht hs]
  · exact ⟨rfl, fun _ _ _ _ => Iff.rfl⟩
  · exact ⟨rfl, fun _ _ _ _ => Iff.rfl⟩
  · exact ⟨rfl, fun _ _ _ _ => Iff.rfl⟩
  · exact ⟨rfl, fun _ _ _ _ => Iff.rfl⟩
  · exact ⟨rfl, fun _ _ _ _ => Iff.rfl⟩
  · refine ⟨rfl, fun t s ht hs => ?_⟩
    show ((∑ u ∈ Finset.range T', rec' "emission_port" "emission" u s) ≤ _) ↔ ((∑ u ∈ Finset.range T', rec "emission_port" "emission" u s) ≤ _)
    rw [total _ _ s hs]
  · refine ⟨rfl, fun t s ht hs => ?_⟩
    show ((∑ u ∈ Finset.range T', rec' "emission_port" "emission" u s) = _) ↔ ((∑ u ∈ Finset.range T', rec "emission_port" "emission" u s) = _)
    rw [total _ _ s hs]

/-- costs do not mention what ports receive -/
theorem Rules.cost_received {ref : String} {r : Rules} (h : Rules.named ref = some r) (R R' : Readings) (e1 : R'.T = R.T) (e2 : R'.S = R.S)
    (e3 : R'.v = R.v) (e4 : R'.p = R.p) : r.cost R' = r.cost R := by
  obtain ⟨T, S, v, p, rec⟩ := R
  obtain ⟨T', S', v', p', rec'⟩ := R'
  dsimp only at e1 e2 e3 e4
  subst e1 e2 e3 e4
  obtain ⟨m, hm⟩ := shipped_named h
  simp only [shippedModels, List.mem_cons, List.not_mem_nil, or_false, Prod.mk.injEq] at hm
  rcases hm with ⟨-, -, rfl⟩ | ⟨-, -, rfl⟩ | ⟨-, -, rfl⟩ | ⟨-, -, rfl⟩ | ⟨-, -, rfl⟩ | ⟨-, -, rfl⟩ | ⟨-, -, rfl⟩ | ⟨-, -, rfl⟩ | ⟨-, -, rfl⟩ | ⟨-, -, rfl⟩ |
    ⟨-, -, rfl⟩ | ⟨-, -, rfl⟩ | ⟨-, -, rfl⟩ | ⟨-, -, rfl⟩ | ⟨-, -, rfl⟩ | ⟨-, -, rfl⟩ | ⟨-, -, rfl⟩ <;> rfl

/-- components that define all that their ports carry do not mention what they receive -/
theorem Rules.sender_received {ref : String} {r : Rules} (h : Rules.named ref = some r) (hd : ∀ p ∈ r.ports, ∀ f ∈ p.2, f.2.isSome = true)
    (R R' : Readings) (e1 : R'.T = R.T) (e2 : R'.S = R.S) (e3 : R'.v = R.v) (e4 : R'.p = R.p) (t s : Int) : r.accepts R' t s ↔ r.accepts R t s := by
  obtain ⟨T, S, v, p, rec⟩ := R
  obtain ⟨T', S', v', p', rec'⟩ := R'
  dsimp only at e1 e2 e3 e4
  subst e1 e2 e3 e4
  obtain ⟨m, hm⟩ := shipped_named h
  simp only [shippedModels, List.mem_cons, List.not_mem_nil, or_false, Prod.mk.injEq] at hm
  rcases hm with ⟨-, -, rfl⟩ | ⟨-, -, rfl⟩ | ⟨-, -, rfl⟩ | ⟨-, -, rfl⟩ | ⟨-, -, rfl⟩ | ⟨-, -, rfl⟩ | ⟨-, -, rfl⟩ | ⟨-, -, rfl⟩ | ⟨-, -, rfl⟩ | ⟨-, -, rfl⟩ |
    ⟨-, -, rfl⟩ | ⟨-, -, rfl⟩ | ⟨-, -, rfl⟩ | ⟨-, -, rfl⟩ | ⟨-, -, rfl⟩ | ⟨-, -, rfl⟩ | ⟨-, -, rfl⟩
  · exact absurd (hd _ (.head _) _ (.head _)) (by decide)
  · exact Iff.rfl
  · exact Iff.rfl
  · exact Iff.rfl
  · exact Iff.rfl
  · exact Iff.rfl
  · exact Iff.rfl
  · exact Iff.rfl
  · exact Iff.rfl
  · exact absurd (hd _ (.head _) _ (.head _)) (by decide)
  · exact Iff.rfl
  · exact Iff.rfl
  · exact Iff.rfl
  · exact Iff.rfl
  · exact Iff.rfl
  · exact absurd (hd _ (.head _) _ (.head _)) (by decide)
  · exact absurd (hd _ (.head _) _ (.head _)) (by decide)

namespace StudyInput
variable {J : StudyInput} {id : String} {σ : TermKey → ℚ}

theorem without_declared : (J.without id).declared = J.declared.filter fun c => c.id ≠ id := by
  unfold declared without InputSystem.without
  rw [List.filter_append]

theorem without_mem {c : InputComponent} : c ∈ (J.without id).declared ↔ c ∈ J.declared ∧ c.id ≠ id := by
  rw [without_declared, List.mem_filter]
  simp

theorem without_component {i : String} (h : i ≠ id) : (J.without id).component? i = J.component? i := by
  unfold component?
  rw [without_declared, List.find?_filter]
  congr 1
  funext c
  by_cases e : c.id = i
  · simp [e, h]
  · simp [e]

theorem without_rules {i : String} (h : i ≠ id) : (J.without id).rulesOf i = J.rulesOf i := by
  unfold rulesOf
  rw [without_component h]

theorem without_own {i : String} (h : i ≠ id) (σ : TermKey → ℚ) : (J.without id).own σ i = J.own σ i := by
  unfold own instance_ parameter
  rw [without_rules h, without_component h]
  rfl

theorem without_sent {i : String} (h : i ≠ id) (σ : TermKey → ℚ) (port field : String) : (J.without id).sent σ i port field = J.sent σ i port field := by
  unfold sent
  rw [without_rules h, without_own h]

theorem sum_filter_zero {α : Type} (l : List α) (p : α → Bool) (g : α → ℚ) (h : ∀ a ∈ l, p a = false → g a = 0) :
    ((l.filter p).map g).sum = (l.map g).sum := by
  induction l with
  | nil => rfl
  | cons a l ih =>
    have ih := ih fun b hb => h b (List.mem_cons_of_mem _ hb)
    rw [List.map_cons, List.sum_cons]
    cases hp : p a with
    | true => rw [List.filter_cons_of_pos hp, List.map_cons, List.sum_cons, ih]
    | false => rw [List.filter_cons_of_neg (by simp [hp]), ih, h a List.mem_cons_self hp, zero_add]

theorem sends_mem {r : Rules} {port : String} {fs : List (String × Option (Readings → Int → Int → ℚ))} (hd : (r.ports.map (·.1)).Nodup)
    (h : (port, fs) ∈ r.ports) (field : String) : r.sends port field = (fs.find? fun d => d.1 = field).bind (·.2) := by
  unfold Rules.sends
  rw [find?_of_nodup (f := fun e : String × List (String × Option (Readings → Int → Int → ℚ)) => e.1) hd h]
  rfl

/-- nothing is carried to or from a component at rest -/
theorem carried_rest (hj : ∀ k ∈ J.system.connections, J.Joins k) (hsend : J.Sender id) (hrest : J.AtRest σ id) {k : InputConnection}
    (hk : k ∈ J.system.connections) (hid : k.component1 = id ∨ k.component2 = id) (field : String) {t s : Nat} (ht : t < J.steps.length)
    (hs : s < J.scenarios) : J.carried σ k field t s = 0 := by
  obtain ⟨r1, r2, fs1, fs2, h1, h2, m1, m2, same, one⟩ := hj k hk
  obtain ⟨r, hr, hdef⟩ := hsend
  have named : ∀ {i : String} {r : Rules}, J.rulesOf i = some r → ∃ ref, Rules.named ref = some r := by
    intro i r h
    unfold rulesOf at h
    obtain ⟨c, -, hc⟩ := Option.bind_eq_some_iff.1 h
    exact ⟨_, hc⟩
  obtain ⟨ref1, n1⟩ := named h1
  obtain ⟨ref2, n2⟩ := named h2
  have s1 := sends_mem (Rules.named_ports n1) m1 field
  have s2 := sends_mem (Rules.named_ports n2) m2 field
  have none_of : ∀ (fs : List (String × Option (Readings → Int → Int → ℚ))), field ∉ fs.map (·.1) → (fs.find? fun d => d.1 = field).bind (·.2) = none := by
    intro fs hf
    rw [List.find?_eq_none.2 fun d hd => by
      simp only [decide_eq_true_eq]
      rintro rfl
      exact hf (List.mem_map_of_mem hd)]
    rfl
  have some_of : ∀ (fs : List (String × Option (Readings → Int → Int → ℚ))), (∀ f ∈ fs, f.2.isSome = true) → field ∈ fs.map (·.1) →
      ((fs.find? fun d => d.1 = field).bind (·.2)).isSome = true := by
    intro fs hall hf
    obtain ⟨d, hd, rfl⟩ := List.mem_map.1 hf
    cases hx : fs.find? fun e => e.1 = d.1 with
    | none =>
      have := List.find?_eq_none.1 hx d hd
      simp at this
    | some e => exact hall e (List.mem_of_find?_eq_some hx)
  have e1 : J.sent σ k.component1 k.port1 field = (r1.sends k.port1 field).map fun f => f (J.own σ k.component1) := by
    unfold sent
    rw [h1]
    rfl
  have e2 : J.sent σ k.component2 k.port2 field = (r2.sends k.port2 field).map fun f => f (J.own σ k.component2) := by
    unfold sent
    rw [h2]
    rfl
  unfold carried
  by_cases hf : field ∈ fs1.map (·.1)
  · have ho := one field hf
    rcases hid with hid | hid
    · rw [hid] at h1 e1
      rw [hr] at h1
      cases h1
      have hsome := some_of fs1 (hdef _ m1) hf
      rw [← s1] at hsome
      obtain ⟨f, hf'⟩ := Option.isSome_iff_exists.1 hsome
      rw [hid, e1, hf']
      exact (hrest _ hr).2 _ _ f hf' t s ht hs
    · rw [hid] at h2 e2
      rw [hr] at h2
      cases h2
      have hsome := some_of fs2 (hdef _ m2) (same ▸ hf)
      rw [← s2] at hsome
      obtain ⟨f, hf'⟩ := Option.isSome_iff_exists.1 hsome
      have hnone : r1.sends k.port1 field = none := by
        cases hx : r1.sends k.port1 field with
        | none => rfl
        | some g => rw [hx, hf'] at ho; exact absurd rfl ho
      rw [e1, hnone, hid, e2, hf']
      exact (hrest _ hr).2 _ _ f hf' t s ht hs
  · rw [e1, e2, s1, s2, none_of fs1 hf, none_of fs2 (same ▸ hf)]
    rfl

/-- the other components receive what they receive without it -/
theorem received_rest (hj : ∀ k ∈ J.system.connections, J.Joins k) (hsend : J.Sender id) (hrest : J.AtRest σ id) (i port field : String) {t s : Nat} (ht : t < J.steps.length) (hs : s < J.scenarios) :
    ((J.without id).readings σ i).received port field t s = (J.readings σ i).received port field t s := by
  have := sum_filter_zero J.system.connections (fun k => decide (k.component1 ≠ id ∧ k.component2 ≠ id)) (fun c =>
      (if c.component1 = i ∧ c.port1 = port then J.carried σ c field t s else 0) +
      (if c.component2 = i ∧ c.port2 = port then J.carried σ c field t s else 0)) (by
    intro k hk hp
    have hid : k.component1 = id ∨ k.component2 = id := by
      by_contra hn
      push Not at hn
      simp [hn.1, hn.2] at hp
    rw [carried_rest hj hsend hrest hk hid field ht hs]
    simp)
  refine Eq.trans (congrArg List.sum (List.map_congr_left fun c hc => ?_)) this
  have hc := (List.mem_filter.1 hc).2
  simp only [decide_eq_true_eq] at hc
  have : (J.without id).carried σ c field t s = J.carried σ c field t s := by
    unfold carried
    rw [without_sent hc.1, without_sent hc.2]
  rw [this]

end StudyInput
end Verif
