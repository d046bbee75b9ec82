import Verif.Props.RearrangedExamples
import Verif.Lemmas.Scenarios
import Mathlib.Algebra.Order.BigOperators.Group.Finset

/-!
# C81: a study with several scenarios against its scenarios one by one
-/

namespace Verif.Props
open Verif Verif.Doc Verif.Shipped Verif.OptCtx

theorem scenarios_accepts {I : StudyInput} (hs : I.Sound) {J : Nat → StudyInput} (hJ : ∀ s < I.scenarios, I.InScenario s (J s))
    {σ : TermKey → ℚ} {τ : Nat → TermKey → ℚ} (ha : ∀ s < I.scenarios, I.Seen s (J s) σ (τ s)) :
    (I.Accepts σ ↔ ∀ s < I.scenarios, (J s).Accepts (τ s)) ∧ I.cost σ = average I.scenarios fun s => (J s).cost (τ s) := by
  constructor
  · constructor
    · intro h s hsc c hc r hr t s' ht hs'
      rw [(hJ s hsc).scenarios] at hs'
      obtain rfl : s' = 0 := by omega
      rw [(hJ s hsc).declared] at hc
      rw [(hJ s hsc).steps] at ht
      exact ((Rules.named_local hr).accepts _ _ _ ((hJ s hsc).readings hs (ha s hsc) hc hr) t).1 (h c hc r hr t s ht hsc)
    · intro h c hc r hr t s ht hsc
      refine ((Rules.named_local hr).accepts _ _ _ ((hJ s hsc).readings hs (ha s hsc) hc hr) t).2
        (h s hsc c ?_ r hr t 0 ?_ ?_)
      · rw [(hJ s hsc).declared]; exact hc
      · rw [(hJ s hsc).steps]; exact ht
      · rw [(hJ s hsc).scenarios]; exact Nat.one_pos
  · have e : I.cost σ = (I.declared.map fun c => average I.scenarios fun s =>
        ((Rules.named c.model).map fun r => r.cost ((J s).readings (τ s) c.id)).getD 0).sum := by
      unfold StudyInput.cost
      congr 1
      refine List.map_congr_left fun c hc => ?_
      rcases hr : Rules.named c.model with _ | r
      · exact (average_const hs.scenarios _ fun _ _ => rfl).symm
      · exact (Rules.named_local hr).cost _ hs.scenarios (fun s => (J s).readings (τ s) c.id) fun s hsc =>
          (hJ s hsc).readings hs (ha s hsc) hc hr
    rw [e, average_list]
    unfold average
    congr 1
    refine Finset.sum_congr rfl fun s hsc => ?_
    unfold StudyInput.cost
    dsimp only
    rw [(hJ s (Finset.mem_range.1 hsc)).declared]

/-- **C81, the study.** Values of the variables are accepted by a study exactly when, in each of its scenarios, what they are in this scenario is
accepted by the study with this scenario alone; and their cost is the average over the scenarios of these costs. -/
theorem c81_same_study (I : StudyInput) (hs : I.Sound) (J : Nat → StudyInput) (hJ : ∀ s < I.scenarios, I.InScenario s (J s)) (σ : TermKey → ℚ) :
    (I.Accepts σ ↔ ∀ s < I.scenarios, (J s).Accepts (inScenario s σ)) ∧
      I.cost σ = average I.scenarios fun s => (J s).cost (inScenario s σ) :=
  scenarios_accepts hs hJ fun s hsc => (hJ s hsc).seen

theorem average_mono {S : Nat} {f g : Nat → ℚ} (h : ∀ s < S, f s ≤ g s) : average S f ≤ average S g := by
  unfold average
  refine div_le_div_of_nonneg_right (Finset.sum_le_sum fun s hs => h s (Finset.mem_range.1 hs)) ?_
  positivity

/-- **C81, choices made in advance.** The least cost of a study is never below the average of the least costs of its scenarios taken alone. -/
theorem c81_bound (I : StudyInput) (hs : I.Sound) (J : Nat → StudyInput) (hJ : ∀ s < I.scenarios, I.InScenario s (J s)) (c : ℚ)
    (h : LeastCost I.Accepts I.cost c) (cs : Nat → ℚ) (hc : ∀ s < I.scenarios, LeastCost (J s).Accepts (J s).cost (cs s)) :
    average I.scenarios cs ≤ c := by
  obtain ⟨⟨σ, hσ, rfl⟩, -⟩ := h
  obtain ⟨h1, h2⟩ := c81_same_study I hs J hJ σ
  rw [h2]
  exact average_mono fun s hsc => (hc s hsc).2 _ (h1.1 hσ s hsc)

/-- values for all scenarios from values for each of them -/
def glued (τ : Nat → TermKey → ℚ) : TermKey → ℚ := fun k => τ ((k.scenario.getD 0).toNat) { k with scenario := k.scenario.map fun _ => 0 }

theorem glued_seen {I : StudyInput} (hs : I.Sound) (hch : I.ChosenPerScenario) {J : StudyInput} {s : Nat} (hJ : I.InScenario s J)
    (τ : Nat → TermKey → ℚ) : I.Seen s J (glued τ) (τ s) := by
  intro c hc r hr n hn t
  obtain ⟨q, hq, rfl⟩ := List.mem_map.1 hn
  have hr' : I.rulesOf c.id = some r := by
    unfold StudyInput.rulesOf
    rw [show I.component? c.id = some c from find?_of_nodup hs.ids hc]
    exact hr
  have hf : r.variables_.find? (fun v => v.1 = q.1) = some q := find?_of_nodup (f := (·.1)) (Rules.named_variables hr) hq
  unfold StudyInput.instance_ glued
  rw [hJ.rulesOf, hJ.steps, hr', Option.bind_some, hf]
  simp [hch c hc r hr q hq]

/-- **C81, the least cost.** When all choices depend on the scenario, a study has a best solution exactly when each of its scenarios alone has one,
and its least cost is the average of their least costs. -/
theorem c81_average (I : StudyInput) (hs : I.Sound) (hch : I.ChosenPerScenario) (J : Nat → StudyInput)
    (hJ : ∀ s < I.scenarios, I.InScenario s (J s)) (c : ℚ) :
    LeastCost I.Accepts I.cost c ↔ ∃ cs : Nat → ℚ, (∀ s < I.scenarios, LeastCost (J s).Accepts (J s).cost (cs s)) ∧ c = average I.scenarios cs := by
  constructor
  · rintro ⟨⟨σ, hσ, rfl⟩, hm⟩
    obtain ⟨h1, h2⟩ := c81_same_study I hs J hJ σ
    refine ⟨_, fun s hsc => ⟨⟨inScenario s σ, h1.1 hσ s hsc, rfl⟩, fun υ hυ => ?_⟩, h2⟩
    let τ : Nat → TermKey → ℚ := Function.update (fun s => inScenario s σ) s υ
    obtain ⟨g1, g2⟩ := scenarios_accepts hs hJ (σ := glued τ) (τ := τ) fun s' hs' => glued_seen hs hch (hJ s' hs') τ
    have hτ : I.Accepts (glued τ) := g1.2 fun s' hs' => by
      by_cases e : s' = s
      · subst e
        simpa [τ] using hυ
      · simpa [τ, Function.update_of_ne e] using h1.1 hσ s' hs'
    have hle := hm _ hτ
    rw [g2, h2] at hle
    unfold average at hle
    have hS : (0 : ℚ) < I.scenarios := by exact_mod_cast hs.scenarios
    rw [div_le_div_iff_of_pos_right hS] at hle
    have hmem : s ∈ Finset.range I.scenarios := Finset.mem_range.2 hsc
    rw [← Finset.add_sum_erase _ _ hmem, ← Finset.add_sum_erase _ _ hmem] at hle
    have e : ∑ x ∈ (Finset.range I.scenarios).erase s, (J x).cost (inScenario x σ) = ∑ x ∈ (Finset.range I.scenarios).erase s, (J x).cost (τ x) :=
      Finset.sum_congr rfl fun x hx => by simp [τ, Function.update_of_ne (Finset.ne_of_mem_erase hx)]
    rw [e] at hle
    have := le_of_add_le_add_right hle
    simpa [τ] using this
  · rintro ⟨cs, hcs, rfl⟩
    have hex : ∀ s, ∃ τ, s < I.scenarios → (J s).Accepts τ ∧ (J s).cost τ = cs s := by
      intro s
      by_cases hsc : s < I.scenarios
      · obtain ⟨⟨τ, h1, h2⟩, -⟩ := hcs s hsc
        exact ⟨τ, fun _ => ⟨h1, h2⟩⟩
      · exact ⟨fun _ => 0, fun h => absurd h hsc⟩
    choose τ hτ using hex
    obtain ⟨g1, g2⟩ := scenarios_accepts hs hJ (σ := glued τ) (τ := τ) fun s' hs' => glued_seen hs hch (hJ s' hs') τ
    refine ⟨⟨glued τ, g1.2 fun s hsc => (hτ s hsc).1, ?_⟩, fun σ hσ => ?_⟩
    · rw [g2]
      unfold average
      congr 1
      exact Finset.sum_congr rfl fun s hsc => (hτ s (Finset.mem_range.1 hsc)).2
    · obtain ⟨h1, h2⟩ := c81_same_study I hs J hJ σ
      rw [h2]
      exact average_mono fun s hsc => (hcs s hsc).2 _ (h1.1 hσ s hsc)

end Verif.Props
