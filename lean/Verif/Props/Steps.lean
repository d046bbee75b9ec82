import Verif.Lemmas.Steps
import Verif.Props.ScenariosExamples

/-!
# C88: a study where nothing links the timesteps, against its timesteps one by one
-/

namespace Verif.Props
open Verif Verif.Doc Verif.Shipped Verif.OptCtx

theorem steps_accepts {I : StudyInput} (hu : I.Unlinked) {J : Nat → StudyInput} (hJ : ∀ k < I.steps.length, I.AtStep k (J k))
    {σ : TermKey → ℚ} {τ : Nat → TermKey → ℚ} (ha : ∀ k < I.steps.length, I.SeenAt k (J k) σ (τ k)) :
    (I.Accepts σ ↔ ∀ k < I.steps.length, (J k).Accepts (τ k)) ∧ I.cost σ = ∑ k ∈ Finset.range I.steps.length, (J k).cost (τ k) := by
  constructor
  · constructor
    · intro h k hk c hc r hr t s ht hs
      rw [(hJ k hk).length] at ht
      rw [(hJ k hk).scenarios] at hs
      rw [(hJ k hk).declared] at hc
      obtain rfl : t = 0 := by omega
      exact ((Rules.named_instant (hu c hc) hr).accepts _ _ _ ((hJ k hk).readings hu (ha k hk) hc hr) s hs).1 (h c hc r hr k s hk hs)
    · intro h c hc r hr k s hk hs
      refine ((Rules.named_instant (hu c hc) hr).accepts _ _ _ ((hJ k hk).readings hu (ha k hk) hc hr) s hs).2
        (h k hk c ?_ r hr 0 s ?_ ?_)
      · rw [(hJ k hk).declared]; exact hc
      · rw [(hJ k hk).length]; exact Nat.one_pos
      · rw [(hJ k hk).scenarios]; exact hs
  · have e : I.cost σ = (I.declared.map fun c => ∑ k ∈ Finset.range I.steps.length,
        ((Rules.named c.model).map fun r => r.cost ((J k).readings (τ k) c.id)).getD 0).sum := by
      unfold StudyInput.cost
      congr 1
      refine List.map_congr_left fun c hc => ?_
      rcases hr : Rules.named c.model with _ | r
      · simp
      · exact (Rules.named_instant (hu c hc) hr).cost _ (fun k => (J k).readings (τ k) c.id) fun k hk => (hJ k hk).readings hu (ha k hk) hc hr
    have swap : ∀ l : List InputComponent, ∀ f : InputComponent → Nat → ℚ, (l.map fun c => ∑ k ∈ Finset.range I.steps.length, f c k).sum =
        ∑ k ∈ Finset.range I.steps.length, (l.map fun c => f c k).sum := by
      intro l f
      induction l with
      | nil => simp
      | cons c l ih =>
        simp only [List.map_cons, List.sum_cons]
        rw [ih, Finset.sum_add_distrib]
    rw [e, swap]
    refine Finset.sum_congr rfl fun k hk => ?_
    unfold StudyInput.cost
    rw [(hJ k (Finset.mem_range.1 hk)).declared]

/-- **C88, the study.** When nothing links the timesteps of a study, values of the variables are accepted exactly when, at each timestep, what
they are at this timestep is accepted by the study with this timestep alone; and their cost is the sum over the timesteps of these costs. -/
theorem c88_same_study (I : StudyInput) (hu : I.Unlinked) (J : Nat → StudyInput) (hJ : ∀ k < I.steps.length, I.AtStep k (J k)) (σ : TermKey → ℚ) :
    (I.Accepts σ ↔ ∀ k < I.steps.length, (J k).Accepts (atStep k σ)) ∧
      I.cost σ = ∑ k ∈ Finset.range I.steps.length, (J k).cost (atStep k σ) :=
  steps_accepts hu hJ fun k hk => (hJ k hk).seen hk

/-- values for all timesteps from values for each of them -/
def joined (τ : Nat → TermKey → ℚ) : TermKey → ℚ := fun x => τ ((x.time.getD 0).toNat) { x with time := x.time.map fun _ => 0 }

theorem joined_seen {I : StudyInput} (hs : I.Sound) (hu : I.Unlinked) {J : StudyInput} {k : Nat} (hk : k < I.steps.length) (hJ : I.AtStep k J)
    (τ : Nat → TermKey → ℚ) : I.SeenAt k J (joined τ) (τ k) := by
  intro c hc r hr n hn s _
  obtain ⟨q, hq, rfl⟩ := List.mem_map.1 hn
  have hr' : I.rulesOf c.id = some r := by
    unfold StudyInput.rulesOf
    rw [show I.component? c.id = some c from find?_of_nodup hs.ids hc]
    exact hr
  have hf : r.variables_.find? (fun v => v.1 = q.1) = some q := find?_of_nodup (f := (·.1)) (Rules.named_variables hr) hq
  have hm : (k : Int) % I.steps.length = k := Int.emod_eq_of_lt (by omega) (by omega)
  unfold StudyInput.instance_ joined
  rw [hJ.rulesOf, hJ.length, hr', Option.bind_some, hf, hm]
  simp [(Rules.named_instant (hu c hc) hr).times q hq]

/-- **C88, the least cost.** When nothing links the timesteps, a study has a best solution exactly when each of its timesteps alone has one, and
its least cost is the sum of their least costs. -/
theorem c88_sum (I : StudyInput) (hs : I.Sound) (hu : I.Unlinked) (J : Nat → StudyInput) (hJ : ∀ k < I.steps.length, I.AtStep k (J k)) (c : ℚ) :
    LeastCost I.Accepts I.cost c ↔
      ∃ cs : Nat → ℚ, (∀ k < I.steps.length, LeastCost (J k).Accepts (J k).cost (cs k)) ∧ c = ∑ k ∈ Finset.range I.steps.length, cs k := by
  constructor
  · rintro ⟨⟨σ, hσ, rfl⟩, hm⟩
    obtain ⟨h1, h2⟩ := c88_same_study I hu J hJ σ
    refine ⟨_, fun k hk => ⟨⟨atStep k σ, h1.1 hσ k hk, rfl⟩, fun υ hυ => ?_⟩, h2⟩
    let τ : Nat → TermKey → ℚ := Function.update (fun k => atStep k σ) k υ
    obtain ⟨g1, g2⟩ := steps_accepts hu hJ (σ := joined τ) (τ := τ) fun k' hk' => joined_seen hs hu hk' (hJ k' hk') τ
    have hτ : I.Accepts (joined τ) := g1.2 fun k' hk' => by
      by_cases e : k' = k
      · subst e
        simpa [τ] using hυ
      · simpa [τ, Function.update_of_ne e] using h1.1 hσ k' hk'
    have hle := hm _ hτ
    rw [g2, h2] at hle
    have hmem : k ∈ Finset.range I.steps.length := Finset.mem_range.2 hk
    rw [← Finset.add_sum_erase _ _ hmem, ← Finset.add_sum_erase _ _ hmem] at hle
    have e : ∑ x ∈ (Finset.range I.steps.length).erase k, (J x).cost (atStep x σ) =
        ∑ x ∈ (Finset.range I.steps.length).erase k, (J x).cost (τ x) :=
      Finset.sum_congr rfl fun x hx => by simp [τ, Function.update_of_ne (Finset.ne_of_mem_erase hx)]
    rw [e] at hle
    have := le_of_add_le_add_right hle
    simpa [τ] using this
  · rintro ⟨cs, hcs, rfl⟩
    have hex : ∀ k, ∃ τ, k < I.steps.length → (J k).Accepts τ ∧ (J k).cost τ = cs k := by
      intro k
      by_cases hk : k < I.steps.length
      · obtain ⟨⟨τ, h1, h2⟩, -⟩ := hcs k hk
        exact ⟨τ, fun _ => ⟨h1, h2⟩⟩
      · exact ⟨fun _ => 0, fun h => absurd h hk⟩
    choose τ hτ using hex
    obtain ⟨g1, g2⟩ := steps_accepts hu hJ (σ := joined τ) (τ := τ) fun k' hk' => joined_seen hs hu hk' (hJ k' hk') τ
    refine ⟨⟨joined τ, g1.2 fun k hk => (hτ k hk).1, ?_⟩, fun σ hσ => ?_⟩
    · rw [g2]
      exact Finset.sum_congr rfl fun k hk => (hτ k (Finset.mem_range.1 hk)).2
    · obtain ⟨h1, h2⟩ := c88_same_study I hu J hJ σ
      rw [h2]
      exact Finset.sum_le_sum fun k hk => (hcs k (Finset.mem_range.1 hk)).2 _ (h1.1 hσ k (Finset.mem_range.1 hk))

end Verif.Props
