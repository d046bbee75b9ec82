import Verif.Spec.Steps
import Verif.Lemmas.Scenarios

/-! # What a component sees at one timestep -/

namespace Verif

/-- `R'` is what is seen of `R` from timestep `k` by a component with rules `r` -/
structure SeenAt (r : Rules) (R : Readings) (k : Nat) (R' : Readings) : Prop where
  T : R'.T = 1
  S : R'.S = R.S
  v : ∀ n ∈ r.variables_.map (·.1), ∀ s : Nat, s < R.S → R'.v n 0 s = R.v n k s
  p : ∀ n, ∀ s : Nat, s < R.S → R'.p n 0 s = R.p n k s
  received : ∀ n f, ∀ s : Nat, s < R.S → R'.received n f 0 s = R.received n f k s

/-- the rules are about each timestep separately -/
structure Rules.Instant (r : Rules) : Prop where
  accepts : ∀ R k R', SeenAt r R k R' → ∀ s : Nat, s < R.S → (r.accepts R (k : Int) (s : Int) ↔ r.accepts R' 0 s)
  cost : ∀ R, ∀ R' : Nat → Readings, (∀ k < R.T, SeenAt r R k (R' k)) → r.cost R = ∑ k ∈ Finset.range R.T, r.cost (R' k)
  sends : ∀ port fs, (port, fs) ∈ r.ports → ∀ field f, (field, some f) ∈ fs → ∀ R k R', SeenAt r R k R' → ∀ s : Nat, s < R.S →
    f R (k : Int) (s : Int) = f R' 0 s
  times : ∀ q ∈ r.variables_, q.2.1 = true

theorem expectedTotal_steps {R : Readings} {R' : Nat → Readings} {f : Int → Int → ℚ} {g : Nat → Int → Int → ℚ}
    (hT : ∀ k < R.T, (R' k).T = 1) (hS : ∀ k < R.T, (R' k).S = R.S) (h : ∀ k < R.T, ∀ s : Nat, s < R.S → g k 0 s = f k s) :
    R.expectedTotal f = ∑ k ∈ Finset.range R.T, (R' k).expectedTotal (g k) := by
  unfold Readings.expectedTotal
  rw [Finset.sum_comm, Finset.sum_div]
  refine Finset.sum_congr rfl fun k hk => ?_
  have hk := Finset.mem_range.1 hk
  rw [hT k hk, hS k hk]
  congr 1
  refine Finset.sum_congr rfl fun s hs => ?_
  rw [Finset.sum_range_one]
  exact (h k hk s (Finset.mem_range.1 hs)).symm

namespace Rules

theorem area_instant : Instant area where
  accepts R k R' h s hs := by
    have v0 := h.v "spillage" (by simp [area]) s hs
    have v1 := h.v "unsupplied_energy" (by simp [area]) s hs
    simp only [area, v0, v1, h.p _ _ hs, h.received _ _ _ hs]
  cost R R' h := by
    simp only [area]
    exact expectedTotal_steps (fun k hk => (h k hk).T) (fun k hk => (h k hk).S) fun k hk s hs => by
      have v0 := (h k hk).v "spillage" (by simp [area]) s hs
      have v1 := (h k hk).v "unsupplied_energy" (by simp [area]) s hs
      simp only [v0, v1, (h k hk).p _ _ hs]
  sends port fs hp field f hf R k R' h s hs := by
    simp only [area, List.mem_cons, Prod.mk.injEq, List.not_mem_nil, or_false] at hp
    obtain ⟨rfl, rfl⟩ := hp
    simp only [List.mem_cons, Prod.mk.injEq, List.not_mem_nil, or_false, reduceCtorEq, and_false] at hf
  times := by decide

theorem load_instant : Instant load where
  accepts _ _ _ _ _ _ := Iff.rfl
  cost _ _ _ := by simp [load]
  sends port fs hp field f hf R k R' h s hs := by
    simp only [load, List.mem_cons, Prod.mk.injEq, List.not_mem_nil, or_false] at hp
    obtain ⟨rfl, rfl⟩ := hp
    simp only [List.mem_cons, Prod.mk.injEq, List.not_mem_nil, or_false, Option.some.injEq] at hf
    obtain ⟨rfl, rfl⟩ := hf
    simp only [h.p _ _ hs]
  times := by decide

theorem link_instant : Instant link where
  accepts R k R' h s hs := by
    have v0 := h.v "flow_direct" (by simp [link]) s hs
    have v1 := h.v "flow_indirect" (by simp [link]) s hs
    have v2 := h.v "flow" (by simp [link]) s hs
    simp only [link, v0, v1, v2, h.p _ _ hs]
  cost _ _ _ := by simp [link]
  sends port fs hp field f hf R k R' h s hs := by
    have v2 := h.v "flow" (by simp [link]) s hs
    simp only [link, List.mem_cons, Prod.mk.injEq, List.not_mem_nil, or_false] at hp
    rcases hp with ⟨rfl, rfl⟩ | ⟨rfl, rfl⟩ <;>
      simp only [List.mem_cons, Prod.mk.injEq, List.not_mem_nil, or_false, Option.some.injEq] at hf <;>
      obtain ⟨rfl, rfl⟩ := hf <;> simp only [v2]
  times := by decide

theorem renewable_instant : Instant renewable where
  accepts _ _ _ _ _ _ := Iff.rfl
  cost _ _ _ := by simp [renewable]
  sends port fs hp field f hf R k R' h s hs := by
    simp only [renewable, List.mem_cons, Prod.mk.injEq, List.not_mem_nil, or_false] at hp
    obtain ⟨rfl, rfl⟩ := hp
    simp only [List.mem_cons, Prod.mk.injEq, List.not_mem_nil, or_false, Option.some.injEq] at hf
    obtain ⟨rfl, rfl⟩ := hf
    simp only [h.p _ _ hs]
  times := by decide

theorem dsr_instant : Instant dsr where
  accepts R k R' h s hs := by
    have v0 := h.v "curtailment" (by simp [dsr]) s hs
    simp only [dsr, v0, h.p _ _ hs]
  cost R R' h := by
    simp only [dsr]
    exact expectedTotal_steps (fun k hk => (h k hk).T) (fun k hk => (h k hk).S) fun k hk s hs => by
      have v0 := (h k hk).v "curtailment" (by simp [dsr]) s hs
      simp only [v0, (h k hk).p _ _ hs]
  sends port fs hp field f hf R k R' h s hs := by
    have v0 := h.v "curtailment" (by simp [dsr]) s hs
    simp only [dsr, List.mem_cons, Prod.mk.injEq, List.not_mem_nil, or_false] at hp
    obtain ⟨rfl, rfl⟩ := hp
    simp only [List.mem_cons, Prod.mk.injEq, List.not_mem_nil, or_false, Option.some.injEq] at hf
    obtain ⟨rfl, rfl⟩ := hf
    simp only [v0, h.p _ _ hs]
  times := by decide

theorem electrolyser_instant : Instant electrolyser where
  accepts R k R' h s hs := by
    have v0 := h.v "power" (by simp [electrolyser]) s hs
    simp only [electrolyser, v0, h.p _ _ hs]
  cost _ _ _ := by simp [electrolyser]
  sends port fs hp field f hf R k R' h s hs := by
    have v0 := h.v "power" (by simp [electrolyser]) s hs
    simp only [electrolyser, List.mem_cons, Prod.mk.injEq, List.not_mem_nil, or_false] at hp
    rcases hp with ⟨rfl, rfl⟩ | ⟨rfl, rfl⟩ <;>
      simp only [List.mem_cons, Prod.mk.injEq, List.not_mem_nil, or_false, Option.some.injEq] at hf <;>
      obtain ⟨rfl, rfl⟩ := hf <;> simp only [v0, h.p _ _ hs]
  times := by decide

theorem bus_instant : Instant bus where
  accepts R k R' h s hs := by simp only [bus, h.received _ _ _ hs]
  cost _ _ _ := by simp [bus]
  sends port fs hp field f hf R k R' h s hs := by
    simp only [bus, List.mem_cons, Prod.mk.injEq, List.not_mem_nil, or_false] at hp
    rcases hp with ⟨rfl, rfl⟩ | ⟨rfl, rfl⟩ <;>
      simp only [List.mem_cons, Prod.mk.injEq, List.not_mem_nil, or_false, reduceCtorEq, and_false] at hf
  times := by decide

theorem pypsaLoad_instant : Instant pypsaLoad where
  accepts _ _ _ _ _ _ := Iff.rfl
  cost _ _ _ := by simp [pypsaLoad]
  sends port fs hp field f hf R k R' h s hs := by
    simp only [pypsaLoad, List.mem_cons, Prod.mk.injEq, List.not_mem_nil, or_false] at hp
    rcases hp with ⟨rfl, rfl⟩ | ⟨rfl, rfl⟩ <;>
      simp only [List.mem_cons, Prod.mk.injEq, List.not_mem_nil, or_false, Option.some.injEq] at hf <;>
      obtain ⟨rfl, rfl⟩ := hf <;> simp only [h.p _ _ hs]
  times := by decide

theorem named_instant {ref : String} {r : Rules} (hi : ref ∈ instantModels) (h : named ref = some r) : Instant r := by
  have h1 : named "antares-historic.area" = some area := rfl
  have h2 : named "antares-historic.load" = some load := rfl
  have h3 : named "antares-historic.link" = some link := rfl
  have h4 : named "antares-historic.renewable" = some renewable := rfl
  have h5 : named "andromede-v1-models.dsr" = some dsr := rfl
  have h6 : named "andromede-v1-models.electrolyser" = some electrolyser := rfl
  have h7 : named "pypsa_models.bus" = some bus := rfl
  have h8 : named "pypsa_models.load" = some pypsaLoad := rfl
  simp only [instantModels, List.mem_cons, List.not_mem_nil, or_false] at hi
  rcases hi with rfl | rfl | rfl | rfl | rfl | rfl | rfl | rfl
  · rw [h1] at h; cases h; exact area_instant
  · rw [h2] at h; cases h; exact load_instant
  · rw [h3] at h; cases h; exact link_instant
  · rw [h4] at h; cases h; exact renewable_instant
  · rw [h5] at h; cases h; exact dsr_instant
  · rw [h6] at h; cases h; exact electrolyser_instant
  · rw [h7] at h; cases h; exact bus_instant
  · rw [h8] at h; cases h; exact pypsaLoad_instant

end Rules

namespace StudyInput

/-- `τ` are values of the variables of `J` that agree with what `σ` says at timestep `k` -/
def SeenAt (I : StudyInput) (k : Nat) (J : StudyInput) (σ τ : TermKey → ℚ) : Prop :=
  ∀ c ∈ I.declared, ∀ r, Rules.named c.model = some r → ∀ n ∈ r.variables_.map (·.1), ∀ s : Nat, s < I.scenarios →
    τ (J.instance_ c.id n 0 s) = σ (I.instance_ c.id n k s)

namespace AtStep
variable {I J : StudyInput} {k : Nat} {σ τ : TermKey → ℚ}

theorem declared (h : I.AtStep k J) : J.declared = I.declared := by
  unfold StudyInput.declared
  rw [h.system]

theorem component? (h : I.AtStep k J) (id : String) : J.component? id = I.component? id := by
  unfold StudyInput.component?
  rw [h.declared]

theorem rulesOf (h : I.AtStep k J) (id : String) : J.rulesOf id = I.rulesOf id := by
  unfold StudyInput.rulesOf
  rw [h.component?]

theorem parameter (h : I.AtStep k J) (id n : String) {s : Nat} (hs : s < I.scenarios) : J.parameter id n 0 s = I.parameter id n k s := by
  unfold StudyInput.parameter
  rw [h.component?]
  rcases hc : I.component? id with _ | c
  · rfl
  rcases hp : c.parameters.find? fun p => p.id = n with _ | p
  · simp only [Option.bind_some, hp]
  simp only [Option.bind_some, hp]
  rw [h.values c (component?_mem hc).1 p (List.mem_of_find?_eq_some hp) s hs]

theorem seen (h : I.AtStep k J) (hk : k < I.steps.length) : I.SeenAt k J σ (atStep k σ) := by
  intro c hc r hr n _ s _
  unfold StudyInput.instance_ atStep
  rw [h.rulesOf, h.length]
  congr 2
  have : (k : Int) % I.steps.length = k := Int.emod_eq_of_lt (by omega) (by omega)
  rw [this]
  dsimp only
  split_ifs <;> rfl

theorem own (h : I.AtStep k J) (ha : I.SeenAt k J σ τ) {c : InputComponent} (hc : c ∈ I.declared) {r : Rules} (hr : Rules.named c.model = some r) :
    Verif.SeenAt r (I.own σ c.id) k (J.own τ c.id) where
  T := h.length
  S := h.scenarios
  v n hn s hs := ha c hc r hr n hn s hs
  p n s hs := h.parameter c.id n hs
  received _ _ _ _ := rfl

theorem sent (h : I.AtStep k J) (hu : I.Unlinked) (ha : I.SeenAt k J σ τ) (id port field : String) :
    (I.sent σ id port field = none ↔ J.sent τ id port field = none) ∧
    ∀ f g, I.sent σ id port field = some f → J.sent τ id port field = some g → ∀ s : Nat, s < I.scenarios → g 0 s = f k s := by
  unfold StudyInput.sent
  rw [h.rulesOf]
  refine ⟨by simp, ?_⟩
  rcases hr : I.rulesOf id with _ | r
  · simp
  obtain ⟨c, hc, rfl, hn⟩ := rulesOf_mem hr
  simp only [Option.bind_some, Option.map_eq_some_iff]
  rintro f g ⟨F, hF, rfl⟩ ⟨G, hG, rfl⟩ s hs
  rw [hF] at hG
  cases hG
  unfold Rules.sends at hF
  simp only [Option.bind_eq_some_iff] at hF
  obtain ⟨⟨p', fs⟩, h1, ⟨fl, d⟩, h2, h3⟩ := hF
  have e : d = some F := h3
  subst e
  exact ((Rules.named_instant (hu c hc) hn).sends _ _ (List.mem_of_find?_eq_some h1) _ _ (List.mem_of_find?_eq_some h2) _ _ _
    (h.own ha hc hn) s hs).symm

theorem carried (h : I.AtStep k J) (hu : I.Unlinked) (ha : I.SeenAt k J σ τ) (x : InputConnection) (field : String) {s : Nat}
    (hs : s < I.scenarios) : J.carried τ x field 0 s = I.carried σ x field k s := by
  unfold StudyInput.carried
  obtain ⟨a1, a2⟩ := h.sent hu ha x.component1 x.port1 field
  obtain ⟨b1, b2⟩ := h.sent hu ha x.component2 x.port2 field
  rcases e1 : I.sent σ x.component1 x.port1 field with _ | f
  · rw [a1.1 e1]
    rcases e2 : I.sent σ x.component2 x.port2 field with _ | f
    · rw [b1.1 e2]
    · rcases e3 : J.sent τ x.component2 x.port2 field with _ | g
      · rw [b1.2 e3] at e2
        cases e2
      · exact b2 _ _ e2 e3 s hs
  · rcases e3 : J.sent τ x.component1 x.port1 field with _ | g
    · rw [a1.2 e3] at e1
      cases e1
    · exact a2 _ _ e1 e3 s hs

theorem readings (h : I.AtStep k J) (hu : I.Unlinked) (ha : I.SeenAt k J σ τ) {c : InputComponent} (hc : c ∈ I.declared) {r : Rules}
    (hr : Rules.named c.model = some r) : Verif.SeenAt r (I.readings σ c.id) k (J.readings τ c.id) :=
  { h.own ha hc hr with
    received := fun port field s hs => by
      change (J.system.connections.map _).sum = (I.system.connections.map _).sum
      rw [h.system]
      simp only [h.carried hu ha _ _ hs] }

end AtStep
end StudyInput

end Verif
