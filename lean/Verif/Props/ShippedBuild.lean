import Verif.Lemmas.ShippedBuild
import Verif.Props.ShippedStudy
import Verif.Props.Buildable

/-!
# C63: complete studies over the shipped libraries are turned into the right problem

C60 starts from a problem that was built.  Here the conditions are on the files only (`Spec/ShippedComplete.lean`): under them every
step, from the system file to the solver problem, succeeds, and the result means what the file says.
-/

namespace Verif.Props
open Verif Verif.Expr Verif.OptCtx Verif.Shipped

/-- **C63.** Take any well-formed and complete study: components name shipped models, all parameters are declared with data that can be read
and cover the block, connections join ports with the same fields and one sender each, minima are below maxima, durations are whole and
divisors are not zero.  Then the system is resolved, the network and the data base are built, and so is the solver problem. -/
theorem c63_builds (I : StudyInput) (hI : I.Sound) (libs : Dict String Library) (hl : ShippedLibraries libs) (hc : I.Complete libs) :
    ∃ sys net db st, resolveSystem I.system libs = .ok sys ∧ buildNetwork sys = .ok net ∧ buildDataBase I.load I.system = .ok db ∧
      OptCtx.buildProblem { network := net, database := db, timesteps := I.steps, scenarios := I.scenarios } = .ok st := by
  obtain ⟨sys, net, h1, h2⟩ := hc.resolves hl hI
  obtain ⟨db, h3⟩ := hc.data hI
  obtain ⟨st, h⟩ := c61_builds _ ((StudyInput.linked hI hl h1 h2).buildable hI hc h3)
  exact ⟨sys, net, db, st, h1, h2, h3, h⟩

/-- **C63 (partial), meaning.** If moreover no coefficient is smaller than `1e-16` (see `c35_tiny_coefficient`), the problem has exactly the
solutions and costs that the file means. -/
theorem c63_study_partial (I : StudyInput) (hI : I.Sound) (libs : Dict String Library) (hl : ShippedLibraries libs) (hc : I.Complete libs) :
    ∃ sys net db st, resolveSystem I.system libs = .ok sys ∧ buildNetwork sys = .ok net ∧ buildDataBase I.load I.system = .ok db ∧
      OptCtx.buildProblem { network := net, database := db, timesteps := I.steps, scenarios := I.scenarios } = .ok st ∧
      ((∀ c ∈ net.allComponents, (∀ k ∈ c.model.allConstraints, ∀ t s : Nat, t < I.steps.length → s < I.scenarios →
          (I.context net db).NoTiny c k.expression t s) ∧ ∀ e ∈ c.model.objectives, (I.context net db).NoTiny c e 0 0) →
        ∀ (pt : Nat → ℚ) (σ : TermKey → ℚ), (∀ k i, st.columns.get? k = some i → pt i = σ k) →
          (st.solver.Feasible pt ↔ I.Accepts σ) ∧ st.solver.cost pt = I.cost σ) := by
  obtain ⟨sys, net, db, st, h1, h2, h3, h⟩ := c63_builds I hI libs hl hc
  exact ⟨sys, net, db, st, h1, h2, h3, h, fun ht pt σ hσ =>
    c60_study_partial I hI libs hl sys h1 net h2 db h3 _ rfl ht st h pt σ hσ⟩

/-! ## Each demand is needed -/

/-- The demands on the values are those of the models, and no more: if some component breaks one of the demands that come from bounds, then
no values at all obey the rules of the file. -/
theorem c63_bounds_needed (I : StudyInput) (σ : TermKey → ℚ) (h : I.Accepts σ) (c : InputComponent) (hc : c ∈ I.declared) (t s : Nat)
    (ht : t < I.steps.length) (hs : s < I.scenarios) :
    let p := fun n => I.parameter c.id n t s
    (c.model = "antares-historic.link" → 0 ≤ p "capacity_direct" ∧ 0 ≤ p "capacity_indirect") ∧
    (c.model = "antares-historic.thermal" → p "p_min_cluster" ≤ p "p_max_cluster" ∧ p "nb_units_min" ≤ p "nb_units_max" ∧
      0 ≤ p "nb_units_max") ∧
    (c.model = "antares-historic.short-term-storage" ∨ c.model = "andromede-v1-models.battery" →
      0 ≤ p "p_max_injection_modulation" * p "injection_nominal_capacity" ∧
      0 ≤ p "p_max_withdrawal_modulation" * p "withdrawal_nominal_capacity" ∧
      p "lower_rule_curve" * p "reservoir_capacity" ≤ p "upper_rule_curve" * p "reservoir_capacity") ∧
    (c.model = "andromede-v1-models.dsr" → 0 ≤ p "max_load") ∧
    (c.model = "andromede-v1-models.electrolyser" → 0 ≤ p "p_max") ∧
    (c.model = "pypsa_models.generator" ∨ c.model = "pypsa_models.link" → p "p_nom_min" ≤ p "p_nom_max") ∧
    (c.model = "pypsa_models.storage_unit" → p "p_nom_min" ≤ p "p_nom_max" ∧ 0 ≤ p "p_max_pu" * p "p_nom_max" ∧
      0 ≤ p "max_hours" * p "p_nom_max") ∧
    (c.model = "pypsa_models.store" → p "e_nom_min" ≤ p "e_nom_max") := by
  intro p
  have key : ∀ r, Rules.named c.model = some r → r.accepts (I.readings σ c.id) t s := fun r hr => h c hc r hr t s ht hs
  refine ⟨?_, ?_, ?_, ?_, ?_, ?_, ?_, ?_⟩
  · intro hm
    obtain ⟨⟨a, b⟩, ⟨d, e⟩, -⟩ := key Rules.link (by rw [hm]; rfl)
    exact ⟨a.trans b, d.trans e⟩
  · intro hm
    obtain ⟨⟨a, b⟩, ⟨d, e, -⟩, ⟨f, g, -⟩, -⟩ := key Rules.thermal (by rw [hm]; rfl)
    exact ⟨a.trans b, d.trans e, f.trans g⟩
  · rintro (hm | hm)
    · obtain ⟨⟨a, b⟩, ⟨d, e⟩, ⟨f, g⟩, -⟩ := key Rules.shortTermStorage (by rw [hm]; rfl)
      exact ⟨a.trans b, d.trans e, f.trans g⟩
    · obtain ⟨⟨a, b⟩, ⟨d, e⟩, ⟨f, g⟩, -⟩ := key Rules.battery (by rw [hm]; rfl)
      exact ⟨a.trans b, d.trans e, f.trans g⟩
  · intro hm
    obtain ⟨a, b⟩ := key Rules.dsr (by rw [hm]; rfl)
    exact a.trans b
  · intro hm
    obtain ⟨a, b⟩ := key Rules.electrolyser (by rw [hm]; rfl)
    exact a.trans b
  · rintro (hm | hm)
    · obtain ⟨⟨a, b⟩, -⟩ := key Rules.generator (by rw [hm]; rfl)
      exact a.trans b
    · obtain ⟨⟨a, b⟩, -⟩ := key Rules.pypsaLink (by rw [hm]; rfl)
      exact a.trans b
  · intro hm
    obtain ⟨⟨a, b⟩, ⟨d, e⟩, -, ⟨f, g⟩, -⟩ := key Rules.storageUnit (by rw [hm]; rfl)
    exact ⟨a.trans b, d.trans e, f.trans g⟩
  · intro hm
    obtain ⟨⟨a, b⟩, -⟩ := key Rules.store (by rw [hm]; rfl)
    exact a.trans b

/-! ## Example -/

theorem shippedDemo_complete : shippedDemoStudy.Complete shippedDemoLibs := by
  refine ⟨?_, ?_, ?_, ?_, ?_, ?_⟩
  · intro c hc
    simp only [StudyInput.declared, shippedDemoStudy, List.cons_append, List.nil_append, List.mem_cons, List.not_mem_nil, or_false] at hc
    rcases hc with rfl | rfl | rfl <;> exact ⟨⟨_, rfl⟩, by decide⟩
  · intro c hc r hr q hq
    simp only [StudyInput.declared, shippedDemoStudy, List.cons_append, List.nil_append, List.mem_cons, List.not_mem_nil, or_false] at hc
    rcases hc with rfl | rfl | rfl
    · have : r = Rules.area := by cases hr; rfl
      subst this
      simp only [Rules.area, List.mem_cons, List.not_mem_nil, or_false] at hq
      rcases hq with rfl | rfl <;> simp
    · have : r = Rules.load := by cases hr; rfl
      subst this
      simp only [Rules.load, List.mem_cons, List.not_mem_nil, or_false] at hq
      subst hq
      simp
    · have : r = Rules.dsr := by cases hr; rfl
      subst this
      simp only [Rules.dsr, List.mem_cons, List.not_mem_nil, or_false] at hq
      rcases hq with rfl | rfl <;> simp
  · intro c hc p hp
    simp only [StudyInput.declared, shippedDemoStudy, List.cons_append, List.nil_append, List.mem_cons, List.not_mem_nil, or_false] at hc
    rcases hc with rfl | rfl | rfl <;> simp only [List.mem_cons, List.not_mem_nil, or_false] at hp
    · rcases hp with rfl | rfl <;> exact ⟨rfl, rfl⟩
    · subst hp
      exact ⟨.inl rfl, _, rfl, fun _ => rfl, by simp⟩
    · rcases hp with rfl | rfl <;> exact ⟨rfl, rfl⟩
  · intro c hc p hp t ht s hs
    have hs : s = 0 := Nat.lt_one_iff.1 hs
    subst hs
    simp only [StudyInput.declared, shippedDemoStudy, List.cons_append, List.nil_append, List.mem_cons, List.not_mem_nil, or_false] at hc ht
    rcases hc with rfl | rfl | rfl <;> simp only [List.mem_cons, List.not_mem_nil, or_false] at hp
    · rcases hp with rfl | rfl <;> exact ⟨_, rfl⟩
    · subst hp
      rcases ht with rfl | rfl <;> exact ⟨_, rfl⟩
    · rcases hp with rfl | rfl <;> exact ⟨_, rfl⟩
  · intro k hk
    simp only [shippedDemoStudy, List.mem_cons, List.not_mem_nil, or_false] at hk
    rcases hk with rfl | rfl
    · refine ⟨Rules.area, Rules.load, _, _, rfl, rfl, .head _, .head _, rfl, ?_⟩
      intro f hf
      simp only [List.map_cons, List.map_nil, List.mem_cons, List.not_mem_nil, or_false] at hf
      subst hf
      simp [Rules.sends, Rules.area, Rules.load]
    · refine ⟨Rules.dsr, Rules.area, _, _, rfl, rfl, .head _, .head _, rfl, ?_⟩
      intro f hf
      simp only [List.map_cons, List.map_nil, List.mem_cons, List.not_mem_nil, or_false] at hf
      subst hf
      simp [Rules.sends, Rules.area, Rules.dsr]
  · intro c hc d hd t s ht hs
    simp only [StudyInput.declared, shippedDemoStudy, List.cons_append, List.nil_append, List.mem_cons, List.not_mem_nil, or_false] at hc
    rcases hc with rfl | rfl | rfl
    · simp [Rules.needs] at hd
    · simp [Rules.needs] at hd
    · simp only [Rules.needs, List.mem_cons, Prod.mk.injEq, List.not_mem_nil, or_false, String.reduceEq, false_and, true_and, false_or] at hd
      subst hd
      show (0 : ℚ) ≤ 5
      norm_num

/-- All hypotheses of C63 are met by the study of C60, and so is that on small coefficients. -/
example : ∃ st, (shippedDemoStudy.context shippedDemoNet shippedDemoData).buildProblem = .ok st ∧
    ∀ (pt : Nat → ℚ) (σ : TermKey → ℚ), (∀ k i, st.columns.get? k = some i → pt i = σ k) →
      (st.solver.Feasible pt ↔ shippedDemoStudy.Accepts σ) ∧ st.solver.cost pt = shippedDemoStudy.cost σ := by
  obtain ⟨sys, net, db, st, h1, h2, h3, h4, h5⟩ := c63_study_partial shippedDemoStudy shippedDemo_sound shippedDemoLibs
    shippedDemoLibs_shipped shippedDemo_complete
  obtain ⟨sys', g1, g2⟩ := shippedDemo_resolved
  rw [g1] at h1; cases h1
  rw [g2] at h2; cases h2
  rw [shippedDemo_data] at h3; cases h3
  exact ⟨st, h4, h5 shippedDemo_noTiny⟩

end Verif.Props
