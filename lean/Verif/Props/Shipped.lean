import Verif.Lemmas.ShippedRules

/-!
# C59: what the libraries that come with the code say

The three library files of `src/andromede/libs` are read, and each of their models stands for the rules written in
`Spec/Shipped.lean`: the same points are accepted, at the same cost, and the same values are sent to the connected components, for all
values of the variables, of the parameters and of the connected components, all numbers of timesteps and scenarios.
-/

namespace Verif.Props
open Verif Verif.Shipped

/-- **C59, antares-historic.** The library is read and its models stand for their rules. -/
theorem c59_antares : ∃ l, resolveLib textParser [] antaresInput = .ok l ∧ l.id = "antares-historic" ∧
    l.portTypes = [("flow", ⟨"flow", ["flow"]⟩)] ∧ l.StandsFor Rules.antares := by
  refine ⟨antaresLibrary, by decide +kernel, rfl, rfl, ?_⟩
  exact .cons ⟨rfl, rfl, antaresAreaModel_stands⟩ <|
    .cons ⟨rfl, rfl, antaresLoadModel_stands⟩ <|
    .cons ⟨rfl, rfl, antaresLinkModel_stands⟩ <|
    .cons ⟨rfl, rfl, antaresRenewableModel_stands⟩ <|
    .cons ⟨rfl, rfl, antaresThermalModel_stands⟩ <|
    .cons ⟨rfl, rfl, antaresShortTermStorageModel_stands⟩ .nil

/-- **C59, andromede-v1-models.** The library is read and its models stand for their rules. -/
theorem c59_andromede : ∃ l, resolveLib textParser [] andromedeInput = .ok l ∧ l.id = "andromede-v1-models" ∧
    l.portTypes = [("flow", ⟨"flow", ["flow"]⟩)] ∧ l.StandsFor Rules.andromede := by
  refine ⟨andromedeLibrary, by decide +kernel, rfl, rfl, ?_⟩
  exact .cons ⟨rfl, rfl, andromedeDsrModel_stands⟩ <|
    .cons ⟨rfl, rfl, andromedeElectrolyserModel_stands⟩ <|
    .cons ⟨rfl, rfl, andromedeBatteryModel_stands⟩ .nil

/-- **C59, pypsa_models.** The library is read and its models stand for their rules. -/
theorem c59_pypsa : ∃ l, resolveLib textParser [] pypsaInput = .ok l ∧ l.id = "pypsa_models" ∧
    l.portTypes = [("flow", ⟨"flow", ["flow"]⟩), ("emission", ⟨"emission", ["emission"]⟩)] ∧ l.StandsFor Rules.pypsa := by
  refine ⟨pypsaLibrary, by decide +kernel, rfl, rfl, ?_⟩
  exact .cons ⟨rfl, rfl, pypsaBusModel_stands⟩ <|
    .cons ⟨rfl, rfl, pypsaLoadModel_stands⟩ <|
    .cons ⟨rfl, rfl, pypsaGeneratorModel_stands⟩ <|
    .cons ⟨rfl, rfl, pypsaLinkModel_stands⟩ <|
    .cons ⟨rfl, rfl, pypsaStorageUnitModel_stands⟩ <|
    .cons ⟨rfl, rfl, pypsaStoreModel_stands⟩ <|
    .cons ⟨rfl, rfl, pypsaGlobalConstraintCo2MaxModel_stands⟩ <|
    .cons ⟨rfl, rfl, pypsaGlobalConstraintCo2EqModel_stands⟩ .nil

/-- a component whose variables and parameters have the given values at all timesteps and scenarios, over one timestep and scenario -/
def constantReading (v p : String → ℚ) : MCtx where
  D := { env := ⟨fun _ n _ _ => v n, fun _ n _ _ => p n⟩, vidx := fun _ _ => ⟨false, false⟩, pidx := fun _ _ => ⟨false, false⟩,
         T := 1, S := 1, amt := fun _ => 0 }
  comp := "c"
  ports := fun _ _ => []

/-- The rules of generators accept a generator of nominal power 50 (at most 100), available at one half, which generates 20, at a cost of
3 * 20 + 2 * 50; they refuse it when it generates 30. -/
example :
    let r (g : ℚ) := (constantReading (fun n => if n = "p" then g else 50)
      (fun n => if n = "p_nom_max" then 100 else if n = "p_max_pu" then 1 / 2 else if n = "e_sum_max" then 1000 else
        if n = "marginal_cost" then 3 else if n = "capital_cost" then 2 else 0)).readings
    Rules.generator.accepts (r 20) 0 0 ∧ Rules.generator.cost (r 20) = 160 ∧ ¬ Rules.generator.accepts (r 30) 0 0 := by
  refine ⟨?_, ?_, ?_⟩
  · simp [Rules.generator, Rules.total, MCtx.readings, constantReading, mden]
    norm_num
  · simp [Rules.generator, MCtx.readings, constantReading, mden, Readings.expectedTotal]
    norm_num
  · simp [Rules.generator, MCtx.readings, constantReading, mden]
    norm_num

/-- **C59, nominal power of storage units (partial).** When the nominal power of a storage unit is fixed, its dispatched power is at most
its availability times its nominal power, as for generators and links. -/
theorem c59_storage_dispatch_partial (M : MCtx) (t s : Int) (h : pypsaStorageUnitModel.AcceptsAt M t s)
    (hf : M.readings.p "p_nom_min" t s = M.readings.p "p_nom_max" t s) :
    M.readings.v "p_dispatch" t s ≤ M.readings.p "p_max_pu" t s * M.readings.v "p_nom" t s := by
  obtain ⟨hn, -, hd, -⟩ := (pypsaStorageUnitModel_stands.accepts M t s).1 h
  have : M.readings.v "p_nom" t s = M.readings.p "p_nom_max" t s := le_antisymm hn.2 (hf ▸ hn.1)
  rw [this]
  exact hd.2

/-- **C59, nominal power of storage units: it does not limit the dispatched power.** The constraint named `p_dispatch_upper` limits the
stored power again: a storage unit whose nominal power is chosen as 1 out of at most 10 may dispatch 5. -/
theorem c59_storage_dispatch : ∃ M : MCtx, pypsaStorageUnitModel.AcceptsAt M 0 0 ∧ M.readings.p "p_max_pu" 0 0 = 1 ∧
    M.readings.v "p_nom" 0 0 = 1 ∧ M.readings.v "p_dispatch" 0 0 = 5 := by
  refine ⟨constantReading (fun n => if n = "p_nom" then 1 else if n = "p_dispatch" then 5 else 0) (fun n => if n = "p_max_pu" then 1 else
    if n = "p_nom_max" then 10 else if n = "inflow" then 5 else if n = "efficiency_dispatch" then 1 else 0), ?_, ?_⟩
  · rw [pypsaStorageUnitModel_stands.accepts]
    simp [Rules.storageUnit, MCtx.readings, constantReading, mden]
    norm_num
  · simp [MCtx.readings, constantReading, mden]

end Verif.Props
