import Verif.Spec.ShippedStudy
import Verif.Lemmas.ShippedRules
import Verif.Lemmas.ExprCheck
import Verif.Lemmas.Reading
import Verif.Props.System
import Verif.Props.Problem

/-! # Studies made of shipped models: the models satisfy the hypotheses of C35 -/

namespace Verif
open Verif.Expr Verif.OptCtx Verif.Shipped Verif.Props

instance : DecidableEq Idx := inferInstance

/-- a check of the definition of a port field, node by node -/
def defNodeOk (y : Expr) : Bool :=
  !y.isPortRef && !y.isCmp && !y.hasComponent && !y.isTimeFixing && !y.isScen &&
    match y with
    | .lit v => v.isFin
    | .add [] => false
    | _ => true

/-- a finite or infinite literal -/
def isBoundLit : Expr → Bool
  | .lit .nan => false
  | .lit _ => true
  | _ => false

/-- a bound of a variable -/
def boundOk (b : Option Expr) : Bool :=
  match b with
  | none => true
  | some b => b.subs.all fun y => nodeOk y && !y.hasComponent

/-- a check of all hypotheses on models -/
structure Model.Checked (m : Model) : Prop where
  vars : (m.variables_.all fun nv => nv.2.name = nv.1 && nv.2.dataType != .boolean && boundOk nv.2.lowerBound &&
    boundOk nv.2.upperBound) = true
  varsNodup : m.variables_.keys.Nodup
  constraints : ((m.constraints.values ++ m.bindingConstraints.values).all fun k =>
    k.expression.subs.all (fun y => nodeOk y && !y.hasComponent) && isBoundLit k.lowerBound && isBoundLit k.upperBound) = true
  objectives : (m.objectives.all fun e => e.subs.all (fun y => nodeOk y && !y.isPortRef && !y.hasComponent) &&
    match computeIndexation m.structures e with
    | .ok i => !i.time && !i.scenario
    | .error _ => false) = true
  ports : (m.ports.all fun np => np.2.portName = np.1) = true
  definitions : (m.portFieldsDefinitions.all fun kd => kd.2.definition.subs.all defNodeOk &&
    match m.ports.get? kd.1.port with
    | some p => p.portType.fields.contains kd.1.field
    | none => false) = true
  portsNodup : m.ports.keys.Nodup
  fieldsNodup : (m.ports.all fun np => np.2.portType.fields.Nodup) = true
  parsNodup : m.parameters.keys.Nodup

macro "check_model" : tactic => `(tactic| (refine ⟨?_, ?_, ?_, ?_, ?_, ?_, ?_, ?_, ?_⟩ <;> decide +kernel))

theorem antaresArea_checked : antaresAreaModel.Checked := by check_model
theorem antaresLoad_checked : antaresLoadModel.Checked := by check_model
theorem antaresLink_checked : antaresLinkModel.Checked := by check_model
theorem antaresRenewable_checked : antaresRenewableModel.Checked := by check_model
theorem antaresThermal_checked : antaresThermalModel.Checked := by check_model
theorem antaresShortTermStorage_checked : antaresShortTermStorageModel.Checked := by check_model
theorem andromedeDsr_checked : andromedeDsrModel.Checked := by check_model
theorem andromedeElectrolyser_checked : andromedeElectrolyserModel.Checked := by check_model
theorem andromedeBattery_checked : andromedeBatteryModel.Checked := by check_model
theorem pypsaBus_checked : pypsaBusModel.Checked := by check_model
theorem pypsaLoad_checked : pypsaLoadModel.Checked := by check_model
theorem pypsaGenerator_checked : pypsaGeneratorModel.Checked := by check_model
theorem pypsaLink_checked : pypsaLinkModel.Checked := by check_model
theorem pypsaStorageUnit_checked : pypsaStorageUnitModel.Checked := by check_model
theorem pypsaStore_checked : pypsaStoreModel.Checked := by check_model
theorem pypsaGlobalConstraintCo2Max_checked : pypsaGlobalConstraintCo2MaxModel.Checked := by check_model
theorem pypsaGlobalConstraintCo2Eq_checked : pypsaGlobalConstraintCo2EqModel.Checked := by check_model

/-- the models named by system files, with their rules -/
def shippedModels : List (String × Model × Rules) :=
  [("antares-historic.area", antaresAreaModel, Rules.area),
    ("antares-historic.load", antaresLoadModel, Rules.load),
    ("antares-historic.link", antaresLinkModel, Rules.link),
    ("antares-historic.renewable", antaresRenewableModel, Rules.renewable),
    ("antares-historic.thermal", antaresThermalModel, Rules.thermal),
    ("antares-historic.short-term-storage", antaresShortTermStorageModel, Rules.shortTermStorage),
    ("andromede-v1-models.dsr", andromedeDsrModel, Rules.dsr),
    ("andromede-v1-models.electrolyser", andromedeElectrolyserModel, Rules.electrolyser),
    ("andromede-v1-models.battery", andromedeBatteryModel, Rules.battery),
    ("pypsa_models.bus", pypsaBusModel, Rules.bus),
    ("pypsa_models.load", pypsaLoadModel, Rules.pypsaLoad),
    ("pypsa_models.generator", pypsaGeneratorModel, Rules.generator),
    ("pypsa_models.link", pypsaLinkModel, Rules.pypsaLink),
    ("pypsa_models.storage_unit", pypsaStorageUnitModel, Rules.storageUnit),
    ("pypsa_models.store", pypsaStoreModel, Rules.store),
    ("pypsa_models.global_constraint_co2_max", pypsaGlobalConstraintCo2MaxModel, Rules.co2Max),
    ("pypsa_models.global_constraint_co2_eq", pypsaGlobalConstraintCo2EqModel, Rules.co2Eq)]

theorem shippedModels_ok : ∀ e ∈ shippedModels, Rules.named e.1 = some e.2.2 ∧ e.2.1.StandsFor e.2.2 ∧ e.2.1.Checked := by
  intro e he
  simp only [shippedModels, List.mem_cons, List.not_mem_nil, or_false] at he
  rcases he with rfl | rfl | rfl | rfl | rfl | rfl | rfl | rfl | rfl | rfl | rfl | rfl | rfl | rfl | rfl | rfl | rfl
  · exact ⟨rfl, antaresAreaModel_stands, antaresArea_checked⟩
  · exact ⟨rfl, antaresLoadModel_stands, antaresLoad_checked⟩
  · exact ⟨rfl, antaresLinkModel_stands, antaresLink_checked⟩
  · exact ⟨rfl, antaresRenewableModel_stands, antaresRenewable_checked⟩
  · exact ⟨rfl, antaresThermalModel_stands, antaresThermal_checked⟩
  · exact ⟨rfl, antaresShortTermStorageModel_stands, antaresShortTermStorage_checked⟩
  · exact ⟨rfl, andromedeDsrModel_stands, andromedeDsr_checked⟩
  · exact ⟨rfl, andromedeElectrolyserModel_stands, andromedeElectrolyser_checked⟩
  · exact ⟨rfl, andromedeBatteryModel_stands, andromedeBattery_checked⟩
  · exact ⟨rfl, pypsaBusModel_stands, pypsaBus_checked⟩
  · exact ⟨rfl, pypsaLoadModel_stands, pypsaLoad_checked⟩
  · exact ⟨rfl, pypsaGeneratorModel_stands, pypsaGenerator_checked⟩
  · exact ⟨rfl, pypsaLinkModel_stands, pypsaLink_checked⟩
  · exact ⟨rfl, pypsaStorageUnitModel_stands, pypsaStorageUnit_checked⟩
  · exact ⟨rfl, pypsaStoreModel_stands, pypsaStore_checked⟩
  · exact ⟨rfl, pypsaGlobalConstraintCo2MaxModel_stands, pypsaGlobalConstraintCo2Max_checked⟩
  · exact ⟨rfl, pypsaGlobalConstraintCo2EqModel_stands, pypsaGlobalConstraintCo2Eq_checked⟩
/-- the model designated by a name in shipped libraries -/
theorem shipped_designates {libs : Dict String Library} (hl : ShippedLibraries libs) {ref : String} {m : Model}
    (h : Designates libs ref m) : ∃ r, (ref, m, r) ∈ shippedModels := by
  obtain ⟨lib, name, l, rfl, -, -, h1, h2⟩ := h
  obtain ⟨f, hf, rfl, hr⟩ := hl _ _ h1
  have ha : resolveLib textParser [] antaresInput = .ok antaresLibrary := by decide +kernel
  have hb : resolveLib textParser [] andromedeInput = .ok andromedeLibrary := by decide +kernel
  have hc : resolveLib textParser [] pypsaInput = .ok pypsaLibrary := by decide +kernel
  have hm := Dict.mem_of_get? h2
  simp only [List.mem_cons, List.not_mem_nil, or_false] at hf
  rcases hf with rfl | rfl | rfl
  · rw [ha] at hr; cases hr
    simp only [antaresLibrary, List.mem_cons, Prod.mk.injEq, List.not_mem_nil, or_false] at hm
    rcases hm with ⟨rfl, rfl⟩ | ⟨rfl, rfl⟩ | ⟨rfl, rfl⟩ | ⟨rfl, rfl⟩ | ⟨rfl, rfl⟩ | ⟨rfl, rfl⟩ <;> exact ⟨_, by simp [shippedModels, antaresInput]; rfl⟩
  · rw [hb] at hr; cases hr
    simp only [andromedeLibrary, List.mem_cons, Prod.mk.injEq, List.not_mem_nil, or_false] at hm
    rcases hm with ⟨rfl, rfl⟩ | ⟨rfl, rfl⟩ | ⟨rfl, rfl⟩ <;> exact ⟨_, by simp [shippedModels, andromedeInput]; rfl⟩
  · rw [hc] at hr; cases hr
    simp only [pypsaLibrary, List.mem_cons, Prod.mk.injEq, List.not_mem_nil, or_false] at hm
    rcases hm with ⟨rfl, rfl⟩ | ⟨rfl, rfl⟩ | ⟨rfl, rfl⟩ | ⟨rfl, rfl⟩ | ⟨rfl, rfl⟩ | ⟨rfl, rfl⟩ | ⟨rfl, rfl⟩ | ⟨rfl, rfl⟩ <;> exact ⟨_, by simp [shippedModels, pypsaInput]; rfl⟩

end Verif
