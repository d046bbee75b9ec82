import Verif.Spec.ShippedComplete
import Verif.Lemmas.FitsCheck
import Verif.Lemmas.StudyMeaning

/-! # The shipped models can be used, when the values of the parameters make sense -/

namespace Verif
open Verif.Expr Verif.OptCtx Verif.Shipped Verif.Props

/-- the expressions of the model fit, if the parameters of `ds` are never zero and the parameters of `ws` are whole numbers -/
structure Model.FitsWith (m : Model) (ds ws : List String) : Prop where
  parameters : (m.parameters.all fun np => np.2.name = np.1) = true
  whole : (ws.all fun n => match m.parameters.get? n with
    | some p => !p.structure_.time && !p.structure_.scenario
    | none => false) = true
  vars : (m.variables_.values.all fun v => boundB m v.structure_ v.lowerBound && boundB m v.structure_ v.upperBound) = true
  constraints : ((m.bindingConstraints.values ++ m.constraints.values).all fun k => fitsB (leafB m) ds ws k.expression &&
    boundB m ⟨true, true⟩ (some k.lowerBound) && boundB m ⟨true, true⟩ (some k.upperBound) &&
    (match k.lowerBound with | .lit .pinf => false | _ => true) && match k.upperBound with | .lit .ninf => false | _ => true) = true
  objectives : (m.objectives.all (fitsB (leafB m) ds ws)) = true
  definitions : (m.portFieldsDefinitions.all fun kd => fitsB (leafB m) ds ws kd.2.definition) = true
  types : (m.ports.all fun np => np.2.portType.fields = [np.2.portType.id]) = true

macro "fit_model" : tactic => `(tactic| (refine ⟨?_, ?_, ?_, ?_, ?_, ?_, ?_⟩ <;> decide +kernel))

/-- the demands on the values of the parameters -/
def Needed (ref : String) (r : Readings) (t s : Int) : Prop := ∀ d, (ref, d) ∈ Rules.needs → d r t s

theorem needs_congr {ref : String} {d : Readings → Int → Int → Prop} (h : (ref, d) ∈ Rules.needs) {r r' : Readings} {t s : Int}
    (hp : ∀ n, r.p n t s = r'.p n t s) (hd : d r t s) : d r' t s := by
  simp only [Rules.needs, List.mem_cons, Prod.mk.injEq, List.not_mem_nil, or_false] at h
  rcases h with ⟨-, rfl⟩ | ⟨-, rfl⟩ | ⟨-, rfl⟩ | ⟨-, rfl⟩ | ⟨-, rfl⟩ | ⟨-, rfl⟩ | ⟨-, rfl⟩ | ⟨-, rfl⟩ | ⟨-, rfl⟩ | ⟨-, rfl⟩ <;>
    simpa only [hp] using hd

/-- all bounds of the variables leave some room -/
def Model.HasRoom (m : Model) (ref : String) : Prop :=
  ∀ v ∈ m.variables_.values, ∀ (M : MCtx) (t s : Int), Needed ref M.readings t s →
    ∃ q, aboveOpt M v.lowerBound q t s ∧ belowOpt M v.upperBound q t s

theorem room_none {M : MCtx} {t s : Int} : ∃ q, aboveOpt M none q t s ∧ belowOpt M none q t s := ⟨0, trivial, trivial⟩
theorem room_above {M : MCtx} {t s : Int} (z : ℚ) : ∃ q, aboveOpt M (some (.lit (.fin z))) q t s ∧ belowOpt M none q t s :=
  ⟨z, le_refl z, trivial⟩

theorem shippedModels_fit : ∀ e ∈ shippedModels, ∃ ds ws, e.2.1.FitsWith ds ws ∧ e.2.1.HasRoom e.1 ∧
    (∀ n ∈ ds, ∀ r t s, Needed e.1 r t s → r.p n t s ≠ 0) ∧ ∀ n ∈ ws, ∀ r t s, Needed e.1 r t s → Whole (r.p n t s) := by
  intro e he
  simp only [shippedModels, List.mem_cons, List.not_mem_nil, or_false] at he
  rcases he with rfl | rfl | rfl | rfl | rfl | rfl | rfl | rfl | rfl | rfl | rfl | rfl | rfl | rfl | rfl | rfl | rfl
  · refine ⟨[], [], by fit_model, ?_, by simp, by simp⟩
    intro v hv M t s hn
    simp only [antaresAreaModel, Dict.values, List.map_cons, List.map_nil, List.mem_cons, List.not_mem_nil, or_false] at hv
    rcases hv with rfl | rfl <;> exact room_above 0
  · refine ⟨[], [], by fit_model, ?_, by simp, by simp⟩
    intro v hv; simp [antaresLoadModel, Dict.values] at hv
  · refine ⟨[], [], by fit_model, ?_, by simp, by simp⟩
    intro v hv M t s hn
    obtain ⟨h1, h2⟩ := hn _ (.head _)
    simp only [antaresLinkModel, Dict.values, List.map_cons, List.map_nil, List.mem_cons, List.not_mem_nil, or_false] at hv
    rcases hv with rfl | rfl | rfl
    · exact ⟨0, le_refl _, h1⟩
    · exact ⟨0, le_refl _, h2⟩
    · exact room_none
  · refine ⟨[], [], by fit_model, ?_, by simp, by simp⟩
    intro v hv; simp [antaresRenewableModel, Dict.values] at hv
  · have key : ∀ r t s, Needed "antares-historic.thermal" r t s → _ := fun r t s hn => hn _ (.tail _ (.head _))
    refine ⟨[], ["d_min_up", "d_min_down"], by fit_model, ?_, by simp, ?_⟩
    · intro v hv M t s hn
      obtain ⟨h1, h2, h3, -⟩ := key _ _ _ hn
      simp only [antaresThermalModel, Dict.values, List.map_cons, List.map_nil, List.mem_cons, List.not_mem_nil, or_false] at hv
      rcases hv with rfl | rfl | rfl | rfl | rfl
      · exact ⟨_, le_refl _, h1⟩
      · exact ⟨_, le_refl _, h2⟩
      · exact ⟨0, le_refl _, h3⟩
      · exact room_above 0
      · exact room_above 0
    · intro n hn r t s hh
      obtain ⟨-, -, -, h4, h5⟩ := key _ _ _ hh
      simp only [List.mem_cons, List.not_mem_nil, or_false] at hn
      rcases hn with rfl | rfl
      · exact h4
      · exact h5
  · refine ⟨[], [], by fit_model, ?_, by simp, by simp⟩
    intro v hv M t s hn
    obtain ⟨h1, h2, h3⟩ := hn _ (.tail _ (.tail _ (.head _)))
    simp only [antaresShortTermStorageModel, Dict.values, List.map_cons, List.map_nil, List.mem_cons, List.not_mem_nil, or_false] at hv
    rcases hv with rfl | rfl | rfl
    · exact ⟨0, le_refl _, h1⟩
    · exact ⟨0, le_refl _, h2⟩
    · exact ⟨_, le_refl _, h3⟩
  · refine ⟨[], [], by fit_model, ?_, by simp, by simp⟩
    intro v hv M t s hn
    have h1 := hn _ (.tail _ (.tail _ (.tail _ (.head _))))
    simp only [andromedeDsrModel, Dict.values, List.map_cons, List.map_nil, List.mem_cons, List.not_mem_nil, or_false] at hv
    subst hv
    exact ⟨0, le_refl _, h1⟩
  · refine ⟨[], [], by fit_model, ?_, by simp, by simp⟩
    intro v hv M t s hn
    have h1 := hn _ (.tail _ (.tail _ (.tail _ (.tail _ (.head _)))))
    simp only [andromedeElectrolyserModel, Dict.values, List.map_cons, List.map_nil, List.mem_cons, List.not_mem_nil, or_false] at hv
    subst hv
    exact ⟨0, le_refl _, h1⟩
  · refine ⟨[], [], by fit_model, ?_, by simp, by simp⟩
    intro v hv M t s hn
    obtain ⟨h1, h2, h3⟩ := hn _ (.tail _ (.tail _ (.tail _ (.tail _ (.tail _ (.head _))))))
    simp only [andromedeBatteryModel, Dict.values, List.map_cons, List.map_nil, List.mem_cons, List.not_mem_nil, or_false] at hv
    rcases hv with rfl | rfl | rfl
    · exact ⟨0, le_refl _, h1⟩
    · exact ⟨0, le_refl _, h2⟩
    · exact ⟨_, le_refl _, h3⟩
  · refine ⟨[], [], by fit_model, ?_, by simp, by simp⟩
    intro v hv; simp [pypsaBusModel, Dict.values] at hv
  · refine ⟨[], [], by fit_model, ?_, by simp, by simp⟩
    intro v hv; simp [pypsaLoadModel, Dict.values] at hv
  · have key : ∀ r t s, Needed "pypsa_models.generator" r t s → _ :=
      fun r t s hn => hn _ (.tail _ (.tail _ (.tail _ (.tail _ (.tail _ (.tail _ (.head _)))))))
    refine ⟨["efficiency"], [], by fit_model, ?_, ?_, by simp⟩
    · intro v hv M t s hn
      obtain ⟨h1, -⟩ := key _ _ _ hn
      simp only [pypsaGeneratorModel, Dict.values, List.map_cons, List.map_nil, List.mem_cons, List.not_mem_nil, or_false] at hv
      rcases hv with rfl | rfl
      · exact ⟨_, le_refl _, h1⟩
      · exact room_none
    · intro n hn r t s hh
      obtain ⟨-, h2⟩ := key _ _ _ hh
      simp only [List.mem_cons, List.not_mem_nil, or_false] at hn
      subst hn
      exact h2
  · refine ⟨[], [], by fit_model, ?_, by simp, by simp⟩
    intro v hv M t s hn
    have h1 := hn _ (.tail _ (.tail _ (.tail _ (.tail _ (.tail _ (.tail _ (.tail _ (.head _))))))))
    simp only [pypsaLinkModel, Dict.values, List.map_cons, List.map_nil, List.mem_cons, List.not_mem_nil, or_false] at hv
    rcases hv with rfl | rfl
    · exact ⟨_, le_refl _, h1⟩
    · exact room_none
  · have key : ∀ r t s, Needed "pypsa_models.storage_unit" r t s → _ :=
      fun r t s hn => hn _ (.tail _ (.tail _ (.tail _ (.tail _ (.tail _ (.tail _ (.tail _ (.tail _ (.head _)))))))))
    refine ⟨["efficiency_dispatch"], [], by fit_model, ?_, ?_, by simp⟩
    · intro v hv M t s hn
      obtain ⟨h1, h2, h3, -⟩ := key _ _ _ hn
      simp only [pypsaStorageUnitModel, Dict.values, List.map_cons, List.map_nil, List.mem_cons, List.not_mem_nil, or_false] at hv
      rcases hv with rfl | rfl | rfl | rfl | rfl
      · exact ⟨_, le_refl _, h1⟩
      · exact ⟨0, le_refl _, h2⟩
      · exact ⟨0, le_refl _, h2⟩
      · exact ⟨0, le_refl _, h3⟩
      · exact room_above 0
    · intro n hn r t s hh
      obtain ⟨-, -, -, h2⟩ := key _ _ _ hh
      simp only [List.mem_cons, List.not_mem_nil, or_false] at hn
      subst hn
      exact h2
  · refine ⟨[], [], by fit_model, ?_, by simp, by simp⟩
    intro v hv M t s hn
    have h1 := hn _ (.tail _ (.tail _ (.tail _ (.tail _ (.tail _ (.tail _ (.tail _ (.tail _ (.tail _ (.head _))))))))))
    simp only [pypsaStoreModel, Dict.values, List.map_cons, List.map_nil, List.mem_cons, List.not_mem_nil, or_false] at hv
    rcases hv with rfl | rfl | rfl
    · exact ⟨_, le_refl _, h1⟩
    · exact room_none
    · exact room_none
  · refine ⟨[], [], by fit_model, ?_, by simp, by simp⟩
    intro v hv; simp [pypsaGlobalConstraintCo2MaxModel, Dict.values] at hv
  · refine ⟨[], [], by fit_model, ?_, by simp, by simp⟩
    intro v hv; simp [pypsaGlobalConstraintCo2EqModel, Dict.values] at hv

end Verif
