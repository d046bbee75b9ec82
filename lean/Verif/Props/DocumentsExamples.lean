import Verif.Props.Documents
import Verif.Props.AntaresProblemExamples
import Verif.Props.PypsaProblemExamples
import Verif.Model.ShippedFiles

/-!
# C70, C71, C72: cases
-/

namespace Verif.Props
open Verif Verif.Doc Verif.Shipped

/-- **C71, the shipped files.** The library files of the code are read as the libraries that the other properties are about. -/
theorem c71_shipped (L : Lenient) (num : Num → String) : parseYamlLibrary L num antaresFile = .ok antaresInput ∧
    parseYamlLibrary L num andromedeFile = .ok andromedeInput ∧ parseYamlLibrary L num pypsaFile = .ok pypsaInput :=
  ⟨by rfl, by rfl, by rfl⟩

/-- an instance where all fields are set -/
def allSet (s : InputSystem) : SetSystem :=
  let c : InputComponent → SetComponent := fun c => ⟨c.id, c.model, some c.scenarioGroup,
    some (some (c.parameters.map fun p => ⟨p.id, some p.timeDependent, some p.scenarioDependent, p.value, some p.scenarioGroup⟩))⟩
  ⟨none, some (s.nodes.map c), some (s.components.map c), some s.connections⟩

theorem allSet_values (s : InputSystem) : (allSet s).values = s := by
  have hp : ∀ l : List InputParam, l.map (fun p => SetParam.values ⟨p.id, some p.timeDependent, some p.scenarioDependent, p.value, some p.scenarioGroup⟩) = l := by
    intro l
    induction l with
    | nil => rfl
    | cons p l ih => rw [List.map_cons, ih]; rfl
  have hc : ∀ l : List InputComponent, (l.map fun c => SetComponent.values ⟨c.id, c.model, some c.scenarioGroup,
      some (some (c.parameters.map fun p => ⟨p.id, some p.timeDependent, some p.scenarioDependent, p.value, some p.scenarioGroup⟩))⟩) = l := by
    intro l
    induction l with
    | nil => rfl
    | cons c l ih =>
      rw [List.map_cons, ih]
      congr 1
      simp only [SetComponent.values, Option.getD_some, List.map_map, Function.comp_def, hp]
  simp only [allSet, SetSystem.values, Option.getD_some, List.map_map, Function.comp_def, hc]

/-- a disk with the shipped libraries and a converted system -/
def docDisk (L : Lenient) (num : Num → String) (s : InputSystem) (load : String → R Frame) : Disk where
  listDir _ := .error (.exception "FileNotFoundError")
  library p := parseYamlLibrary L num (if p = "antares" then antaresFile else if p = "andromede" then andromedeFile else pypsaFile)
  system _ := parseYamlComponents L (transformToYaml (allSet s))
  table _ n := load n

/-- C70 from an Antares study with a cluster, a load, a link and a battery -/
example (L : Lenient) (num : Num → String) : ∃ sys files p, convertStudy demoA batteryTemplate none [] = .ok (sys, files) ∧
    mainCli textParser (fun _ => firstOrder) 8 (docDisk L num sys (AStudy.load demoDisk files))
      { models := ["antares", "andromede"], component := some "reference.yaml", timeseries := some "series", duration := 2 } = some (.ok p) := by
  obtain ⟨sys, files, h1, h2⟩ := c70_antares_partial demoA demoDisk [(demoFr, demoBattery)] 2 1 none [] demo_supported demo_kept (by
    rw [demo_objects]
    intro a c h
    simp only [List.mem_cons, List.not_mem_nil, or_false, reduceCtorEq, AObject.thermal.injEq] at h
    obtain ⟨-, rfl⟩ := h
    decide +kernel) L (fun _ => firstOrder) (fun _ => firstOrder_valid) 8
  obtain ⟨p, hp, -⟩ := h2 (allSet sys) (allSet_values sys) (docDisk L num sys (AStudy.load demoDisk files))
    { models := ["antares", "andromede"], component := some "reference.yaml", timeseries := some "series", duration := 2 }
    _ _ _ [antaresInput, andromedeInput] (.files rfl (by simp) rfl) (.cons (c71_shipped L num).1 (.cons (c71_shipped L num).2.1 .nil))
    (by decide) (by simp) (by simp) (by simp) (by decide) rfl (fun _ => rfl) rfl rfl
  exact ⟨sys, files, p, h1, hp⟩

/-- C70 from a PyPSA network: the cost of the solutions is the one of the network -/
example (L : Lenient) (num : Num → String) : ∃ s p, pypsaConvert noText demoNet = .ok s ∧
    mainCli textParser (fun _ => firstOrder) 8 (docDisk L num s.system s.load)
      { models := ["pypsa"], component := some "study.yml", timeseries := some "series", duration := 2 } = some (.ok p) ∧
    ∀ (pt : Nat → ℚ) (σ : TermKey → ℚ), (∀ k i, p.columns.get? k = some i → pt i = σ k) → p.solver.cost pt = demoNet.planCost noText 2 (planOf σ) := by
  obtain ⟨s, h1, h2⟩ := c70_pypsa_partial noText demoNet 2 (exNetwork_tables _ _ _) (unitNet_accepted false).1
    (unitNet_accepted false).2 (unitNet_names _) (unitNet_buses _) (unitNet_series _) (unitNet_sound _) demoNet_storage (unitNet_kept _)
    L (fun _ => firstOrder) (fun _ => firstOrder_valid) 8
  obtain ⟨p, hp, h3⟩ := h2 (allSet s.system) (allSet_values _) (docDisk L num s.system s.load)
    { models := ["pypsa"], component := some "study.yml", timeseries := some "series", duration := 2 }
    _ _ _ [pypsaInput] (.files rfl (by simp) rfl) (.cons (c71_shipped L num).2.2 .nil)
    (by decide) (by simp) (by simp) (by decide) rfl (fun _ => rfl) rfl rfl
  exact ⟨s, p, h1, hp, fun pt σ h => (h3 pt σ h).1.2⟩

/-! ## C71 -/

/-- a system file with a load and a group of scenarios -/
def docSystem : Entries := [(some "components", .seq [
  .map [(some "id", .str "L"), (some "model", .str "lib.load"), (some "scenario-group", .str "g"), (some "parameters", .seq [
    .map [(some "id", .str "load"), (some "time-dependent", .bool true), (some "value", .str "series")],
    .map [(some "id", .str "cost"), (some "value", .int 5)]])]])]

/-- its file -/
def docFile : Doc := .map [(some "system", .map docSystem)]

/-- what it says -/
def docValues : InputSystem :=
  ⟨[], [⟨"L", "lib.load", some "g", [⟨"load", true, false, .name "series", none⟩, ⟨"cost", false, false, .number (.fin 5), none⟩]⟩], []⟩

theorem inside_seq {d : Doc} {l : List Doc} (h : Doc.Inside d (.seq l)) : d = .seq l ∨ ∃ x ∈ l, Doc.Inside d x := by
  cases h with
  | here => exact .inl rfl
  | item hx h => exact .inr ⟨_, hx, h⟩

theorem inside_map {d : Doc} {l : Entries} (h : Doc.Inside d (.map l)) : d = .map l ∨ ∃ e ∈ l, Doc.Inside d e.2 := by
  cases h with
  | here => exact .inl rfl
  | value hx h => exact .inr ⟨_, hx, h⟩

theorem clear_scalar {d : Doc} (h : ∀ l, d ≠ .seq l) (h' : ∀ l, d ≠ .map l) : d.Clear := by
  intro l hl
  cases hl with
  | here => exact absurd rfl (h' _)
  | item _ _ => exact absurd rfl (h _)
  | value _ _ => exact absurd rfl (h' _)

theorem clear_seq {l : List Doc} (h : ∀ x ∈ l, x.Clear) : (Doc.seq l).Clear := by
  intro m hm
  rcases inside_seq hm with h0 | ⟨x, hx, h1⟩
  · cases h0
  · exact h x hx m h1

theorem clear_map {l : Entries} (h0 : Entries.Clear l) (h : ∀ e ∈ l, e.2.Clear) : (Doc.map l).Clear := by
  intro m hm
  rcases inside_map hm with h1 | ⟨x, hx, h1⟩
  · cases h1
    exact h0
  · exact h x hx m h1

mutual
/-- a check of `Doc.Clear` -/
def clearB : Doc → Bool
  | .seq l => clearItems l
  | .map l => decide (l.map fun e => e.1.map toKebab).Nodup && clearEntries l
  | _ => true
/-- the same for items -/
def clearItems : List Doc → Bool
  | [] => true
  | d :: l => clearB d && clearItems l
/-- the same for entries -/
def clearEntries : List (Option String × Doc) → Bool
  | [] => true
  | (_, d) :: l => clearB d && clearEntries l
end

mutual
theorem clearB_clear : ∀ d : Doc, clearB d = true → d.Clear
  | .null, _ | .bool _, _ | .int _, _ | .float _, _ | .str _, _ | .other, _ => clear_scalar (by simp) (by simp)
  | .seq l, h => clear_seq (clearItems_clear l (by simpa only [clearB] using h))
  | .map l, h => by
    simp only [clearB, Bool.and_eq_true, decide_eq_true_eq] at h
    exact clear_map h.1 (clearEntries_clear l h.2)
theorem clearItems_clear : ∀ l : List Doc, clearItems l = true → ∀ x ∈ l, x.Clear
  | [], _, _, hx => by cases hx
  | d :: l, h, x, hx => by
    simp only [clearItems, Bool.and_eq_true] at h
    rcases List.mem_cons.1 hx with hx | hx
    · rw [hx]
      exact clearB_clear d h.1
    · exact clearItems_clear l h.2 x hx
theorem clearEntries_clear : ∀ l : List (Option String × Doc), clearEntries l = true → ∀ e ∈ l, e.2.Clear
  | [], _, _, hx => by cases hx
  | (k, d) :: l, h, x, hx => by
    simp only [clearEntries, Bool.and_eq_true] at h
    rcases List.mem_cons.1 hx with hx | hx
    · rw [hx]
      exact clearB_clear d h.1
    · exact clearEntries_clear l h.2 x hx
end

theorem docFile_clear : docFile.Clear := clearB_clear _ (by decide +kernel)

/-- no key comes twice in the shipped files: `c71_library_partial` is about them -/
example : antaresFile.Clear ∧ andromedeFile.Clear ∧ pypsaFile.Clear :=
  ⟨clearB_clear _ (by decide +kernel), clearB_clear _ (by decide +kernel), clearB_clear _ (by decide +kernel)⟩

/-- `c71_system_partial` and `c71_known_keys` are about files like this one -/
example (L : Lenient) : docFile.Clear ∧ SaysSystem L docValues (.map docSystem) ∧ KeysIn systemKeys (.map docSystem) := by
  have hr : parseYamlComponents L docFile = .ok docValues := rfl
  obtain ⟨d, hp, hs⟩ := (c71_system_partial L docFile docFile_clear docValues).1 hr
  have hk := (c71_known_keys L (fun _ => "") docFile docFile_clear).1 docValues d hr hp
  obtain ⟨l, hl, hm⟩ := hp
  cases hl
  simp only [List.mem_singleton, Prod.mk.injEq, true_and] at hm
  rw [hm] at hs hk
  exact ⟨docFile_clear, hs, hk⟩

/-- a misspelt key is refused -/
example (L : Lenient) : parseYamlComponents L (.map [(some "system", .map [(some "component", .seq [])])]) = .error invalid := rfl

/-- connections that are left empty are refused; parameters of a component that are left empty are not -/
example (L : Lenient) : parseYamlComponents L (.map [(some "system", .map [(some "connections", .null)])]) = .error invalid ∧
    parseYamlComponents L (.map [(some "system", .map [(some "components", .seq [.map [(some "id", .str "c"), (some "model", .str "m"),
      (some "parameters", .null)]])])]) = .ok ⟨[], [⟨"c", "m", none, []⟩], []⟩ := ⟨rfl, rfl⟩

/-- other order, other spelling -/
example : Doc.Same (.map [(some "system", .map [(some "nodes", .null), (some "model_libraries", .str "a")])])
    (.map [(some "system", .map [(some "model-libraries", .str "a"), (some "nodes", .null)])]) :=
  .map (.refl _) (.cons (.map (List.Perm.swap _ _ _) (.kebab (k := "model_libraries") (by decide) (.refl _) (.cons (.refl _) .nil))) .nil)

/-- a key that is given twice: the first list of components is lost, here with an error inside it -/
example (L : Lenient) : parseYamlComponents L (.map [(some "system", .map ((some "components", .str "no list") :: docSystem))]) = .ok docValues := by
  unfold parseYamlComponents
  simp only [subscript, lookup, List.reverse_singleton, List.find?_cons, beq_self_eq_true, Option.map_some, ok_bind]
  have := (c71_repeated_key L (fun _ => "") "components" (.str "no list") [] docSystem (by decide)).1
  rw [List.nil_append, List.nil_append] at this
  rw [this]
  rfl

/-! ## C72 -/

/-- a variable with the bounds -20 and 0.25 -/
def docVariable : Entries := [(some "id", .str "x"), (some "lower-bound", .int (-20)), (some "upper_bound", .float (.fin (1 / 4)))]

/-- `c72_bounds_partial` is about variables like this one -/
example (L : Lenient) (num : Num → String) (h : num (.fin (1 / 4)) = "0.25") : ∃ v w a b, readVariable L num (.map docVariable) = .ok v ∧
    toVariable (textParser ["x"] ["p"]) v = .ok w ∧ w.lowerBound = some a ∧ SameValue a (.lit (.fin (-20))) ∧
    w.upperBound = some b ∧ SameValue b (.lit (.fin (1 / 4))) := by
  refine ⟨⟨"x", true, true, some "-20", some (num (.fin (1 / 4))), "continuous"⟩, ?_⟩
  have hr : readVariable L num (.map docVariable) = .ok ⟨"x", true, true, some "-20", some (num (.fin (1 / 4))), "continuous"⟩ := rfl
  have hc : (Doc.map docVariable).Clear := clearB_clear _ (by decide +kernel)
  have hp : PlainNumber (num (.fin (1 / 4))) (.fin (1 / 4)) := by
    rw [h]
    refine ⟨['0'], ['2', '5'], ⟨by simp, by unfold Tok.isDigit; decide, by unfold Tok.isDigit; decide⟩, .inl ⟨by rfl, ?_⟩⟩
    decide +kernel
  obtain ⟨w, a, b, h1, h2, h3, h4, h5⟩ := (c72_bounds_partial L num docVariable hc _ hr ["x"] ["p"] .continuous (by simp)).1 (.fin (-20)) (.fin (1 / 4))
    (.inl ⟨-20, .inl (.tail _ (.head _)), by norm_num⟩) (.inr ⟨.inr (by simp [docVariable]), hp⟩)
  exact ⟨w, a, b, hr, h1, h2, h3, h4, h5⟩

end Verif.Props
