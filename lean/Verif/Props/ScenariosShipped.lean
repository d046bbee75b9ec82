import Verif.Props.ScenariosAny
import Verif.Props.Scenarios

/-!
# C81 for what the command prints, with tiny coefficients in the constraints
-/

namespace Verif.Props
open Verif Verif.Expr Verif.OptCtx Verif.Shipped

/-- a check of `Sure` -/
def sureIn (m : Model) (e : Expr) : Bool := e.subs.all fun y => match y with
  | .par n => ((m.parameters.get? n).map fun p => !p.structure_.scenario).getD false
  | .var _ => false
  | y => !y.isPortRef

/-- a check of `Certain` -/
def certainIn (m : Model) (e : Expr) : Bool := e.subs.all fun y => match y with
  | .par n => ((m.parameters.get? n).map fun p => !p.structure_.scenario).getD false
  | .var n => ((m.variables_.get? n).map fun v => !v.structure_.scenario).getD false
  | y => !y.isPortRef

/-- a check of `PerScenario` -/
def onceIn (m : Model) (e : Expr) : Bool := e.subs.all fun y => !y.isScen && match y with
  | .shift _ k => sureIn m k
  | .evalT _ k => sureIn m k
  | .tsum _ a b => sureIn m a && sureIn m b
  | _ => true

/-- an expectation, or something that does not depend on the scenario -/
def expectedTerm (m : Model) (e : Expr) : Bool := match e with
  | .scen e _ => onceIn m e
  | e => onceIn m e && certainIn m e

/-- a check of `Expected` -/
def expectedIn (m : Model) (e : Expr) : Bool := match e with
  | .add es => es.all (expectedTerm m)
  | e => expectedTerm m e

/-- the variables of `e` have one value for each scenario -/
def chosenIn (m : Model) (e : Expr) : Bool := e.subs.all fun y => match y with
  | .var n => ((m.variables_.get? n).map (·.structure_.scenario)).getD false
  | _ => true

/-- a check of `Separate` for a model -/
def separateModel (m : Model) : Bool :=
  m.variables_.values.all (fun v => v.lowerBound.toList.all (onceIn m) && v.upperBound.toList.all (onceIn m)) &&
  m.allConstraints.all (fun k => onceIn m k.expression) &&
  m.objectives.all (expectedIn m) &&
  m.portFieldsDefinitions.values.all fun d => onceIn m d.definition

/-- a check of `ChosenPerScenario` for a model -/
def chosenModel (m : Model) : Bool :=
  m.variables_.values.all (fun v => v.structure_.scenario && v.lowerBound.toList.all (chosenIn m) && v.upperBound.toList.all (chosenIn m)) &&
  m.allConstraints.all (fun k => chosenIn m k.expression) &&
  m.objectives.all (chosenIn m) &&
  m.portFieldsDefinitions.values.all fun d => chosenIn m d.definition

theorem shipped_separate : ∀ e ∈ shippedModels, separateModel e.2.1 = true := by
  have : (shippedModels.all fun e => separateModel e.2.1) = true := by decide +kernel
  exact List.all_eq_true.1 this

theorem shipped_chosen : ∀ e ∈ shippedModels, (∀ v ∈ e.2.2.variables_, v.2.2 = true) → chosenModel e.2.1 = true := by
  have : (shippedModels.all fun e => !(e.2.2.variables_.all fun v => v.2.2) || chosenModel e.2.1) = true := by decide +kernel
  intro e he h
  have := List.all_eq_true.1 this e he
  rw [List.all_eq_true.2 h] at this
  simpa using this

section
variable {I J : StudyInput} {net : Network} {db db' : DataBase}

theorem model_parIdx (hs : I.Sound) (l : I.Linked net) {c : Component} (hc : c ∈ net.allComponents) {n : String}
    (h : ((c.model.parameters.get? n).map fun p => !p.structure_.scenario).getD false = true) :
    ((I.context net db).parIdx c.id n).scenario = false := by
  have hg : (I.context net db).network.getComponent c.id = .ok c := getComponent_of_mem (l.networkOk db hs) hc
  unfold OptCtx.parIdx
  rw [hg]
  cases hv : Dict.get? c.model.parameters n with
  | none => rw [hv] at h; cases h
  | some v => rw [hv] at h; simpa [hv] using h

theorem model_varIdx (hs : I.Sound) (l : I.Linked net) {c : Component} (hc : c ∈ net.allComponents) {n : String} {b : Bool}
    (h : ((c.model.variables_.get? n).map fun v => v.structure_.scenario == b).getD false = true) :
    ((I.context net db).varIdx c.id n).scenario = b := by
  have hg : (I.context net db).network.getComponent c.id = .ok c := getComponent_of_mem (l.networkOk db hs) hc
  unfold OptCtx.varIdx
  rw [hg]
  cases hv : Dict.get? c.model.variables_ n with
  | none => rw [hv] at h; cases h
  | some v => rw [hv] at h; simpa [hv] using h

theorem sureIn_sure (hs : I.Sound) (l : I.Linked net) {c : Component} (hc : c ∈ net.allComponents) {e : Expr}
    (h : sureIn c.model e = true) : (I.context net db).Sure c.id e := by
  unfold sureIn at h
  rw [List.all_eq_true] at h
  intro y hy
  have := h y hy
  refine ⟨?_, ?_, ?_⟩
  · cases y <;> simp_all [isPortRef]
  · rintro n rfl
    simp at this
  · rintro n rfl
    exact model_parIdx hs l hc this

theorem certainIn_certain (hs : I.Sound) (l : I.Linked net) {c : Component} (hc : c ∈ net.allComponents) {e : Expr}
    (h : certainIn c.model e = true) : (I.context net db).Certain c.id e := by
  unfold certainIn at h
  rw [List.all_eq_true] at h
  intro y hy
  have := h y hy
  refine ⟨?_, ?_, ?_⟩
  · cases y <;> simp_all [isPortRef]
  · rintro n rfl
    refine model_varIdx hs l hc (b := false) ?_
    simpa using this
  · rintro n rfl
    exact model_parIdx hs l hc this

theorem onceIn_per (hs : I.Sound) (l : I.Linked net) {c : Component} (hc : c ∈ net.allComponents) {e : Expr}
    (h : onceIn c.model e = true) : (I.context net db).PerScenario c.id e := by
  unfold onceIn at h
  rw [List.all_eq_true] at h
  simp only [Bool.and_eq_true, Bool.not_eq_true'] at h
  refine ⟨fun y hy => (h y hy).1, fun y k hk => ?_, fun y k hk => ?_, fun y a b hk => ?_⟩
  · exact sureIn_sure hs l hc (h _ hk).2
  · exact sureIn_sure hs l hc (h _ hk).2
  · have := (h _ hk).2
    simp only [Bool.and_eq_true] at this
    exact ⟨sureIn_sure hs l hc this.1, sureIn_sure hs l hc this.2⟩

theorem expectedTerm_expected (hs : I.Sound) (l : I.Linked net) {c : Component} (hc : c ∈ net.allComponents) {e : Expr}
    (h : expectedTerm c.model e = true) : (I.context net db).Expected c.id e := by
  unfold expectedTerm at h
  split at h
  · exact .scen (onceIn_per hs l hc h)
  · rw [Bool.and_eq_true] at h
    exact .certain (onceIn_per hs l hc h.1) (certainIn_certain hs l hc h.2)

theorem expectedIn_expected (hs : I.Sound) (l : I.Linked net) {c : Component} (hc : c ∈ net.allComponents) {e : Expr}
    (h : expectedIn c.model e = true) : (I.context net db).Expected c.id e := by
  unfold expectedIn at h
  split at h
  · exact .add fun e he => expectedTerm_expected hs l hc (List.all_eq_true.1 h e he)
  · exact expectedTerm_expected hs l hc h

theorem fieldDef_mem {q : PortRef} {f : String} {d : Expr} (hd : q.fieldDef f = some d) :
    ∃ z ∈ q.component.model.portFieldsDefinitions.values, z.definition = d := by
  unfold PortRef.fieldDef at hd
  obtain ⟨z, hz, rfl⟩ := Option.map_eq_some_iff.1 hd
  exact ⟨_, List.mem_map.2 ⟨_, Dict.mem_of_get? hz, rfl⟩, rfl⟩

theorem separate_context (hs : I.Sound) (l : I.Linked net) (db : DataBase) : (I.context net db).Separate := by
  have check : ∀ c ∈ net.allComponents, separateModel c.model = true := fun c hc => by
    obtain ⟨ic, -, -, r, hr⟩ := l.rules hc
    exact shipped_separate _ hr
  simp only [separateModel, Bool.and_eq_true, List.all_eq_true] at check
  refine ⟨fun c hc v hv b hb => ?_, fun c hc k hk e he => ?_, fun c hc e he => ?_, fun k hk q f d hq hd => ?_⟩
  · rw [context_variables] at hv
    have := (check c hc).1.1.1 v hv
    rcases hb with hb | hb
    · exact onceIn_per hs l hc (this.1 b (by simp [hb]))
    · exact onceIn_per hs l hc (this.2 b (by simp [hb]))
  · rw [context_constraints] at hk
    have hkk := (l.checked hc).constraint_ok hk
    have lit : ∀ v, (I.context net db).PerScenario c.id (.lit v) := fun v => onceIn_per hs l hc (by simp [onceIn, subs, isScen])
    rcases he with rfl | rfl | rfl
    · exact onceIn_per hs l hc ((check c hc).1.1.2 k hk)
    · obtain ⟨v, hv⟩ := (isBoundLit_ok hkk.2.2.1).2
      rw [hv]; exact lit v
    · obtain ⟨v, hv⟩ := (isBoundLit_ok hkk.2.2.2).2
      rw [hv]; exact lit v
  · rw [context_contributions] at he
    exact expectedIn_expected hs l hc ((check c hc).1.2 e he)
  · have hcl := l.closed (db := db) hs k hk
    have hc : q.component ∈ net.allComponents := by
      rcases hq with rfl | rfl
      · exact hcl.1
      · exact hcl.2
    obtain ⟨z, hz, rfl⟩ := fieldDef_mem hd
    exact onceIn_per hs l hc ((check _ hc).2 z hz)

theorem chosenIn_chosen (hs : I.Sound) (l : I.Linked net) {c : Component} (hc : c ∈ net.allComponents) {e : Expr}
    (h : chosenIn c.model e = true) {n : String} (hn : .var n ∈ e.subs) : ((I.context net db).varIdx c.id n).scenario = true := by
  refine model_varIdx hs l hc (b := true) ?_
  have := List.all_eq_true.1 h _ hn
  simpa using this

theorem chosen_context (hch : I.ChosenPerScenario) (hs : I.Sound) (l : I.Linked net) (db : DataBase) : (I.context net db).ChosenPerScenario := by
  have check : ∀ c ∈ net.allComponents, chosenModel c.model = true := fun c hc => by
    obtain ⟨ic, hic, -, r, hr⟩ := l.rules hc
    exact shipped_chosen _ hr (hch ic hic r (shippedModels_ok _ hr).1)
  simp only [chosenModel, Bool.and_eq_true, List.all_eq_true] at check
  refine ⟨fun c hc v hv => ?_, fun c hc e he n hn => ?_⟩
  · rw [context_variables] at hv
    exact ((check c hc).1.1.1 v hv).1.1
  · cases he with
    | @bound v b hv hb =>
      rw [context_variables] at hv
      have := (check c hc).1.1.1 v hv
      rcases hb with hb | hb
      · exact chosenIn_chosen hs l hc (this.1.2 e (by simp [hb])) hn
      · exact chosenIn_chosen hs l hc (this.2 e (by simp [hb])) hn
    | @constraint k e hk he =>
      rw [context_constraints] at hk
      have hkk := (l.checked hc).constraint_ok hk
      rcases he with rfl | rfl | rfl
      · exact chosenIn_chosen hs l hc ((check c hc).1.1.2 k hk) hn
      · obtain ⟨v, hv⟩ := (isBoundLit_ok hkk.2.2.1).2
        rw [hv] at hn; simp [subs] at hn
      · obtain ⟨v, hv⟩ := (isBoundLit_ok hkk.2.2.2).2
        rw [hv] at hn; simp [subs] at hn
    | objective he =>
      rw [context_contributions] at he
      exact chosenIn_chosen hs l hc ((check c hc).1.2 e he) hn
    | @port k q f d hk hq hqc hd =>
      obtain ⟨z, hz, rfl⟩ := fieldDef_mem hd
      subst hqc
      exact chosenIn_chosen hs l hc ((check _ hc).2 z hz) hn

theorem sureBounds_context (l : I.Linked net) (db : DataBase) : (I.context net db).SureBounds := by
  intro c hc k hk _ b hb σ t s _ _
  rw [context_constraints] at hk
  have hkk := (l.checked hc).constraint_ok hk
  obtain ⟨v, rfl⟩ : ∃ v, b = .lit v := by
    rcases hb with rfl | rfl
    · exact (isBoundLit_ok hkk.2.2.1).2
    · exact (isBoundLit_ok hkk.2.2.2).2
  cases v <;> simp [mden]

theorem inScenario_linked {k : Nat} (h : I.InScenario k J) (l : I.Linked net) : J.Linked net := by
  refine ⟨?_, l.keyed, ?_⟩
  · rw [h.declared]
    exact l.comps
  · rw [h.system]
    exact l.conns

theorem inScenario_context {k : Nat} (h : I.InScenario k J) (hs : I.Sound) (hs' : J.Sound) (l : I.Linked net)
    (hdb : buildDataBase I.load I.system = .ok db) (hdb' : buildDataBase J.load J.system = .ok db') :
    (I.context net db).InScenario k (J.context net db') where
  network := rfl
  length := congrArg List.length h.steps
  scenarios := h.scenarios
  strategy := rfl
  risk := rfl
  data c hc n t := by
    have e1 := (inScenario_linked h l).dataValue_eq hs' hdb' hc n t 0 le_rfl
    have e2 := l.dataValue_eq hs hdb hc n t k (Int.natCast_nonneg k)
    exact e1.trans ((h.parameter hs.block c.id n t).trans e2.symm)

end

/-- **C81 (partial), the command.** A command with several scenarios, and for each scenario a command with this scenario alone.  All end without an
error.  If no coefficient of the costs is tiny, then: the cost of the first is never below the average of the costs of the others; and when all
choices depend on the scenario, the first prints status 0 exactly when all the others do, and it prints the average of their costs.

Partial: tiny coefficients of the costs, for which this is false (`c81_tiny_prices`).  Those of the constraints may be tiny. -/
theorem c81_command_partial (solve : Solver → Answer) (hsolve : RightSolver solve) (os : Nat → SetOrder) (ho : ∀ i, (os i).Valid) (fuel : Nat)
    (d : Disk) (f : CliFlags) {paths : List String} {comp : String} {tables : Option String} {ls : List InputLibrary} {s : InputSystem}
    (h : ShippedCommand d f paths comp tables ls s) (hfuel : 3 * ls.length + 2 ≤ fuel)
    (d' : Nat → Disk) (f' : Nat → CliFlags) {paths' : Nat → List String} {comp' : Nat → String} {tables' : Nat → Option String}
    {ls' : Nat → List InputLibrary}
    (h' : ∀ w < f.scenario, ShippedCommand (d' w) (f' w) (paths' w) (comp' w) (tables' w) (ls' w) s ∧ 3 * (ls' w).length + 2 ≤ fuel ∧
      (d.study s tables f).InScenario w ((d' w).study s (tables' w) (f' w))) :
    ∃ o, mainOutput solve textParser os fuel d f = some (.ok o) ∧
    ∃ os' : Nat → Printed, (∀ w < f.scenario, mainOutput solve textParser os fuel (d' w) (f' w) = some (.ok (os' w))) ∧
      (PricesKeptRun textParser os fuel d f → (∀ w < f.scenario, PricesKeptRun textParser os fuel (d' w) (f' w)) →
        (o.status = 0 → (∀ w < f.scenario, (os' w).status = 0) → average f.scenario (fun w => (os' w).cost) ≤ o.cost) ∧
        ((d.study s tables f).ChosenPerScenario → (o.status = 0 ↔ ∀ w < f.scenario, (os' w).status = 0) ∧
          (o.status = 0 → o.cost = average f.scenario fun w => (os' w).cost))) := by
  obtain ⟨libs, sys, net, db, o, ⟨c1, c2, c3⟩, l1, b1, h1, s1, -⟩ := shipped_run hsolve ho h hfuel
  have hall : ∀ w, ∃ (o' : Printed) (db' : DataBase), w < f.scenario →
      mainOutput solve textParser os fuel (d' w) (f' w) = some (.ok o') ∧
      buildDataBase ((d' w).study s (tables' w) (f' w)).load ((d' w).study s (tables' w) (f' w)).system = .ok db' ∧
      o'.Says (((d' w).study s (tables' w) (f' w)).context net db').KeptFeasible (((d' w).study s (tables' w) (f' w)).context net db').keptCost ∧
      (PricesKeptRun textParser os fuel (d' w) (f' w) → (((d' w).study s (tables' w) (f' w)).context net db').PricesKept) := by
    intro w
    by_cases hw : w < f.scenario
    · obtain ⟨q1, q2, q3⟩ := h' w hw
      obtain ⟨libs', sys', net', db', o', ⟨c1', c2', c3'⟩, l2, b2, h2, s2, -⟩ := shipped_run hsolve ho q1 q2
      have l3 := inScenario_linked q3 l1
      have hsame : s.Renamed (fun n => n) s := rearranged_refl s
      have hren := renamed_networks hsame (renamed_part (I := (d' w).study s (tables' w) (f' w)) hsame) q1.sound q1.sound q1.joins l3 l2 b2 b2
      have hren' := renamed_networks hsame (renamed_part (I := (d' w).study s (tables' w) (f' w)) hsame) q1.sound q1.sound q1.joins l2 l3 b2 b2
      have key := renamed_leastCost hren (fun _ _ ha => renamed_net_kept hren (l3.networkOk db' q1.sound) (l2.networkOk db' q1.sound)
        (l3.closed q1.sound) l3.ownSymbols ha)
      refine ⟨o', db', fun _ => ⟨h2, b2, ⟨?_, fun h0 => (key _).1 (s2.least h0)⟩, fun hq' => ?_⟩⟩
      · rw [s2.solved]
        exact exists_congr fun c => key c
      · have q' : (((d' w).study s (tables' w) (f' w)).context net' db').PricesKept :=
          hq' _ _ _ _ _ _ _ _ _ q1.names q1.read c1' q1.system c2' c3' b2
        intro c hc e he
        obtain ⟨c', hc', rfl⟩ := List.mem_map.1 (hren'.components.symm.subset hc)
        rw [context_contributions] at he
        exact (renamed_net_part hren').noTiny (l2.networkOk db' q1.sound) (l3.networkOk db' q1.sound) (l2.closed q1.sound) hc'
          ((l2.checked hc').objective_ok he).2.2.1 0 0 le_rfl (q' c' hc' e (by rw [context_contributions]; exact he))
    · exact ⟨⟨0, 0⟩, db, fun q => absurd q hw⟩
  choose o' db' ho' using hall
  refine ⟨o, h1, o', fun w hw => (ho' w hw).1, fun hq hq' => ?_⟩
  have q : ((d.study s tables f).context net db).PricesKept := hq _ _ _ _ _ _ _ _ _ h.names h.read c1 h.system c2 c3 b1
  obtain ⟨-, hbound, hav⟩ := (c81_kept _ (l1.networkOk db h.sound) (l1.closed h.sound) l1.ownSymbols (separate_context h.sound l1 db)
    (sureBounds_context l1 db) h.sound.scenarios (fun w => ((d' w).study s (tables' w) (f' w)).context net (db' w))
    (fun w hw => inScenario_context (h' w hw).2.2 h.sound (h' w hw).1.sound l1 b1 (ho' w hw).2.1)).2 q fun w hw => (ho' w hw).2.2.2 (hq' w hw)
  have sy' := fun w hw => (ho' w hw).2.2.1
  refine ⟨fun h0 h0' => hbound _ _ (s1.least h0) fun w hw => (sy' w hw).least (h0' w hw), fun hch => ?_⟩
  have hav := hav (chosen_context hch h.sound l1 db)
  have hst : o.status = 0 ↔ ∀ w < f.scenario, (o' w).status = 0 := by
    rw [s1.solved]
    constructor
    · rintro ⟨c, hc⟩ w hw
      obtain ⟨cs, q, -⟩ := (hav c).1 hc
      exact (sy' w hw).solved.2 ⟨_, q w hw⟩
    · intro q
      exact ⟨_, (hav _).2 ⟨fun w => (o' w).cost, fun w hw => (sy' w hw).least (q w hw), rfl⟩⟩
  refine ⟨hst, fun h0 => ?_⟩
  exact leastCost_unique (s1.least h0) ((hav _).2 ⟨fun w => (o' w).cost, fun w hw => (sy' w hw).least (hst.1 h0 w hw), rfl⟩)

end Verif.Props
