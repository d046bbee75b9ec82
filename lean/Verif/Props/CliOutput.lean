import Verif.Spec.CliOutput
import Verif.Props.TablesExamples
import Verif.Props.Output

/-!
# C76: the printed status and cost
-/

namespace Verif.Props
open Verif Verif.Doc Verif.Shipped

theorem LeastCost.transfer {α β : Type} {A : α → Prop} {ca : α → ℚ} {B : β → Prop} {cb : β → ℚ}
    (h1 : ∀ a, A a → ∃ b, B b ∧ cb b = ca a) (h2 : ∀ b, B b → ∃ a, A a ∧ ca a = cb b) {c : ℚ} (h : LeastCost A ca c) : LeastCost B cb c := by
  obtain ⟨⟨a, ha, rfl⟩, hm⟩ := h
  obtain ⟨b, hb, e⟩ := h1 a ha
  refine ⟨⟨b, hb, e⟩, fun y hy => ?_⟩
  obtain ⟨a', ha', e'⟩ := h2 y hy
  rw [← e']
  exact hm a' ha'

/-- different instances of variables have different columns -/
theorem build_columns_inj {x : OptCtx} {st : OptState} (h : x.buildProblem = .ok st) {k k' : TermKey} {i : Nat}
    (e : st.columns.get? k = some i) (e' : st.columns.get? k' = some i) : k = k' := by
  obtain ⟨ports, st1, st2, hreg, h1, h2, h3⟩ := build_phases h
  have hr2 := createConstraints_keep h2
  have hr3 : st.columns = st2.columns := by
    refine loop_inv (fun s => s.columns = st2.columns) _ (fun s1 s2 c _ hp hs =>
      loop_inv (fun s => s.columns = st2.columns) _ (fun s1 s2 o _ hp hs => ?_) s1 s2 hp hs)
      st2 st rfl h3
    cases o with
    | none => cases hs; exact hp
    | some e =>
      simp only [OptCtx.createObjectiveOf, OptCtx.createObjective, bind_ok_iff] at hs
      obtain ⟨_, _, _, _, l, _, s3, hs3, hs⟩ := hs
      cases hs
      obtain ⟨a, b, -⟩ := objectiveTerms_inv l.terms.values s1 s3 hs3
      exact b.trans hp
  rw [hr3, hr2.2.1] at e e'
  let P : OptState → Prop := fun s => (∀ k i, s.columns.get? k = some i → i < s.solver.vars.length) ∧
    ∀ k k' i, s.columns.get? k = some i → s.columns.get? k' = some i → k = k'
  have hP : P st1 := by
    refine loop_inv P _ (fun s1 s2 c _ h1 h2 =>
      loop_inv P _ (fun s1 s2 v _ h1 h2 => ?_) s1 s2 h1 h2) _ st1 ⟨by simp [Dict.get?], by simp [Dict.get?]⟩ h1
    unfold OptCtx.createVariablesOf at h2
    simp only [bind_ok_iff] at h2
    obtain ⟨lb, _, ub, _, h2⟩ := h2
    refine loop_inv P _ (fun s1 s2 ts _ h1 h2 => ?_) s1 s2 h1 h2
    unfold OptCtx.createVariable at h2
    simp only [bind_ok_iff] at h2
    obtain ⟨lo, _, up, _, h2⟩ := h2
    split_ifs at h2
    cases h2
    obtain ⟨hlt, hinj⟩ := h1
    simp only [P, OptState.register, OptState.addColumn, Dict.get?_set, List.length_append, List.length_singleton]
    refine ⟨fun k i hk => ?_, fun k k' i hk hk' => ?_⟩
    · split_ifs at hk
      · cases hk; omega
      · have := hlt k i hk; omega
    · split_ifs at hk hk' with q q' q'
      · exact q.symm.trans q'
      · cases hk; have := hlt _ _ hk'; omega
      · cases hk'; have := hlt _ _ hk; omega
      · exact hinj k k' i hk hk'
  exact hP.2 k k' i e e'

/-- a point of the solver for values of the variables -/
theorem build_point {x : OptCtx} {st : OptState} (h : x.buildProblem = .ok st) (σ : TermKey → ℚ) :
    ∃ pt : Nat → ℚ, ∀ k i, st.columns.get? k = some i → pt i = σ k := by
  classical
  refine ⟨fun i => if hk : ∃ k, st.columns.get? k = some i then σ hk.choose else 0, fun k i hk => ?_⟩
  have hex : ∃ k, st.columns.get? k = some i := ⟨k, hk⟩
  simp only [hex, dif_pos]
  rw [build_columns_inj h hex.choose_spec hk]

/-- What the solver answers for a problem that was built, for values of the variables in place of points. -/
theorem answer_says {solve : Solver → Answer} (hs : RightSolver solve) {x : OptCtx} {st : OptState} (h : x.buildProblem = .ok st)
    {α : Type} {allowed : α → Prop} {cost : α → ℚ} (of : (TermKey → ℚ) → α)
    (hval : ∀ a, allowed a → ∃ σ, allowed (of σ) ∧ cost (of σ) = cost a)
    (hm : ∀ (pt : Nat → ℚ) (σ : TermKey → ℚ), (∀ k i, st.columns.get? k = some i → pt i = σ k) →
      (st.solver.Feasible pt ↔ allowed (of σ)) ∧ st.solver.cost pt = cost (of σ)) :
    (printAnswer (solve st.solver)).Says allowed cost ∧
      ((∀ a, ¬ allowed a) → (printAnswer (solve st.solver)).cost = 0) := by
  have f1 : ∀ pt, st.solver.Feasible pt → ∃ a, allowed a ∧ cost a = st.solver.cost pt := by
    intro pt hpt
    have := hm pt (fun k => ((st.columns.get? k).map pt).getD 0) fun k i hk => by simp only [hk]; rfl
    exact ⟨_, this.1.1 hpt, this.2.symm⟩
  have f2 : ∀ a, allowed a → ∃ pt, st.solver.Feasible pt ∧ st.solver.cost pt = cost a := by
    intro a ha
    obtain ⟨σ, h1, h2⟩ := hval a ha
    obtain ⟨pt, hpt⟩ := build_point h σ
    have := hm pt σ hpt
    exact ⟨pt, this.1.2 h1, this.2.trans h2⟩
  refine ⟨⟨(hs.optimal st.solver).trans ⟨?_, ?_⟩, fun h0 => LeastCost.transfer f1 f2 (hs.value _ h0)⟩, fun hno => hs.nothing _ fun pt hpt => ?_⟩
  · rintro ⟨c, hc⟩
    exact ⟨c, LeastCost.transfer f1 f2 hc⟩
  · rintro ⟨c, hc⟩
    exact ⟨c, LeastCost.transfer f2 f1 hc⟩
  · obtain ⟨a, ha, -⟩ := f1 pt hpt
    exact hno a ha

theorem mainOutput_built {solve : Solver → Answer} {parser : Parser} {os : Nat → SetOrder} {fuel : Nat} {d : Disk} {f : CliFlags}
    {p : OptState} (h : mainCli parser os fuel d f = some (.ok p)) :
    mainOutput solve parser os fuel d f = some (.ok (printAnswer (solve p.solver))) ∧ ∃ x : OptCtx, x.buildProblem = .ok p := by
  refine ⟨by unfold mainOutput; rw [h], ?_⟩
  obtain ⟨a, ls, libs, ha, h1, h2, h3, h4⟩ := mainCli_ok.1 h
  unfold runCli at h4
  simp only [bind_ok_iff] at h4
  obtain ⟨_, _, _, _, _, _, _, _, _, _, h4⟩ := h4
  exact ⟨_, h4⟩

/-- **C76 (partial), shipped libraries.** Take a command naming distinct files among the shipped libraries, in any order, and a system file
and tables that make a complete study.  The command ends without an error.  If no coefficient of the problem is smaller than `1e-16`, the
status that it prints is 0 exactly when the study has a best solution, and the cost that it prints is then the least cost of the study.

Partial: tiny coefficients (see `c35_tiny_coefficient`); and a cost is printed even without a solution (see `c76_no_solution`). -/
theorem c76_shipped_partial (solve : Solver → Answer) (hsolve : RightSolver solve) (os : Nat → SetOrder) (ho : ∀ i, (os i).Valid)
    (fuel : Nat) (d : Disk) (f : CliFlags) {paths : List String}
    {comp : String} {tables : Option String} (hn : Names d f paths comp tables) {ls : List InputLibrary} (hr : ReadAs d paths ls)
    (hnd : (ls.map (·.id)).Nodup) (hls : ∀ l ∈ ls, l ∈ [antaresInput, andromedeInput, pypsaInput]) {s : InputSystem}
    (hs : d.system comp = .ok s) (hI : (d.study s tables f).Sound)
    (hc : ∀ libs, (∀ l ∈ ls, (Dict.get? libs l.id).isSome = true) → (d.study s tables f).Complete libs)
    (hfuel : 3 * ls.length + 2 ≤ fuel) :
    ∃ libs sys net db o, resolveLibrary textParser os fuel ls = some (.ok libs) ∧ resolveSystem s libs = .ok sys ∧
      buildNetwork sys = .ok net ∧ buildDataBase (d.study s tables f).load s = .ok db ∧
      mainOutput solve textParser os fuel d f = some (.ok o) ∧
      ((∀ c ∈ net.allComponents, (∀ k ∈ c.model.allConstraints, ∀ t s : Nat, t < f.duration → s < f.scenario →
          (cliContext ⟨paths, comp, tables, f.duration, f.scenario⟩ net db).NoTiny c k.expression t s) ∧
          ∀ e ∈ c.model.objectives, (cliContext ⟨paths, comp, tables, f.duration, f.scenario⟩ net db).NoTiny c e 0 0) →
        o.Says (d.study s tables f).Accepts (d.study s tables f).cost) := by
  obtain ⟨libs, sys, net, db, st, h1, h2, h3, h4, h5, h6⟩ := c66_shipped_partial os ho fuel d f hn hr hnd hls hs hI hc hfuel
  obtain ⟨e, x, hx⟩ := mainOutput_built (solve := solve) h5
  exact ⟨libs, sys, net, db, _, h1, h2, h3, h4, e, fun ht => (answer_says hsolve hx id (fun a ha => ⟨a, ha, rfl⟩) (h6 ht)).1⟩

/-- **C76 (partial), from an Antares study to the printed cost.** Convert the study that the texts on the disk make, write the new tables and
the system file, and run the command line on these files and on the shipped libraries.  The command ends without an error; the status that
it prints is 0 exactly when there is a best plan for the study, and the cost that it prints is then the least cost of a plan.

Partial: what is missing in `c74_antares_problem_partial`; and a cost is printed even without a plan (see `c76_no_solution`). -/
theorem c76_antares_partial (solve : Solver → Answer) (hsolve : RightSolver solve)
    (st : AStudy) (N : NumberText) (hN : N.Faithful) (eol : List Char) (he : IsLinesep eol)
    (texts : String → Option (List Char)) (B : List (AArea × BatteryData)) (T S : Nat) (period : Option Int)
    (pre : Dict String Num) (h : st.Supported (readFile N texts) B T S period) (hkept : st.KeptData B T S)
    (hfirst : ∀ a c, .thermal a c ∈ st.objects → T ≤ comparedPeriod period ∧ c.units (T - 1) 0 = c.units 0 0)
    (hh : SeriesHaveHours st) (hst : AbsoluteName st.path) (hd : ∀ f a c s, AbsoluteName (st.seriesDir f a c s))
    (L : Lenient) (os : Nat → SetOrder) (ho : ∀ i, (os i).Valid) (fuel : Nat) :
    ∃ sys files, convertStudy st batteryTemplate period pre = .ok (sys, files) ∧
      ∀ (inst : SetSystem), inst.values = sys → ∀ (d : Disk) (f : CliFlags) (paths : List String) (comp dir : String) (ls : List InputLibrary),
        Names d f paths comp (some dir) → ReadAs d paths ls → (ls.map (·.id)).Nodup →
        (∀ l ∈ ls, l ∈ [antaresInput, andromedeInput, pypsaInput]) → antaresInput ∈ ls → (B ≠ [] → andromedeInput ∈ ls) →
        3 * ls.length + 2 ≤ fuel → d.system comp = parseYamlComponents L (transformToYaml inst) →
        d.table dir = loadText N (writeTables N eol files texts) dir → f.duration = T → f.scenario = S →
        ∃ o, mainOutput solve textParser os fuel d f = some (.ok o) ∧
          o.Says (st.Admits (readFile N texts) B T S) (st.planCost B T S) := by
  obtain ⟨sys, files, ok, g⟩ := c74_antares_problem_partial st N hN eol he texts B T S period pre h hkept hfirst hh hst hd L os ho fuel
  refine ⟨sys, files, ok, fun inst hi d f paths comp dir ls a1 a2 a3 a4 a5 a6 a7 a8 a9 a10 a11 => ?_⟩
  obtain ⟨p, h5, h6⟩ := g inst hi d f paths comp dir ls a1 a2 a3 a4 a5 a6 a7 a8 a9 a10 a11
  obtain ⟨e, x, hx⟩ := mainOutput_built (solve := solve) h5
  exact ⟨_, e, (answer_says hsolve hx aPlanOf (fun a ha => ⟨planValues a, ha, rfl⟩) fun pt σ hσ => (h6 pt σ hσ).1).1⟩

/-- **C76 (partial), from a PyPSA network to the printed cost.** Convert the network, write its series and the system file, and run the
command line on these files.  The command ends without an error; the status that it prints is 0 exactly when there is a best plan for the
network, and the cost that it prints is then the least cost of a plan.

Partial: what is missing in `c74_pypsa_problem_partial`; and a cost is printed even without a plan (see `c76_no_solution`). -/
theorem c76_pypsa_partial (solve : Solver → Answer) (hsolve : RightSolver solve) (pf : String → Option Num) (n : PNetwork) (N : NumberText)
    (hN : N.Faithful) (eol : List Char)
    (he : IsLinesep eol) (texts : String → Option (List Char)) (T : Nat) (ht : n.Tables) (hk : SupportedKind n) (hc : Convertible pf n)
    (hd : DistinctNames n) (hb : BusesExist n) (hs : SeriesExist n) (hv : n.SoundData pf T) (hst : n.StorageUnitsFixed pf T)
    (hkept : n.KeptData pf T) (L : Lenient) (os : Nat → SetOrder) (ho : ∀ i, (os i).Valid) (fuel : Nat) :
    ∃ s, pypsaConvert pf n = .ok s ∧
      ∀ (inst : SetSystem), inst.values = s.system → ∀ (d : Disk) (f : CliFlags) (paths : List String) (comp dir : String) (ls : List InputLibrary),
        Names d f paths comp (some dir) → ReadAs d paths ls → (ls.map (·.id)).Nodup →
        (∀ l ∈ ls, l ∈ [antaresInput, andromedeInput, pypsaInput]) → pypsaInput ∈ ls →
        3 * ls.length + 2 ≤ fuel → d.system comp = parseYamlComponents L (transformToYaml inst) →
        d.table dir = loadText N (writeColumns N eol dir s.files texts) dir → f.duration = T → f.scenario = 1 →
        ∃ o, mainOutput solve textParser os fuel d f = some (.ok o) ∧ o.Says (n.Admits pf T) (n.planCost pf T) := by
  obtain ⟨s, ok, g⟩ := c74_pypsa_problem_partial pf n N hN eol he texts T ht hk hc hd hb hs hv hst hkept L os ho fuel
  refine ⟨s, ok, fun inst hi d f paths comp dir ls a1 a2 a3 a4 a5 a7 a8 a9 a10 a11 => ?_⟩
  obtain ⟨p, h5, h6⟩ := g inst hi d f paths comp dir ls a1 a2 a3 a4 a5 a7 a8 a9 a10 a11
  obtain ⟨e, x, hx⟩ := mainOutput_built (solve := solve) h5
  exact ⟨_, e, (answer_says hsolve hx planOf (fun a ha => by
    obtain ⟨σ, hσ⟩ := exists_values hd a
    exact ⟨σ, (shipped_limits hst _).1 (hσ.symm.shipped ((shipped_limits hst _).2 ha)), hσ.cost pf T⟩) fun pt σ hσ => (h6 pt σ hσ).1).1⟩

/-- **C76, no solution.** When the problem handed to the solver has no solution, the command still ends without an error, and prints a cost:
the cost 0, with a status that is not 0. -/
theorem c76_no_solution (solve : Solver → Answer) (hsolve : RightSolver solve) (parser : Parser) (os : Nat → SetOrder) (fuel : Nat) (d : Disk)
    (f : CliFlags) (p : OptState) (h : mainCli parser os fuel d f = some (.ok p)) (hno : ∀ pt, ¬ p.solver.Feasible pt) :
    ∃ o, mainOutput solve parser os fuel d f = some (.ok o) ∧ o.cost = 0 ∧ o.status ≠ 0 := by
  refine ⟨_, (mainOutput_built h).1, hsolve.nothing _ hno, fun h0 => ?_⟩
  obtain ⟨c, ⟨pt, hpt, -⟩, -⟩ := (hsolve.optimal p.solver).1 h0
  exact hno pt hpt

/-- **C76, errors.** The command prints nothing exactly when it ends in an error before the solver, with this error. -/
theorem c76_error (solve : Solver → Answer) (parser : Parser) (os : Nat → SetOrder) (fuel : Nat) (d : Disk) (f : CliFlags) (e : Err) :
    mainOutput solve parser os fuel d f = some (.error e) ↔ mainCli parser os fuel d f = some (.error e) := by
  unfold mainOutput
  rcases mainCli parser os fuel d f with _ | _ | _ <;> simp

/-! ## Examples -/

open Classical in
/-- a right solver -/
noncomputable def idealSolver (sv : Solver) : Answer :=
  if h : ∃ c, LeastCost sv.Feasible sv.cost c then ⟨0, h.choose⟩ else ⟨2, 0⟩

theorem idealSolver_right : RightSolver idealSolver where
  optimal sv := by
    unfold idealSolver
    split_ifs with h <;> simp [h]
  value sv h0 := by
    unfold idealSolver at h0 ⊢
    split_ifs at h0 ⊢ with h
    exact h.choose_spec
  nothing sv hno := by
    unfold idealSolver
    rw [dif_neg]
    rintro ⟨c, ⟨pt, hpt, -⟩, -⟩
    exact hno pt hpt

/-- the command on the files of `cliDemoDisk` -/
example : ∃ o, mainOutput idealSolver textParser (fun _ => firstOrder) 8 cliDemoDisk cliDemoFlags = some (.ok o) := by
  obtain ⟨_, _, _, _, o, _, _, _, _, h, _⟩ := c76_shipped_partial idealSolver idealSolver_right (fun _ => firstOrder)
    (fun _ => firstOrder_valid) 8 cliDemoDisk cliDemoFlags cliDemo_names cliDemo_read (by decide)
    (by simp) rfl cliDemo_sound cliDemo_complete (Nat.le_refl _)
  exact ⟨o, h⟩

/-- the command on the files of an Antares study -/
example (L : Lenient) (num : Num → String) : ∃ sys files o, convertStudy demoA batteryTemplate none [] = .ok (sys, files) ∧
    mainOutput idealSolver textParser (fun _ => firstOrder) 8
      (docDisk L num sys (loadText fractionText (writeTables fractionText ['\n'] files demoTexts) "elsewhere"))
      { models := ["antares", "andromede"], component := some "output.yaml", timeseries := some "elsewhere", duration := 2 } = some (.ok o) ∧
    o.Says (demoA.Admits (readFile fractionText demoTexts) [(demoFr, demoBattery)] 2 1) (demoA.planCost [(demoFr, demoBattery)] 2 1) := by
  obtain ⟨sys, files, h1, h2⟩ := c76_antares_partial idealSolver idealSolver_right demoA fractionText fractionText_faithful ['\n'] (.inl rfl)
    demoTexts [(demoFr, demoBattery)] 2 1 none [] (by rw [demoTexts_read]; exact demo_supported) demo_kept (by
    rw [demo_objects]
    intro a c h
    simp only [List.mem_cons, List.not_mem_nil, or_false, reduceCtorEq, AObject.thermal.injEq] at h
    obtain ⟨-, rfl⟩ := h
    decide +kernel) demo_hours (by unfold AbsoluteName; decide)
    (fun f a c s => absolute_append (absolute_append (absolute_append (absolute_append (absolute_append (absolute_append
      (show AbsoluteName "/study/input/" by unfold AbsoluteName; decide)))))))
    L (fun _ => firstOrder) (fun _ => firstOrder_valid) 8
  obtain ⟨o, hp, ho⟩ := h2 (allSet sys) (allSet_values sys)
    (docDisk L num sys (loadText fractionText (writeTables fractionText ['\n'] files demoTexts) "elsewhere"))
    { models := ["antares", "andromede"], component := some "output.yaml", timeseries := some "elsewhere", duration := 2 }
    _ _ _ [antaresInput, andromedeInput] (.files rfl (by simp) rfl) (.cons (c71_shipped L num).1 (.cons (c71_shipped L num).2.1 .nil))
    (by decide) (by simp) (by simp) (by simp) (by decide) rfl rfl rfl rfl
  exact ⟨sys, files, o, h1, hp, ho⟩

/-- the command on the files of a PyPSA network -/
example (L : Lenient) (num : Num → String) : ∃ s o, pypsaConvert noText demoNet = .ok s ∧
    mainOutput idealSolver textParser (fun _ => firstOrder) 8
      (docDisk L num s.system (loadText fractionText (writeColumns fractionText ['\r', '\n'] "series" s.files fun _ => none) "series"))
      { models := ["pypsa"], component := some "study.yml", timeseries := some "series", duration := 2 } = some (.ok o) ∧
    o.Says (demoNet.Admits noText 2) (demoNet.planCost noText 2) := by
  obtain ⟨s, h1, h2⟩ := c76_pypsa_partial idealSolver idealSolver_right noText demoNet fractionText fractionText_faithful ['\r', '\n'] (.inr rfl)
    (fun _ => none) 2 (exNetwork_tables _ _ _) (unitNet_accepted false).1
    (unitNet_accepted false).2 (unitNet_names _) (unitNet_buses _) (unitNet_series _) (unitNet_sound _) demoNet_storage (unitNet_kept _)
    L (fun _ => firstOrder) (fun _ => firstOrder_valid) 8
  obtain ⟨o, hp, h3⟩ := h2 (allSet s.system) (allSet_values _)
    (docDisk L num s.system (loadText fractionText (writeColumns fractionText ['\r', '\n'] "series" s.files fun _ => none) "series"))
    { models := ["pypsa"], component := some "study.yml", timeseries := some "series", duration := 2 }
    _ _ _ [pypsaInput] (.files rfl (by simp) rfl) (.cons (c71_shipped L num).2.2 .nil)
    (by decide) (by simp) (by simp) (by decide) rfl rfl rfl rfl
  exact ⟨s, o, h1, hp, h3⟩

/-! ## A cost that no plan has -/

theorem outage_balanced : outageStudy.balanced = [outageFr] := by
  unfold AStudy.balanced
  rw [outage_values]
  simp [outageFr]

theorem outage_planCost (x : APlan) : outageStudy.planCost [] 2 1 x = 10 * x "fr" "spillage" 0 0 + 1000 * x "fr" "unsupplied_energy" 0 0 +
    (10 * x "fr" "spillage" 1 0 + 1000 * x "fr" "unsupplied_energy" 1 0) := by
  have hcost : ∀ t, outageStudy.costAt [] x t 0 = 10 * x "fr" "spillage" t 0 + 1000 * x "fr" "unsupplied_energy" t 0 := by
    intro t
    unfold AStudy.costAt
    rw [outage_balanced, outage_objects]
    have e : outageGas.marginalCost.toQ = 0 ∧ outageGas.startupCost.toQ = 0 ∧ outageGas.fixedCost.toQ = 0 := by decide +kernel
    have e' : outageFr.energyCostSpilled.toQ = 10 ∧ outageFr.energyCostUnsupplied.toQ = 1000 := by decide +kernel
    have e'' : outageFr.id = "fr" := rfl
    simp [AObject.cost, AThermal.cost, e.1, e.2.1, e.2.2, e'.1, e'.2, e'']
  unfold AStudy.planCost
  simp [Finset.sum_range_succ, hcost]

theorem outage_cost {x : APlan} (h : outageStudy.Admits outageDisk [] 2 1 x) : 500 ≤ outageStudy.planCost [] 2 1 x := by
  have hmem : AObject.thermal outageFr outageGas ∈ outageStudy.objects := by rw [outage_objects]; exact List.mem_singleton.2 rfl
  have hgen : (50 : ℚ) ≤ x "gas" "generation" 1 0 := by
    have h1 : outageGas.Ok 2 _ (x "gas") 1 0 := h.objects _ hmem 1 (by omega) 0 (by omega)
    exact le_trans (by decide +kernel) h1.power.1
  have ha : ∀ t < 2, _ := fun t ht => h.areas outageFr (by rw [outage_balanced]; exact List.mem_singleton.2 rfl) t ht 0 (by omega)
  obtain ⟨a1, a2, -⟩ := ha 0 (by omega)
  obtain ⟨b1, b2, b3⟩ := ha 1 (by omega)
  have hrec : outageStudy.receives outageDisk [] x outageFr.id 1 0 = x "gas" "generation" 1 0 := by
    unfold AStudy.receives
    rw [outage_objects]
    simp [AObject.brings, outageFr, outageGas]
  rw [hrec] at b3
  rw [outage_planCost]
  have e : outageFr.id = "fr" := rfl
  rw [e] at a1 a2 b1 b2 b3
  linarith

/-- **C76, violation.** There is a study that can be operated, for 500 and never for less: for the files that the converter makes of it, the
command ends without an error and prints that the cost is 0. -/
theorem c76_cost_of_nothing (solve : Solver → Answer) (hsolve : RightSolver solve) (L : Lenient) (os : Nat → SetOrder)
    (ho : ∀ i, (os i).Valid) (fuel : Nat) : ∃ (st : AStudy) (disk : String → R Frame), st.Supported disk [] 2 1 none ∧ st.KeptData [] 2 1 ∧
    LeastCost (st.Admits disk [] 2 1) (st.planCost [] 2 1) 500 ∧
    ∃ sys files, convertStudy st batteryTemplate none [] = .ok (sys, files) ∧
      ∀ (inst : SetSystem), inst.values = sys → ∀ (d : Disk) (f : CliFlags) (paths : List String) (comp dir : String) (ls : List InputLibrary),
        Names d f paths comp (some dir) → ReadAs d paths ls → (ls.map (·.id)).Nodup →
        (∀ l ∈ ls, l ∈ [antaresInput, andromedeInput, pypsaInput]) → antaresInput ∈ ls →
        3 * ls.length + 2 ≤ fuel → d.system comp = parseYamlComponents L (transformToYaml inst) →
        (∀ n, d.table dir n = AStudy.load disk files n) → f.duration = 2 → f.scenario = 1 →
        ∃ o, mainOutput solve textParser os fuel d f = some (.ok o) ∧ o.cost = 0 ∧ o.status ≠ 0 := by
  refine ⟨outageStudy, outageDisk, outage_supported, outage_kept, ⟨⟨outagePlan, outage_admits, ?_⟩, fun x hx => outage_cost hx⟩, ?_⟩
  · rw [outage_planCost]
    decide +kernel
  obtain ⟨sys, files, ok, _⟩ := outage_supported.converted []
  refine ⟨sys, files, ok, ?_⟩
  intro inst hi d f paths comp dir ls hn hr hnd hls ha hfuel hs ht hT hS
  obtain ⟨libs, h1, h2, h3⟩ := cli_shipped ho hls hfuel
  obtain ⟨sys', files', rsys, net, db, p, ok', g1, g2, g3, g4, g5⟩ := c69_actual outageStudy outageDisk [] 2 1 none [] outage_supported
    outage_kept libs h2 ⟨h3 _ ha, fun h => absurd rfl h⟩
  rw [ok] at ok'
  cases ok'
  have hrun : mainCli textParser os fuel d f = some (.ok p) := by
    refine (c66_chain textParser os ho fuel d f p).2 ⟨paths, comp, some dir, ls, libs, sys, rsys, db, net, hn, hr, hnd, h1, ?_, g1, ?_, g2, ?_⟩
    · rw [hs, c70_written_read, hi]
    · rw [← g3]
      congr 1
      funext n
      exact ht n
    · rw [hT, hS]
      exact g4
  refine c76_no_solution solve hsolve textParser os fuel d f p hrun fun pt hpt => ?_
  have := g5 pt (fun k => ((p.columns.get? k).map pt).getD 0) fun k i hk => by simp only [hk]; rfl
  exact outage_none _ (this.1.1.1 hpt)

end Verif.Props
