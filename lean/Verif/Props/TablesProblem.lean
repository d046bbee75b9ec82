import Verif.Props.TablesConverted
import Verif.Props.Documents
import Verif.Lemmas.AntaresFiles

/-!
# C74: from a study to the solver, through the texts of the tables
-/

namespace Verif.Props
open Verif Verif.Doc Verif.Shipped

theorem supported_hasData {st : AStudy} {disk : String → R Frame} {B : List (AArea × BatteryData)} {T S : Nat} {period : Option Int}
    (h : st.Supported disk B T S period) : ∀ x ∈ keptThermals st batteryTemplate (areaPattern batteryTemplate), ThermalHasData x.2 := by
  intro x hx
  rw [show areaPattern batteryTemplate = "${area}" by decide +kernel, keptThermals_eq h.plain] at hx
  obtain ⟨y, hy, rfl⟩ := List.mem_map.1 hx
  have ho : AObject.thermal y.1 y.2 ∈ st.objects := by
    rw [objects_eq]
    simp only [List.mem_append, List.mem_map]
    exact .inr (.inl ⟨y, hy, rfl⟩)
  obtain ⟨hs, -, -⟩ := h.data.objects _ ho
  obtain ⟨q, hq, hq0⟩ := hs.capacity
  refine ⟨⟨q, hq, hq0.ne'⟩, hs.series.finite, fun he => ?_⟩
  have := hs.series.hours
  rw [he] at this
  exact absurd this (by have := h.data.hours; simp; omega)

/-- **C74 (partial), from an Antares study to the solver.** Take the texts of the files on the disk, convert the study that they make, write
the new tables and the system file, and run the command line on these files: whatever the directory of tables that is given, the problem
handed to the solver is the problem of the study.  Missing: what is missing in `c69_problem_partial`, and studies with tables without
hours (see `c74_empty`). -/
theorem c74_antares_problem_partial (st : AStudy) (N : NumberText) (hN : N.Faithful) (eol : List Char) (he : IsLinesep eol)
    (texts : String → Option (List Char)) (B : List (AArea × BatteryData)) (T S : Nat) (period : Option Int)
    (pre : Dict String Num) (h : st.Supported (readFile N texts) B T S period) (hkept : st.KeptData B T S)
    (hfirst : ∀ a c, .thermal a c ∈ st.objects → T ≤ comparedPeriod period ∧ c.units (T - 1) 0 = c.units 0 0)
    (hh : SeriesHaveHours st) (hst : AbsoluteName st.path) (hd : ∀ f a c s, AbsoluteName (st.seriesDir f a c s))
    (L : Lenient) (os : Nat → SetOrder) (ho : ∀ i, (os i).Valid) (fuel : Nat) :
    ∃ sys files, convertStudy st batteryTemplate period pre = .ok (sys, files) ∧
      ∀ (inst : SetSystem), inst.values = sys → ∀ (d : Disk) (f : CliFlags) (paths : List String) (comp dir : String) (ls : List InputLibrary),
        Names d f paths comp (some dir) → ReadAs d paths ls → (ls.map (·.id)).Nodup →
        (∀ l ∈ ls, l ∈ [antaresInput, andromedeInput, pypsaInput]) → antaresInput ∈ ls → (B ≠ [] → andromedeInput ∈ ls) →
        3 * ls.length + 2 ≤ fuel → d.system comp = parseYamlComponents L (transformToYaml inst) →
        d.table dir = loadText N (writeTables N eol files texts) dir → f.duration = T → f.scenario = S →
        ∃ p, mainCli textParser os fuel d f = some (.ok p) ∧
          (∀ (pt : Nat → ℚ) (σ : TermKey → ℚ), (∀ k i, p.columns.get? k = some i → pt i = σ k) →
            ((p.solver.Feasible pt ↔ st.Admits (readFile N texts) B T S (aPlanOf σ)) ∧ p.solver.cost pt = st.planCost B T S (aPlanOf σ)) ∧
            ((p.solver.Feasible pt ∧ ∀ pt', p.solver.Feasible pt' → p.solver.cost pt ≤ p.solver.cost pt') ↔
              (st.Admits (readFile N texts) B T S (aPlanOf σ) ∧
                ∀ x, st.Admits (readFile N texts) B T S x → st.planCost B T S (aPlanOf σ) ≤ st.planCost B T S x))) := by
  obtain ⟨sys, files, ok, _⟩ := h.converted pre
  refine ⟨sys, files, ok, ?_⟩
  intro inst hi d f paths comp dir ls hn hr hnd hls ha hb hfuel hs ht hT hS
  obtain ⟨libs, h1, h2, h3⟩ := cli_shipped ho hls hfuel
  obtain ⟨sys', files', rsys, net, db, p, ok', g1, g2, g3, g4, g5⟩ := c69_problem_partial st (readFile N texts) B T S period pre h hkept hfirst
    libs h2 ⟨h3 _ ha, fun hB => h3 _ (hb hB)⟩
  rw [ok] at ok'
  cases ok'
  refine ⟨p, (c66_chain textParser os ho fuel d f p).2 ⟨paths, comp, some dir, ls, libs, sys, rsys, db, net, hn, hr, hnd, h1, ?_, g1, ?_, g2, ?_⟩, g5⟩
  · rw [hs, c70_written_read, hi]
  · rw [← g3]
    refine buildDataBase_congr fun c hc q hq v hv => ?_
    change d.table dir v = _
    rw [ht]
    exact loadText_written (fun f hf => c74_written_read_partial hN he (converted_writable ok (supported_hasData h) hh f hf) (.inl rfl))
      texts dir (converted_absolute ok hst hd c hc q hq v hv)
  · rw [hT, hS]
    exact g4

/-! ## PyPSA -/

theorem writeColumns_get (N : NumberText) (eol : List Char) (dir : String) (files : List (String × List Num))
    (texts : String → Option (List Char)) (p : String) :
    writeColumns N eol dir files texts p = match files.reverse.find? fun f => joinDir dir (f.1 ++ ".txt") = p with
      | some f => some (csvText N ',' eol (seriesFrame f.2))
      | none => texts p := by
  unfold writeColumns
  induction files using List.reverseRecOn with
  | nil => rfl
  | append_singleton files f ih =>
    rw [List.foldl_append, List.foldl_cons, List.foldl_nil, List.reverse_append]
    simp only [List.reverse_cons, List.reverse_nil, List.nil_append, List.singleton_append, List.find?_cons]
    by_cases h : p = joinDir dir (f.1 ++ ".txt")
    · simp [h]
    · have h' : ¬ joinDir dir (f.1 ++ ".txt") = p := fun e => h e.symm
      simp only [h, if_false, h', decide_false]
      exact ih

theorem joinDir_inj {dir a b : String} {pre x y : String} (hp : pre ≠ "") (ha : a = pre ++ x) (hb : b = pre ++ y) (h : joinDir dir a = joinDir dir b) :
    a = b := by
  have hhead : a.toList.head? = b.toList.head? := by
    rw [ha, hb, String.toList_append, String.toList_append]
    cases hl : pre.toList with
    | nil => exact absurd (String.toList_inj.1 (hl.trans rfl)) hp
    | cons c cs => rfl
  unfold joinDir at h
  rw [hhead] at h
  split_ifs at h
  · exact h
  · have := congrArg String.toList h
    simp only [String.toList_append] at this
    exact String.toList_inj.1 (List.append_cancel_left this)

/-- Reading the file of a parameter of the converted network, in the directory in which it was written. -/
theorem loadColumn_written {pf : String → Option Num} {n : PNetwork} {T : Nat} {s : PStudy} (h : PConverted pf n T s) {N : NumberText}
    (hN : N.Faithful) {eol : List Char} (he : IsLinesep eol) (texts : String → Option (List Char)) (dir : String) {c : InputComponent}
    (hc : c ∈ (s.input T).declared) {p : InputParam} (hp : p ∈ c.parameters) {nm : String} (hv : p.value = .name nm) :
    loadText N (writeColumns N eol dir s.files texts) dir nm = s.load nm := by
  rcases h.of_declared hc with ⟨ty, r, hr, hc⟩ | ⟨r, hr, hc⟩
  · obtain ⟨a, ha, hp⟩ := PConverted.params_mem hc hp
    have hf := fun vs => c45_files h.tables h.names h.series h.ok ty.kind_mem (r := r) (by rw [ty.kind_ty]; exact hr) ha hp hv vs
    rw [ty.kind_ty] at hf
    rcases h.entry hr ha hp with ⟨-, -, c', v', -, -, hval, -⟩ | ⟨vs, nm', h1, -, hval, h2, h3, -, -⟩
    · rw [hv] at hval; cases hval
    · rw [hv] at hval
      cases hval
      have hname : ∀ {m : String} {ws : List Num}, (m, ws) ∈ s.files → ∃ x, m ++ ".txt" = (n.name ++ "_") ++ x := by
        intro m ws hm
        obtain ⟨k, -, attr, -, id, -, rfl⟩ := ((convert_isStudy h.tables h.ok).files m ws).1 hm
        exact ⟨id ++ k.suffix ++ "_" ++ attr ++ ".txt", by simp [String.append_assoc]⟩
      have hmem : (nm, vs) ∈ s.files := (hf vs).2 (h.seriesOf_iff.2 h1)
      obtain ⟨y, hy⟩ := hname hmem
      have hpre : n.name ++ "_" ≠ "" := by
        intro e
        have := congrArg String.toList e
        rw [String.toList_append] at this
        simp at this
      have hfind : ∃ f, (s.files.reverse.find? fun f => joinDir dir (f.1 ++ ".txt") = joinDir dir (nm ++ ".txt")) = some f ∧ f.2 = vs := by
        cases hfd : s.files.reverse.find? fun f => joinDir dir (f.1 ++ ".txt") = joinDir dir (nm ++ ".txt") with
        | none =>
          have := List.find?_eq_none.1 hfd (nm, vs) (by simpa using hmem)
          simp at this
        | some f =>
          refine ⟨f, rfl, ?_⟩
          obtain ⟨m, ws⟩ := f
          have hm : (m, ws) ∈ s.files := by simpa using List.mem_of_find?_eq_some hfd
          have heq : joinDir dir (m ++ ".txt") = joinDir dir (nm ++ ".txt") := by simpa using List.find?_some hfd
          obtain ⟨x, hx⟩ := hname hm
          have e := joinDir_inj hpre hx hy heq
          have e2 : m = nm := by
            have := congrArg String.toList e
            simp only [String.toList_append] at this
            exact String.toList_inj.1 (List.append_cancel_right this)
          subst e2
          have := (hf ws).1 hm
          rw [h.seriesOf_iff, h1] at this
          exact (Option.some.inj this).symm
      obtain ⟨f, hf1, rfl⟩ := hfind
      rw [h2]
      unfold loadText readFile
      rw [writeColumns_get, hf1]
      have hne : f.2 ≠ [] := by
        intro e
        rw [e] at h3
        have := h.data.snapshots
        simp at h3
        omega
      simp only [c74_written_read_partial hN he (sep := ',') (seriesFrame_writable hne) (.inr rfl)]
      rfl
  · obtain ⟨q, -, hq⟩ := h.limit_param hr hc
    rw [hq] at hp
    rw [List.mem_singleton.1 hp] at hv
    cases hv

/-- **C74 (partial), from a PyPSA network to the solver.** Convert the network, write its series and the system file, and run the command line
on these files, with the directory in which the series were written: the problem handed to the solver is the problem of the network.
Missing: what is missing in `c65_problem_partial`. -/
theorem c74_pypsa_problem_partial (pf : String → Option Num) (n : PNetwork) (N : NumberText) (hN : N.Faithful) (eol : List Char)
    (he : IsLinesep eol) (texts : String → Option (List Char)) (T : Nat) (ht : n.Tables) (hk : SupportedKind n) (hc : Convertible pf n)
    (hd : DistinctNames n) (hb : BusesExist n) (hs : SeriesExist n) (hv : n.SoundData pf T) (hst : n.StorageUnitsFixed pf T)
    (hkept : n.KeptData pf T) (L : Lenient) (os : Nat → SetOrder) (ho : ∀ i, (os i).Valid) (fuel : Nat) :
    ∃ s, pypsaConvert pf n = .ok s ∧
      ∀ (inst : SetSystem), inst.values = s.system → ∀ (d : Disk) (f : CliFlags) (paths : List String) (comp dir : String) (ls : List InputLibrary),
        Names d f paths comp (some dir) → ReadAs d paths ls → (ls.map (·.id)).Nodup →
        (∀ l ∈ ls, l ∈ [antaresInput, andromedeInput, pypsaInput]) → pypsaInput ∈ ls →
        3 * ls.length + 2 ≤ fuel → d.system comp = parseYamlComponents L (transformToYaml inst) →
        d.table dir = loadText N (writeColumns N eol dir s.files texts) dir → f.duration = T → f.scenario = 1 →
        ∃ p, mainCli textParser os fuel d f = some (.ok p) ∧
          (∀ (pt : Nat → ℚ) (σ : TermKey → ℚ), (∀ k i, p.columns.get? k = some i → pt i = σ k) →
            ((p.solver.Feasible pt ↔ n.Admits pf T (planOf σ)) ∧ p.solver.cost pt = n.planCost pf T (planOf σ)) ∧
            ((p.solver.Feasible pt ∧ ∀ pt', p.solver.Feasible pt' → p.solver.cost pt ≤ p.solver.cost pt') ↔
              (n.Admits pf T (planOf σ) ∧ ∀ x, n.Admits pf T x → n.planCost pf T (planOf σ) ≤ n.planCost pf T x))) := by
  have h0 : ∃ s, pypsaConvert pf n = .ok s := by
    obtain ⟨libs, -, h2, h3⟩ := cli_shipped (os := os) ho (ls := [pypsaInput]) (by simp) (fuel := 5) (by simp)
    obtain ⟨s, _, _, _, _, ok, _⟩ := c65_problem_partial pf n T ht hk hc hd hb hs hv hst hkept libs h2 (h3 pypsaInput (by simp))
    exact ⟨s, ok⟩
  obtain ⟨s, ok⟩ := h0
  refine ⟨s, ok, ?_⟩
  intro inst hi d f paths comp dir ls hn hr hnd hls ha hfuel hsys htab hT hS
  obtain ⟨libs, h1, h2, h3⟩ := cli_shipped ho hls hfuel
  obtain ⟨s', sys, net, db, p, ok', g1, g2, g3, g4, g5⟩ := c65_problem_partial pf n T ht hk hc hd hb hs hv hst hkept libs h2 (h3 _ ha)
  rw [ok] at ok'
  cases ok'
  have hcv : PConverted pf n T s := ⟨ht, hd, hb, hs, hv, ok⟩
  refine ⟨p, (c66_chain textParser os ho fuel d f p).2 ⟨paths, comp, some dir, ls, libs, s.system, sys, db, net, hn, hr, hnd, h1, ?_, g1, ?_, g2, ?_⟩, g5⟩
  · rw [hsys, c70_written_read, hi]
  · rw [← g3]
    refine buildDataBase_congr fun c hc q hq v hv => ?_
    change d.table dir v = _
    rw [htab]
    refine loadColumn_written hcv hN he texts dir (T := T) ?_ hq hv
    rw [hcv.declared]
    rw [hcv.study.nodes, List.append_nil] at hc
    exact hc
  · rw [hT, hS]
    exact g4

end Verif.Props
