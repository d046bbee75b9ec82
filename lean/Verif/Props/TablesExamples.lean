import Verif.Props.TablesProblem
import Verif.Props.DocumentsExamples

/-!
# C74: cases

Numbers are written as fractions here, with as many marks as the numerator and the denominator say.
-/

namespace Verif.Props
open Verif Verif.Doc Verif.Shipped

/-- marks -/
def marks (n : Nat) : List Char := List.replicate n '1'

/-- the fraction in a word -/
def fraction (w : List Char) : ℚ := ((w.takeWhile (· == '1')).length : ℚ) / ((w.dropWhile (· == '1')).length - 1 : Nat)

/-- numbers as fractions: `-111/11` -/
def fractionText : NumberText where
  print
    | .fin q => (if q < 0 then '-' else '+') :: (marks q.num.natAbs ++ '/' :: marks q.den)
    | .pinf => "inf".toList
    | .ninf => "-inf".toList
    | .nan => "nan".toList
  read
    | 'i' :: _ => some .pinf
    | '-' :: 'i' :: _ => some .ninf
    | 'n' :: _ => some .nan
    | '+' :: w => some (.fin (fraction w))
    | '-' :: w => some (.fin (-fraction w))
    | _ => none

theorem fraction_marks (a b : Nat) : fraction (marks a ++ '/' :: marks b) = a / b := by
  have h1 : (marks a ++ '/' :: marks b).takeWhile (· == '1') = marks a := by
    rw [List.takeWhile_append_of_pos (by simp [marks])]
    simp
  have h2 : (marks a ++ '/' :: marks b).dropWhile (· == '1') = '/' :: marks b := by
    rw [List.dropWhile_append_of_pos (by simp [marks])]
    simp
  unfold fraction
  rw [h1, h2]
  simp [marks]

/-- Such texts are read back: the hypotheses about texts of numbers can be met. -/
theorem fractionText_faithful : fractionText.Faithful where
  word := by
    intro v hv
    cases v with
    | fin q =>
      refine ⟨⟨by simp [fractionText], fun c hc => ?_⟩, ?_⟩
      · simp only [fractionText, marks, List.mem_cons, List.mem_append, List.mem_replicate] at hc
        rcases hc with rfl | ⟨-, rfl⟩ | rfl | ⟨-, rfl⟩
        · split_ifs <;> decide
        · decide
        · decide
        · decide
      · simp only [fractionText]
        split_ifs <;> simp
    | pinf => exact ⟨⟨by decide, by decide⟩, by decide⟩
    | ninf => exact ⟨⟨by decide, by decide⟩, by decide⟩
    | nan => exact absurd rfl hv
  back := by
    intro v hv
    cases v with
    | pinf => rfl
    | ninf => rfl
    | nan => exact absurd rfl hv
    | fin q =>
      simp only [fractionText]
      split_ifs with h
      · have e : fractionText.read ('-' :: (marks q.num.natAbs ++ '/' :: marks q.den)) =
            some (.fin (-fraction (marks q.num.natAbs ++ '/' :: marks q.den))) := by
          cases hn : q.num.natAbs with
          | zero => rfl
          | succ n => rfl
        refine e.trans ?_
        rw [fraction_marks]
        have hq : ((q.num.natAbs : ℕ) : ℚ) = -(q.num : ℚ) := by
          rw [Nat.cast_natAbs, abs_of_nonpos (Rat.num_nonpos.2 h.le), Int.cast_neg]
        rw [hq, neg_div, neg_neg, Rat.num_div_den]
      · change some (Num.fin (fraction _)) = _
        rw [fraction_marks]
        have hq : ((q.num.natAbs : ℕ) : ℚ) = (q.num : ℚ) := by
          rw [Nat.cast_natAbs, abs_of_nonneg (Rat.num_nonneg.2 (not_lt.1 h))]
        rw [hq, Rat.num_div_den]

/-- `c74_read`: a text with blanks, a blank line and a missing number -/
example : readCsv fractionText " +1/1\t+11/1\n \n-1/11 \n".toList = .ok ⟨2, [[.fin 1, .fin 2], [.fin (-1 / 2), .nan]]⟩ := by decide +kernel

/-- … and the layout that it has -/
example : TextHas [["+1/1".toList, "+11/1".toList], ["-1/11".toList]] " +1/1\t+11/1\n \n-1/11 \n".toList := by
  obtain ⟨recs, h, -⟩ := c74_every_text " +1/1\t+11/1\n \n-1/11 \n".toList
  have : recs = [["+1/1".toList, "+11/1".toList], ["-1/11".toList]] := (records_of h).symm.trans (by decide +kernel)
  rwa [this] at h

/-- a line longer than the first one, and a word that is not a number -/
example : (∃ e, readCsv fractionText "+1/1\n+1/1 +1/1\n".toList = .error e) ∧ ∃ e, readCsv fractionText "abc\n".toList = .error e :=
  ⟨⟨_, rfl⟩, ⟨_, rfl⟩⟩

/-- `c74_written_read_partial`: a table with two scenarios, and one with a single one and `nan` -/
example : (⟨2, [[.fin 3, .fin (-1 / 2)], [0, .pinf]]⟩ : Frame).Writable ∧ (⟨1, [[.fin 3], [.nan]]⟩ : Frame).Writable :=
  ⟨⟨⟨by decide, by decide, by decide⟩, .inr (by decide +kernel)⟩, ⟨⟨by decide, by decide, by decide⟩, .inl rfl⟩⟩

/-- what is written for them -/
example : csvText fractionText '\t' ['\n'] ⟨2, [[.fin 3, .fin (-1 / 2)], [0, .pinf]]⟩ = "+111/1\t-1/11\n+/1\tinf\n".toList ∧
    csvText fractionText ',' ['\n'] ⟨1, [[.fin 3], [.nan]]⟩ = "+111/1\n\"\"\n".toList := by decide +kernel

/-- `c74_nan`: the number of the second scenario is read for the first one, and the second hour is lost -/
example : readCsv fractionText (csvText fractionText '\t' ['\n'] ⟨2, [[.fin 1, .fin 2], [.nan, .nan], [.nan, .fin 3]]⟩) =
    .ok ⟨2, [[.fin 1, .fin 2], [.fin 3, .nan]]⟩ := by decide +kernel

/-- `c74_iff`: `nan` at the end of a line that is not the first one -/
example : readCsv fractionText (csvText fractionText '\t' ['\n'] ⟨2, [[.fin 1, .fin 2], [.fin 3, .nan]]⟩) =
    .ok ⟨2, [[.fin 1, .fin 2], [.fin 3, .nan]]⟩ := by decide +kernel

/-- a cluster without capacity, with two scenarios -/
def nullCluster : AThermal :=
  { id := "null", areaId := "fr", modulation := [1, 1], series := ⟨2, [[0, 0], [0, 0]]⟩, unitCount := 1, nominalCapacity := 0 }

/-- `c74_null_capacity`: it is converted, but its table cannot be read -/
example : ∃ c, convertThermal demoA 168 "fr" nullCluster = .ok c ∧
    ∃ f ∈ c.files, f.1 = "/study/input/thermal/series/fr/null/nb_units_max.txt" ∧ ∃ e, readCsv fractionText (csvText fractionText '\t' ['\n'] f.2) = .error e := by
  obtain ⟨c, hc⟩ : ∃ c, convertThermal demoA 168 "fr" nullCluster = .ok c := ⟨_, rfl⟩
  obtain ⟨f, h1, h2, h3⟩ := c74_null_capacity (by rfl) (by decide) (by unfold Frame.Rectangular; decide) (by decide) (by decide +kernel) fractionText_faithful (.inl rfl) hc
  exact ⟨c, hc, f, h1, h2.trans (by decide), h3⟩

/-! ## From studies to the solver -/

/-- the texts of the tables of the study of the examples -/
def demoTexts (path : String) : Option (List Char) :=
  match demoDisk path with
  | .ok f => some (csvText fractionText '\t' ['\n'] f)
  | .error _ => none

theorem demoTexts_read : readFile fractionText demoTexts = demoDisk := by
  funext p
  have h : ∃ f, demoDisk p = .ok f ∧ f.Writable := by
    unfold demoDisk
    split_ifs
    · exact ⟨_, rfl, ⟨by decide, by decide, by decide⟩, .inl rfl⟩
    · exact ⟨_, rfl, ⟨by decide, by decide, by decide⟩, .inl rfl⟩
    · exact ⟨_, rfl, ⟨by decide, by decide, by decide⟩, .inl rfl⟩
  obtain ⟨f, h1, h2⟩ := h
  unfold readFile demoTexts
  rw [h1]
  simp only [c74_written_read_partial fractionText_faithful (.inl rfl) h2 (.inl rfl)]

/-- `c74_antares_partial`: all clusters of the study have data, and its series have hours. -/
theorem demo_hours : SeriesHaveHours demoA := by
  intro file a c s f h
  cases h
  decide

example : ∃ sys files, convertStudy demoA batteryTemplate none [] = .ok (sys, files) ∧
    (∀ a ∈ demoA.areas.values, ∀ t ∈ a.thermals.values, ThermalHasData t) ∧ SeriesHaveHours demoA := by
  refine ⟨_, _, rfl, ?_, demo_hours⟩
  have hc : ∀ (a i : String) (q : ℚ), q ≠ 0 → ThermalHasData (demoCluster a i (.fin q)) := fun a i q hq =>
    ⟨⟨q, rfl, hq⟩, two_rows_finite _ _, by simp [demoCluster]⟩
  intro a ha t ht
  rw [demo_values] at ha
  simp only [List.mem_cons, List.not_mem_nil, or_false] at ha
  rcases ha with rfl | rfl | rfl
  · simp only [demoFr, Dict.values, List.map_cons, List.map_nil, List.mem_cons, List.not_mem_nil, or_false] at ht
    rcases ht with rfl | rfl <;> exact hc _ _ _ (by norm_num)
  · cases ht
  · simp only [demoZ, Dict.values, List.map_cons, List.map_nil, List.mem_cons, List.not_mem_nil, or_false] at ht
    rcases ht with rfl | rfl <;> exact hc _ _ _ (by norm_num)

/-- C74 from the texts of an Antares study, with a directory of tables that does not matter -/
example (L : Lenient) (num : Num → String) : ∃ sys files p, convertStudy demoA batteryTemplate none [] = .ok (sys, files) ∧
    mainCli textParser (fun _ => firstOrder) 8
      (docDisk L num sys (loadText fractionText (writeTables fractionText ['\n'] files demoTexts) "elsewhere"))
      { models := ["antares", "andromede"], component := some "output.yaml", timeseries := some "elsewhere", duration := 2 } = some (.ok p) := by
  obtain ⟨sys, files, h1, h2⟩ := c74_antares_problem_partial demoA fractionText fractionText_faithful ['\n'] (.inl rfl) demoTexts
    [(demoFr, demoBattery)] 2 1 none [] (by rw [demoTexts_read]; exact demo_supported) demo_kept (by
    rw [demo_objects]
    intro a c h
    simp only [List.mem_cons, List.not_mem_nil, or_false, reduceCtorEq, AObject.thermal.injEq] at h
    obtain ⟨-, rfl⟩ := h
    decide +kernel) demo_hours (by unfold AbsoluteName; decide)
    (fun f a c s => absolute_append (absolute_append (absolute_append (absolute_append (absolute_append (absolute_append
      (show AbsoluteName "/study/input/" by unfold AbsoluteName; decide)))))))
    L (fun _ => firstOrder) (fun _ => firstOrder_valid) 8
  obtain ⟨p, hp, -⟩ := h2 (allSet sys) (allSet_values sys)
    (docDisk L num sys (loadText fractionText (writeTables fractionText ['\n'] files demoTexts) "elsewhere"))
    { models := ["antares", "andromede"], component := some "output.yaml", timeseries := some "elsewhere", duration := 2 }
    _ _ _ [antaresInput, andromedeInput] (.files rfl (by simp) rfl) (.cons (c71_shipped L num).1 (.cons (c71_shipped L num).2.1 .nil))
    (by decide) (by simp) (by simp) (by simp) (by decide) rfl rfl rfl rfl
  exact ⟨sys, files, p, h1, hp⟩

/-- C74 from a PyPSA network -/
example (L : Lenient) (num : Num → String) : ∃ s p, pypsaConvert noText demoNet = .ok s ∧
    mainCli textParser (fun _ => firstOrder) 8
      (docDisk L num s.system (loadText fractionText (writeColumns fractionText ['\r', '\n'] "series" s.files fun _ => none) "series"))
      { models := ["pypsa"], component := some "study.yml", timeseries := some "series", duration := 2 } = some (.ok p) ∧
    ∀ (pt : Nat → ℚ) (σ : TermKey → ℚ), (∀ k i, p.columns.get? k = some i → pt i = σ k) → p.solver.cost pt = demoNet.planCost noText 2 (planOf σ) := by
  obtain ⟨s, h1, h2⟩ := c74_pypsa_problem_partial noText demoNet fractionText fractionText_faithful ['\r', '\n'] (.inr rfl) (fun _ => none) 2
    (exNetwork_tables _ _ _) (unitNet_accepted false).1
    (unitNet_accepted false).2 (unitNet_names _) (unitNet_buses _) (unitNet_series _) (unitNet_sound _) demoNet_storage (unitNet_kept _)
    L (fun _ => firstOrder) (fun _ => firstOrder_valid) 8
  obtain ⟨p, hp, h3⟩ := h2 (allSet s.system) (allSet_values _)
    (docDisk L num s.system (loadText fractionText (writeColumns fractionText ['\r', '\n'] "series" s.files fun _ => none) "series"))
    { models := ["pypsa"], component := some "study.yml", timeseries := some "series", duration := 2 }
    _ _ _ [pypsaInput] (.files rfl (by simp) rfl) (.cons (c71_shipped L num).2.2 .nil)
    (by decide) (by simp) (by simp) (by decide) rfl rfl rfl rfl
  exact ⟨s, p, h1, hp, fun pt σ h => (h3 pt σ h).1.2⟩

/-- a name with a file, and one without -/
example : loadText fractionText (fun p => if p = "series/a.txt" then some (csvText fractionText '\t' ['\n'] ⟨1, [[1], [2]]⟩) else none) "series" "a" =
      .ok ⟨1, [[1], [2]]⟩ ∧
    loadText fractionText (fun p => if p = "series/a.txt" then some (csvText fractionText '\t' ['\n'] ⟨1, [[1], [2]]⟩) else none) "series" "b" =
      .error (.exception "FileNotFoundError") := by
  constructor
  · show (match readCsv fractionText (csvText fractionText '\t' ['\n'] ⟨1, [[1], [2]]⟩) with
      | .ok f => .ok f
      | .error _ => .error (.exception "An error has arrived when processing the file")) = Except.ok (ε := Err) (⟨1, [[1], [2]]⟩ : Frame)
    rw [c74_written_read_partial fractionText_faithful (.inl rfl) ⟨⟨by simp, Nat.one_pos, by simp⟩, .inl rfl⟩ (.inl rfl)]
  · rfl

end Verif.Props
