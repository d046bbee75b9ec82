import Verif.Props.StepsShipped

/-! # Examples for C88: the two hours of a load -/

namespace Verif.Props
open Verif Verif.Doc Verif.Shipped Verif.OptCtx

/-- the system `weather` for one hour, where the load is `p` -/
def hourDisk (p : ℚ) : Disk := { cliDemoDisk with
  system := fun n => if n = "study/input/components/components.yml" then .ok weather else .error (.exception "FileNotFoundError")
  table := fun n m => if n = "study/input/components/series" ∧ m = "load" then .ok ⟨1, [[.fin p]]⟩ else .error (.exception "FileNotFoundError") }

def hourFlags : CliFlags := { study := some "study", duration := 1, scenario := 1 }

def hourStudy (p : ℚ) : StudyInput := (hourDisk p).study weather (some "study/input/components/series") hourFlags

variable {p q : ℚ}

theorem hour_table {n : String} {f : Frame} (h : (hourStudy p).load n = .ok f) : f = ⟨1, [[.fin p]]⟩ := by
  simp only [hourStudy, Disk.study, hourDisk] at h
  split_ifs at h
  cases h
  rfl

theorem hour_declared : (hourStudy p).declared = weather.nodes ++ weather.components := rfl

theorem hour_sound : (hourStudy p).Sound := by
  have w := weather_sound (a := [p]) (b := [p]) Nat.one_pos rfl
  refine ⟨w.ids, w.parameters, ?_, ?_, by simp [hourStudy, Disk.study, hourFlags], ?_, Nat.one_pos, w.varying⟩
  · intro n f h
    rw [hour_table h]
    simp [Frame.Rectangular]
  · intro c hc p' hp t s v h
    rcases declaredEntry_mem h with h | ⟨n, f, row, h, hl, hr, hv⟩
    · simp only [hour_declared, weather, List.cons_append, List.nil_append, List.mem_cons, List.not_mem_nil, or_false] at hc
      rcases hc with rfl | rfl | rfl <;> simp only [List.mem_cons, List.not_mem_nil, or_false] at hp <;> (try casesm* _ ∨ _) <;> subst hp <;> cases h <;> rfl
    · rw [hour_table hl] at hr
      simp only [List.mem_cons, List.not_mem_nil, or_false] at hr
      subst hr
      simp only [List.mem_cons, List.not_mem_nil, or_false] at hv
      subst hv
      rfl
  · intro t ht
    have ht : t ∈ [(0 : Int)] := ht
    simp only [List.mem_cons, List.not_mem_nil, or_false] at ht
    omega

theorem hour_entry : declaredEntry (hourStudy p).load ⟨"load", true, true, .name "load", none⟩ 0 0 = some (.fin p) := rfl

theorem hour_complete (libs : Dict String Library)
    (hlib : ∀ l ∈ [andromedeInput, antaresInput], (Dict.get? libs l.id).isSome = true) : (hourStudy p).Complete libs := by
  have w := weather_complete (a := [p]) (b := [p]) rfl libs hlib
  refine ⟨w.models, w.parameters, ?_, ?_, w.connections, ?_⟩
  · intro c hc p' hp
    simp only [hour_declared, weather, List.cons_append, List.nil_append, List.mem_cons, List.not_mem_nil, or_false] at hc
    rcases hc with rfl | rfl | rfl <;> simp only [List.mem_cons, List.not_mem_nil, or_false] at hp
    · rcases hp with rfl | rfl <;> exact ⟨rfl, rfl⟩
    · subst hp
      exact ⟨.inl rfl, _, rfl, by simp, by simp⟩
    · rcases hp with rfl | rfl <;> exact ⟨rfl, rfl⟩
  · intro c hc p' hp t ht s hs
    have ht : t ∈ [(0 : Int)] := ht
    simp only [List.mem_cons, List.not_mem_nil, or_false] at ht
    have hs : s < 1 := hs
    obtain rfl : s = 0 := by omega
    subst ht
    simp only [hour_declared, weather, List.cons_append, List.nil_append, List.mem_cons, List.not_mem_nil, or_false] at hc
    rcases hc with rfl | rfl | rfl <;> simp only [List.mem_cons, List.not_mem_nil, or_false] at hp
    · rcases hp with rfl | rfl <;> exact ⟨_, rfl⟩
    · subst hp
      exact ⟨_, hour_entry⟩
    · rcases hp with rfl | rfl <;> exact ⟨_, rfl⟩
  · intro c hc d hd t s ht hs
    simp only [hour_declared, weather, List.cons_append, List.nil_append, List.mem_cons, List.not_mem_nil, or_false] at hc
    rcases hc with rfl | rfl | rfl
    · simp [Rules.needs] at hd
    · simp [Rules.needs] at hd
    · simp only [Rules.needs, List.mem_cons, Prod.mk.injEq, List.not_mem_nil, or_false, String.reduceEq, false_and, true_and, false_or] at hd
      subst hd
      show (0 : ℚ) ≤ 5
      norm_num

theorem hour_command : ShippedCommand (hourDisk p) hourFlags
    ["study/input/models/andromede_v1_models.yml", "study/input/models/antares_historic.yml"] "study/input/components/components.yml"
    (some "study/input/components/series") [andromedeInput, antaresInput] weather :=
  ⟨.directory (s := "study") (files := ["andromede_v1_models.yml", "antares_historic.yml"]) rfl rfl rfl rfl rfl, .cons rfl (.cons rfl .nil),
    by decide, by simp, rfl, hour_sound, hour_complete⟩

theorem hour_at (p q : ℚ) {k : Nat} (hk : k < 2) : (weatherStudy [p] [q]).AtStep k (hourStudy ([p, q].getD k 0)) where
  system := rfl
  length := rfl
  scenarios := rfl
  values c hc x hx s hs := by
    have hs : s < 1 := hs
    obtain rfl : s = 0 := by omega
    simp only [weather_declared, weather, List.cons_append, List.nil_append, List.mem_cons, List.not_mem_nil, or_false] at hc
    rcases hc with rfl | rfl | rfl <;> simp only [List.mem_cons, List.not_mem_nil, or_false] at hx
    · rcases hx with rfl | rfl <;> rfl
    · subst hx
      rw [show (hourStudy ([p, q].getD k 0)).step 0 = 0 from rfl, Nat.cast_zero, hour_entry]
      have : k = 0 ∨ k = 1 := by omega
      rcases this with rfl | rfl <;> rfl
    · rcases hx with rfl | rfl <;> rfl

theorem weather_unlinked : (weatherStudy a b).Unlinked := by
  intro c hc
  simp only [weather_declared, weather, List.cons_append, List.nil_append, List.mem_cons, List.not_mem_nil, or_false] at hc
  rcases hc with rfl | rfl | rfl <;> simp [instantModels]

/-- the command on two hours prints the sum of what it prints for each of them -/
example (p q : ℚ) : ∃ o o1 o2 : Printed,
    mainOutput idealSolver textParser (fun _ => firstOrder) 8 (weatherDisk [p] [q]) (weatherFlags 1) = some (.ok o) ∧
    mainOutput idealSolver textParser (fun _ => firstOrder) 8 (hourDisk p) hourFlags = some (.ok o1) ∧
    mainOutput idealSolver textParser (fun _ => firstOrder) 8 (hourDisk q) hourFlags = some (.ok o2) ∧
    (o.status = 0 ↔ o1.status = 0 ∧ o2.status = 0) ∧ (o.status = 0 → o.cost = o1.cost + o2.cost) := by
  obtain ⟨o, h, o', h', e1, e2⟩ := c88_command idealSolver idealSolver_right (fun _ => firstOrder) (fun _ => firstOrder_valid) 8
    (weatherDisk [p] [q]) (weatherFlags 1) (weather_command (a := [p]) (b := [q]) Nat.one_pos rfl) (Nat.le_refl _) weather_unlinked
    (fun k => hourDisk ([p, q].getD k 0)) (fun _ => hourFlags) fun k hk => ⟨hour_command, Nat.le_refl _, hour_at p q hk⟩
  refine ⟨o, o' 0, o' 1, h, h' 0 Nat.two_pos, h' 1 Nat.one_lt_two, ?_, fun h0 => ?_⟩
  · rw [e1]
    constructor
    · intro q
      exact ⟨q 0 Nat.two_pos, q 1 Nat.one_lt_two⟩
    · rintro ⟨q1, q2⟩ w hw
      have : w = 0 ∨ w = 1 := by
        have : w < 2 := hw
        omega
      rcases this with rfl | rfl
      · exact q1
      · exact q2
  · rw [e2 h0]
    show ∑ k ∈ Finset.range 2, (o' k).cost = _
    rw [Finset.sum_range_succ, Finset.sum_range_one]

/-! ## With a battery -/

/-- a battery alone, for two hours or for one -/
def batteryStudy (steps : List Int) : StudyInput where
  system := { components := [⟨"B", "andromede-v1-models.battery", none,
    [⟨"reservoir_capacity", false, false, .number 1, none⟩, ⟨"injection_nominal_capacity", false, false, .number 1, none⟩,
     ⟨"withdrawal_nominal_capacity", false, false, .number 1, none⟩, ⟨"efficiency_injection", false, false, .number 1, none⟩,
     ⟨"efficiency_withdrawal", false, false, .number 1, none⟩, ⟨"lower_rule_curve", false, false, .number 0, none⟩,
     ⟨"upper_rule_curve", false, false, .number 1, none⟩, ⟨"p_max_injection_modulation", false, false, .number 1, none⟩,
     ⟨"p_max_withdrawal_modulation", false, false, .number 1, none⟩, ⟨"marginal_cost", false, false, .number 0, none⟩]⟩] }
  load := fun _ => .error (.exception "FileNotFoundError")
  steps := steps
  scenarios := 1

/-- it is filled in the first hour and emptied in the second one -/
def filled : TermKey → ℚ := fun x =>
  if x.var = "p_injection" then (if x.time = some 0 then 1 else 0)
  else if x.var = "p_withdrawal" then (if x.time = some 1 then 1 else 0)
  else if x.time = some 1 then 1 else 0

/-- **C88 fails with a battery**, which links the timesteps: it can be filled in the first hour of a block of two hours, and not when this hour
is alone. -/
theorem c88_battery : (batteryStudy [0, 1]).Accepts filled ∧ (∀ k < 2, (batteryStudy [0, 1]).AtStep k (batteryStudy [(k : Int)])) ∧
    ¬ (batteryStudy [0]).Accepts (atStep 0 filled) := by
  refine ⟨?_, ?_, ?_⟩
  · intro c hc r hr t s ht hs
    have hc : c ∈ (batteryStudy []).system.components := hc
    simp only [batteryStudy, List.mem_cons, List.not_mem_nil, or_false] at hc
    subst hc
    have : r = Rules.battery := by cases hr; rfl
    subst this
    have ht : t < 2 := ht
    have hs : s < 1 := hs
    obtain rfl : s = 0 := by omega
    have : t = 0 ∨ t = 1 := by omega
    rcases this with rfl | rfl
    · show ((0 : ℚ) ≤ 1 ∧ (1 : ℚ) ≤ 1 * 1) ∧ ((0 : ℚ) ≤ 0 ∧ (0 : ℚ) ≤ 1 * 1) ∧ ((0 : ℚ) * 1 ≤ 0 ∧ (0 : ℚ) ≤ 1 * 1) ∧ (1 : ℚ) = 0 + 1 * 1 - 1 * 0
      norm_num
    · show ((0 : ℚ) ≤ 0 ∧ (0 : ℚ) ≤ 1 * 1) ∧ ((0 : ℚ) ≤ 1 ∧ (1 : ℚ) ≤ 1 * 1) ∧ ((0 : ℚ) * 1 ≤ 1 ∧ (1 : ℚ) ≤ 1 * 1) ∧ (0 : ℚ) = 1 + 1 * 0 - 1 * 1
      norm_num
  · intro k hk
    refine ⟨rfl, rfl, rfl, ?_⟩
    intro c hc x hx s hs
    have hc : c ∈ (batteryStudy []).system.components := hc
    simp only [batteryStudy, List.mem_cons, List.not_mem_nil, or_false] at hc
    subst hc
    simp only [List.mem_cons, List.not_mem_nil, or_false] at hx
    rcases hx with rfl | rfl | rfl | rfl | rfl | rfl | rfl | rfl | rfl | rfl <;> rfl
  · intro h
    have h := h ((batteryStudy []).system.components.head (by decide)) (.head _) Rules.battery rfl 0 0 (by decide) (by decide)
    have h : ((0 : ℚ) ≤ 1 ∧ (1 : ℚ) ≤ 1 * 1) ∧ ((0 : ℚ) ≤ 0 ∧ (0 : ℚ) ≤ 1 * 1) ∧ ((0 : ℚ) * 1 ≤ 0 ∧ (0 : ℚ) ≤ 1 * 1) ∧ (0 : ℚ) = 0 + 1 * 1 - 1 * 0 := h
    norm_num at h

end Verif.Props
