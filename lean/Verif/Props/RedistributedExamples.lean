import Verif.Props.Redistributed
import Verif.Props.UnitsExamples

/-!
# C97: examples
-/

namespace Verif.Props
open Verif Verif.Doc Verif.Shipped Verif.OptCtx

/-! ## An area with a load of `v` and a load of `w` -/

def borough (u v w : ℚ) : InputSystem where
  nodes := [⟨"A", "antares-historic.area", none, [⟨"spillage_cost", false, false, .number (.fin u), none⟩,
    ⟨"ens_cost", false, false, .number (.fin u), none⟩]⟩]
  components := [⟨"L", "antares-historic.load", none, [⟨"load", false, false, .number (.fin v), none⟩]⟩,
    ⟨"M", "antares-historic.load", none, [⟨"load", false, false, .number (.fin w), none⟩]⟩]
  connections := [⟨"A", "balance_port", "L", "balance_port"⟩, ⟨"M", "balance_port", "A", "balance_port"⟩]

def boroughDisk (u v w : ℚ) : Disk := { cliDemoDisk with
  system := fun p => if p = "study/input/components/components.yml" then .ok (borough u v w) else .error (.exception "FileNotFoundError")
  table := fun _ _ => .error (.exception "FileNotFoundError") }

def boroughStudy (u v w : ℚ) : StudyInput := (boroughDisk u v w).study (borough u v w) (some "study/input/components/series") hamletFlags

variable {u v w : ℚ}

theorem borough_declared : (boroughStudy u v w).declared = (borough u v w).nodes ++ (borough u v w).components := rfl

theorem borough_number {c : InputComponent} (hc : c ∈ (boroughStudy u v w).declared) {p : InputParam} (hp : p ∈ c.parameters) :
    p.timeDependent = false ∧ p.scenarioDependent = false ∧ ∃ x : ℚ, p.value = .number (.fin x) := by
  simp only [borough_declared, borough, List.cons_append, List.nil_append, List.mem_cons, List.not_mem_nil, or_false] at hc
  rcases hc with rfl | rfl | rfl <;> simp only [List.mem_cons, List.not_mem_nil, or_false] at hp <;> (try casesm* _ ∨ _) <;> subst hp <;>
    exact ⟨rfl, rfl, _, rfl⟩

theorem borough_sound : (boroughStudy u v w).Sound := by
  refine ⟨by rw [borough_declared]; simp [borough], by rw [borough_declared]; simp [borough], ?_, ?_, by simp [boroughStudy, Disk.study, hamletFlags], ?_, Nat.one_pos, ?_⟩
  · intro n f h
    cases h
  · intro c hc p hp t s x h
    obtain ⟨h1, h2, x, h3⟩ := borough_number hc hp
    obtain ⟨i, b1, b2, val, g⟩ := p
    subst h1 h2 h3
    cases h
    rfl
  · intro t ht
    have ht : t ∈ [(0 : Int)] := ht
    simp only [List.mem_cons, List.not_mem_nil, or_false] at ht
    omega
  · intro c hc p hp r hr q hq hid
    obtain ⟨h1, h2, -⟩ := borough_number hc hp
    simp [h1, h2]

theorem borough_complete (libs : Dict String Library)
    (hlib : ∀ l ∈ [andromedeInput, antaresInput], (Dict.get? libs l.id).isSome = true) : (boroughStudy u v w).Complete libs := by
  refine ⟨?_, ?_, ?_, ?_, ?_, ?_⟩
  · intro c hc
    simp only [borough_declared, borough, List.cons_append, List.nil_append, List.mem_cons, List.not_mem_nil, or_false] at hc
    have h1 : Rules.libraryOf "antares-historic.area" = antaresInput.id := by decide +kernel
    have h2 : Rules.libraryOf "antares-historic.load" = antaresInput.id := by decide +kernel
    have ha := hlib antaresInput (by simp)
    rcases hc with rfl | rfl | rfl
    · exact ⟨⟨_, rfl⟩, h1 ▸ ha⟩
    · exact ⟨⟨_, rfl⟩, h2 ▸ ha⟩
    · exact ⟨⟨_, rfl⟩, h2 ▸ ha⟩
  · intro c hc r hr z hz
    simp only [borough_declared, borough, List.cons_append, List.nil_append, List.mem_cons, List.not_mem_nil, or_false] at hc
    rcases hc with rfl | rfl | rfl
    · obtain rfl : r = Rules.area := by cases hr; rfl
      simp only [Rules.area, List.mem_cons, List.not_mem_nil, or_false] at hz
      rcases hz with rfl | rfl <;> simp
    · obtain rfl : r = Rules.load := by cases hr; rfl
      simp only [Rules.load, List.mem_cons, List.not_mem_nil, or_false] at hz
      subst hz
      simp
    · obtain rfl : r = Rules.load := by cases hr; rfl
      simp only [Rules.load, List.mem_cons, List.not_mem_nil, or_false] at hz
      subst hz
      simp
  · intro c hc p hp
    obtain ⟨h1, h2, x, h3⟩ := borough_number hc hp
    obtain ⟨i, b1, b2, val, g⟩ := p
    subst h1 h2 h3
    exact ⟨rfl, rfl⟩
  · intro c hc p hp t ht s hs
    obtain ⟨h1, h2, x, h3⟩ := borough_number hc hp
    obtain ⟨i, b1, b2, val, g⟩ := p
    subst h1 h2 h3
    exact ⟨_, rfl⟩
  · intro z hz
    have hz : z ∈ (borough u v w).connections := hz
    simp only [borough, List.mem_cons, List.not_mem_nil, or_false] at hz
    rcases hz with rfl | rfl
    · refine ⟨Rules.area, Rules.load, _, _, rfl, rfl, .head _, .head _, rfl, ?_⟩
      intro f hf
      simp only [List.map_cons, List.map_nil, List.mem_cons, List.not_mem_nil, or_false] at hf
      subst hf
      simp [Rules.sends, Rules.area, Rules.load]
    · refine ⟨Rules.load, Rules.area, _, _, rfl, rfl, .head _, .head _, rfl, ?_⟩
      intro f hf
      simp only [List.map_cons, List.map_nil, List.mem_cons, List.not_mem_nil, or_false] at hf
      subst hf
      simp [Rules.sends, Rules.area, Rules.load]
  · intro c hc d hd t s ht hs
    simp only [borough_declared, borough, List.cons_append, List.nil_append, List.mem_cons, List.not_mem_nil, or_false] at hc
    rcases hc with rfl | rfl | rfl
    · simp [Rules.needs] at hd
    · simp [Rules.needs] at hd
    · simp [Rules.needs] at hd

theorem borough_command : ShippedCommand (boroughDisk u v w) hamletFlags
    ["study/input/models/andromede_v1_models.yml", "study/input/models/antares_historic.yml"] "study/input/components/components.yml"
    (some "study/input/components/series") [andromedeInput, antaresInput] (borough u v w) :=
  ⟨.directory (s := "study") (files := ["andromede_v1_models.yml", "antares_historic.yml"]) rfl rfl rfl rfl rfl, .cons rfl (.cons rfl .nil),
    by decide, by simp, rfl, borough_sound, borough_complete⟩

theorem borough_redistributed {v' w' : ℚ} (h : v' + w' = v + w) : (boroughStudy u v w).Redistributed (boroughStudy u v' w') "A" ["L", "M"] where
  components := rfl
  connections := rfl
  length := rfl
  scenarios := rfl
  once := by simp
  loads := by
    intro L hL
    simp only [List.mem_cons, List.not_mem_nil, or_false] at hL
    rcases hL with rfl | rfl
    · exact ⟨_, .tail _ (.head _), rfl, rfl⟩
    · exact ⟨_, .tail _ (.tail _ (.head _)), rfl, rfl⟩
  area := ⟨_, .head _, rfl, rfl⟩
  connection := by
    intro L hL
    simp only [List.mem_cons, List.not_mem_nil, or_false] at hL
    rcases hL with rfl | rfl
    · exact ⟨_, .tail _ (.head _), rfl⟩
    · exact ⟨_, .head _, rfl⟩
  others := by
    intro c hc hL n t s _ _
    simp only [borough_declared, borough, List.cons_append, List.nil_append, List.mem_cons, List.not_mem_nil, or_false] at hc hL
    rcases hc with rfl | rfl | rfl
    · rfl
    · simp at hL
    · simp at hL
  total := by
    intro t s _ _
    show v' + (w' + 0) = v + (w + 0)
    linarith

/-- the command prints the same when a part of one load is moved to the other one, also with prices that count as zero -/
example (u v w x : ℚ) : ∃ o o' : Printed,
    mainOutput idealSolver textParser (fun _ => firstOrder) 8 (boroughDisk u v w) hamletFlags = some (.ok o) ∧
    mainOutput idealSolver textParser (fun _ => firstOrder) 8 (boroughDisk u (v - x) (w + x)) hamletFlags = some (.ok o') ∧
    (o'.status = 0 ↔ o.status = 0) ∧ (o.status = 0 → o'.cost = o.cost) :=
  c97_command idealSolver idealSolver_right (fun _ => firstOrder) (fun _ => firstOrder) (fun _ => firstOrder_valid) (fun _ => firstOrder_valid) 8 8
    (boroughDisk u v w) (boroughDisk u (v - x) (w + x)) hamletFlags hamletFlags borough_command (Nat.le_refl _) borough_command (Nat.le_refl _)
    (borough_redistributed (by ring))

/-- and when both loads are merged, the least cost is that of a single load -/
example (u v w c : ℚ) : LeastCost (boroughStudy u v w).Accepts (boroughStudy u v w).cost c ↔
    LeastCost ((boroughStudy u (v + w) 0).without "M").Accepts ((boroughStudy u (v + w) 0).without "M").cost c :=
  c97_merged (boroughDisk u v w) (boroughDisk u (v + w) 0) hamletFlags hamletFlags borough_command borough_command (borough_redistributed (by ring)) (by simp)
    (fun _ _ _ _ => rfl) c

/-- which is that of the study with this single load -/
theorem borough_merged (u v : ℚ) : (boroughStudy u v 0).without "M" = hamletStudy u v := rfl

/-- so that the total load matters: its price is the least cost -/
example (u v w : ℚ) (hu : 0 ≤ u) (h : 0 ≤ v + w) : LeastCost (boroughStudy u v w).Accepts (boroughStudy u v w).cost (u * (v + w)) := by
  refine (c97_merged (boroughDisk u v w) (boroughDisk u (v + w) 0) hamletFlags hamletFlags borough_command borough_command (borough_redistributed (by ring))
    (L := "M") (by simp) (fun _ _ _ _ => rfl) _).2 ?_
  exact hamlet_least hu h

end Verif.Props
