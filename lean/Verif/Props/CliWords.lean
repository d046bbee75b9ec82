import Verif.Lemmas.CliWords
import Verif.Props.CliOutput
import Mathlib.Tactic.Linarith

/-!
# C77: the words of the command
-/

namespace Verif.Props
open Verif Verif.Shipped

/-! ## Words are options with their values -/

def applyUses (f : WordFlags) : List OptionUse → Option WordFlags
  | [] => some f
  | u :: us => (setOption f u.name u.values).bind fun f => applyUses f us

theorem setOption_cli {f f' : WordFlags} {o : Text} {vs : List Text} (h : setOption f o vs = some f') : o ∈ cliOptions := by
  unfold setOption at h
  split_ifs at h with h1 h2 h3 h4 h5 h6
  · rw [h1]; decide +kernel
  · rw [h2]; decide +kernel
  · rw [h3]; decide +kernel
  · rw [h4]; decide +kernel
  · rw [h5]; decide +kernel
  · rw [h6]; decide +kernel
  · split at h <;> cases h

theorem wordsSay_nil {uses : List OptionUse} : WordsSay [] uses ↔ uses = [] := by
  constructor
  · rintro ⟨parts, hp, he⟩
    cases hp with
    | nil => rfl
    | cons h _ => cases h <;> simp at he
  · rintro rfl
    exact ⟨[], .nil, rfl⟩

theorem wordsSay_cons {u : OptionUse} {uses : List OptionUse} {p rest : List Text} (hu : u.Written p) (h : WordsSay rest uses) :
    WordsSay (p ++ rest) (u :: uses) := by
  obtain ⟨parts, hp, rfl⟩ := h
  exact ⟨p :: parts, .cons hu hp, rfl⟩

theorem wordsSay_first {w : Text} {ws : List Text} {uses : List OptionUse} (h : WordsSay (w :: ws) uses) :
    ∃ u us p rest, uses = u :: us ∧ u.Written (w :: p) ∧ ws = p ++ rest ∧ WordsSay rest us := by
  obtain ⟨parts, hp, he⟩ := h
  cases hp with
  | nil => simp at he
  | @cons u p us ps h hs =>
    obtain ⟨w', p', rfl⟩ : ∃ w' p', p = w' :: p' := by cases h <;> exact ⟨_, _, rfl⟩
    simp only [List.flatten_cons, List.cons_append, List.cons.injEq] at he
    obtain ⟨rfl, rfl⟩ := he
    exact ⟨u, us, p', _, rfl, h, rfl, ps, hs, rfl⟩

theorem written_first {u : OptionUse} {w : Text} {p : List Text} (h : u.Written (w :: p)) :
    (wordKind w = .option u.name none ∧ u.name ∈ cliOptions ∧ u.values = p ∧ (∀ v ∈ p, IsValue v) ∧
      (u.name = "--models".toList ∧ p ≠ [] ∨ u.name ≠ "--models".toList ∧ p.length = 1)) ∨
    ∃ v, wordKind w = .option u.name (some v) ∧ u.name ∈ cliOptions ∧ u.values = [v] ∧ p = [] := by
  cases h with
  | apart hw ho hv =>
    obtain ⟨h1, h2⟩ := wordKind_stands.2 hw
    exact .inl ⟨h1, h2, rfl, by simpa using hv, .inr ⟨ho, rfl⟩⟩
  | several hw h0 hv =>
    obtain ⟨h1, h2⟩ := wordKind_stands.2 hw
    exact .inl ⟨h1, h2, rfl, hv, .inl ⟨rfl, h0⟩⟩
  | joined hw =>
    obtain ⟨h1, h2⟩ := wordKind_joined.2 ⟨_, rfl, hw⟩
    exact .inr ⟨_, h1, h2, rfl, rfl⟩

theorem value_kind {w : Text} (h : IsValue w) : wordKind w = .value := wordKind_value.2 h

/-- what can be read after an option whose values are being read -/
def AfterOption (f f' : WordFlags) (o : Text) (vs ws : List Text) : Prop :=
  ∃ vs' rest uses f1, ws = vs' ++ rest ∧ (∀ v ∈ vs', IsValue v) ∧
    (o = "--models".toList ∧ vs ++ vs' ≠ [] ∨ o ≠ "--models".toList ∧ vs'.length = 1) ∧ setOption f o (vs ++ vs') = some f1 ∧
    WordsSay rest uses ∧ applyUses f1 uses = some f'

theorem readWords_iff (ws : List Text) :
    (∀ f f', readWords f none ws = some f' ↔ ∃ uses, WordsSay ws uses ∧ applyUses f uses = some f') ∧
    ∀ f f' o vs, (o = "--models".toList ∨ vs = []) → (readWords f (some (o, vs)) ws = some f' ↔ AfterOption f f' o vs ws) := by
  induction ws with
  | nil =>
    refine ⟨fun f f' => ?_, fun f f' o vs hvs => ?_⟩
    · simp only [readWords, finishOption, wordsSay_nil]
      constructor
      · rintro h
        exact ⟨[], rfl, h⟩
      · rintro ⟨_, rfl, h⟩
        exact h
    · simp only [readWords]
      constructor
      · intro h
        cases vs with
        | nil => cases h
        | cons v vs =>
          have ho : o = "--models".toList := by simpa using hvs
          exact ⟨[], [], [], f', rfl, by simp, .inl ⟨ho, by simp⟩, by rw [List.append_nil]; exact h, wordsSay_nil.2 rfl, rfl⟩
      · rintro ⟨vs', rest, uses, f1, e, -, hk, hset, hr, ha⟩
        obtain ⟨rfl, rfl⟩ := List.append_eq_nil_iff.1 e.symm
        rw [wordsSay_nil.1 hr] at ha
        cases ha
        rw [List.append_nil] at hset hk
        rcases hk with ⟨-, hk⟩ | ⟨-, hk⟩
        · cases vs with
          | nil => exact absurd rfl hk
          | cons v vs => exact hset
        · cases hk
  | cons w ws ih =>
    obtain ⟨ih1, ih2⟩ := ih
    have first : ∀ f f', readWords f none (w :: ws) = some f' ↔ ∃ uses, WordsSay (w :: ws) uses ∧ applyUses f uses = some f' := by
      intro f f'
      constructor
      · intro h
        rw [readWords] at h
        rcases hk : wordKind w with _ | ⟨o, _ | v⟩ | _ <;> rw [hk] at h <;> simp only at h
        · cases h
        · simp only [finishOption, Option.bind_some] at h
          obtain ⟨vs', rest, uses, f1, rfl, hv, hc, hset, hr, ha⟩ := (ih2 f f' o [] (.inr rfl)).1 h
          rw [List.nil_append] at hset hc
          have hs := wordKind_stands.1 ⟨hk, setOption_cli hset⟩
          refine ⟨⟨o, vs'⟩ :: uses, wordsSay_cons (p := w :: vs') ?_ hr, by simp [applyUses, hset, ha]⟩
          rcases hc with ⟨rfl, h0⟩ | ⟨h0, h1⟩
          · exact .several hs h0 hv
          · obtain ⟨v, rfl⟩ := List.length_eq_one_iff.1 h1
            exact .apart hs h0 (hv v (by simp))
        · simp only [finishOption, Option.bind_some] at h
          obtain ⟨f1, hset, h⟩ := Option.bind_eq_some_iff.1 h
          obtain ⟨uses, hr, ha⟩ := (ih1 f1 f').1 h
          obtain ⟨a, rfl, hs⟩ := wordKind_joined.1 ⟨hk, setOption_cli hset⟩
          exact ⟨⟨o, [v]⟩ :: uses, wordsSay_cons (p := [_]) (.joined hs) hr, by simp [applyUses, hset, ha]⟩
        · cases h
      · rintro ⟨uses, hw, ha⟩
        obtain ⟨u, us, p, rest, rfl, hu, rfl, hr⟩ := wordsSay_first hw
        obtain ⟨f1, hset, ha⟩ := Option.bind_eq_some_iff.1 ha
        rw [readWords]
        rcases written_first hu with ⟨hk, -, hv, hval, hc⟩ | ⟨v, hk, -, hv, rfl⟩
        · rw [hk]
          simp only [finishOption, Option.bind_some]
          rw [hv] at hset
          exact (ih2 f f' u.name [] (.inr rfl)).2 ⟨p, rest, us, f1, rfl, hval, hc, hset, hr, ha⟩
        · rw [hk]
          simp only [finishOption, Option.bind_some]
          rw [hv] at hset
          rw [hset, Option.bind_some]
          exact (ih1 f1 f').2 ⟨us, hr, ha⟩
    refine ⟨first, fun f f' o vs hvs => ?_⟩
    have first_kind : ∀ {uses}, WordsSay (w :: ws) uses → wordKind w ≠ .value ∧ wordKind w ≠ .exit := by
      intro uses h
      obtain ⟨u, us, p, rest, -, hu, -, -⟩ := wordsSay_first h
      rcases written_first hu with ⟨hk, -⟩ | ⟨v, hk, -⟩ <;> rw [hk] <;> exact ⟨nofun, nofun⟩
    by_cases hval : wordKind w = .value
    · have hv := wordKind_value.1 hval
      rw [readWords, hval]
      simp only
      by_cases ho : o = "--models".toList
      · rw [if_pos ho]
        refine (ih2 f f' o (vs ++ [w]) (.inl ho)).trans ?_
        constructor
        · rintro ⟨vs', rest, uses, f1, rfl, h1, h2, h3, h4, h5⟩
          refine ⟨w :: vs', rest, uses, f1, rfl, ?_, .inl ⟨ho, by simp⟩, by simpa using h3, h4, h5⟩
          intro v hm
          rcases List.mem_cons.1 hm with rfl | hm
          · exact hv
          · exact h1 v hm
        · rintro ⟨vs', rest, uses, f1, e, h1, h2, h3, h4, h5⟩
          cases vs' with
          | nil =>
            rw [List.nil_append] at e
            exact absurd hval (first_kind (e ▸ h4)).1
          | cons v vs' =>
            simp only [List.cons_append, List.cons.injEq] at e
            obtain ⟨rfl, rfl⟩ := e
            exact ⟨vs', rest, uses, f1, rfl, fun v hm => h1 v (List.mem_cons_of_mem _ hm), .inl ⟨ho, by simp⟩, by simpa using h3, h4, h5⟩
      · rw [if_neg ho]
        obtain rfl : vs = [] := hvs.resolve_left ho
        constructor
        · intro h
          obtain ⟨f1, hset, h⟩ := Option.bind_eq_some_iff.1 h
          obtain ⟨uses, hr, ha⟩ := (ih1 f1 f').1 h
          exact ⟨[w], ws, uses, f1, rfl, by simpa using hv, .inr ⟨ho, rfl⟩, hset, hr, ha⟩
        · rintro ⟨vs', rest, uses, f1, e, h1, h2, h3, h4, h5⟩
          rcases h2 with ⟨h2, -⟩ | ⟨-, h2⟩
          · exact absurd h2 ho
          · obtain ⟨v, rfl⟩ := List.length_eq_one_iff.1 h2
            simp only [List.cons_append, List.nil_append, List.cons.injEq] at e
            obtain ⟨rfl, rfl⟩ := e
            rw [List.nil_append] at h3
            rw [h3, Option.bind_some]
            exact (ih1 f1 f').2 ⟨uses, h4, h5⟩
    · have hend : readWords f (some (o, vs)) (w :: ws) =
          (finishOption f (some (o, vs))).bind fun f1 => readWords f1 none (w :: ws) := by
        simp only [readWords]
        rcases hk : wordKind w with _ | ⟨o', _ | v⟩ | _
        · exact absurd hk hval
        · simp [finishOption]
        · simp [finishOption]
        · cases finishOption f (some (o, vs)) <;> rfl
      rw [hend]
      constructor
      · intro h
        obtain ⟨f1, hset, h⟩ := Option.bind_eq_some_iff.1 h
        obtain ⟨uses, hr, ha⟩ := (first f1 f').1 h
        cases vs with
        | nil => cases hset
        | cons v vs =>
          have ho : o = "--models".toList := by simpa using hvs
          exact ⟨[], w :: ws, uses, f1, rfl, by simp, .inl ⟨ho, by simp⟩, by rw [List.append_nil]; exact hset, hr, ha⟩
      · rintro ⟨vs', rest, uses, f1, e, h1, h2, h3, h4, h5⟩
        cases vs' with
        | cons v vs' =>
          simp only [List.cons_append, List.cons.injEq] at e
          rw [← e.1] at h1
          exact absurd (wordKind_value.2 (h1 w (by simp))) hval
        | nil =>
          rw [List.nil_append] at e
          rw [List.append_nil] at h2 h3
          rcases h2 with ⟨-, h2⟩ | ⟨-, h2⟩
          · cases vs with
            | nil => exact absurd rfl h2
            | cons v vs =>
              rw [finishOption, h3, Option.bind_some]
              exact (first f1 f').2 ⟨uses, e ▸ h4, h5⟩
          · cases h2

/-! ## Options with their values are flags -/

theorem applyUses_snoc (f : WordFlags) (us : List OptionUse) (u : OptionUse) :
    applyUses f (us ++ [u]) = (applyUses f us).bind fun f => setOption f u.name u.values := by
  induction us generalizing f with
  | nil => simp [applyUses]
  | cons v us ih =>
    simp only [List.cons_append, applyUses]
    cases setOption f v.name v.values with
    | none => rfl
    | some f1 => simpa using ih f1

theorem lastValues_snoc (us : List OptionUse) (u : OptionUse) (o : String) :
    lastValues (us ++ [u]) o = if u.name = o.toList then some u.values else lastValues us o := by
  unfold lastValues
  rw [List.reverse_append, List.reverse_singleton, List.singleton_append, List.find?_cons]
  by_cases h : u.name = o.toList
  · simp [h]
  · simp [h]

/-- an option of the command, with as many values as it takes -/
def _root_.Verif.OptionUse.Fits (u : OptionUse) : Prop :=
  u.name ∈ cliOptions ∧ u.values ≠ [] ∧ (u.name ≠ "--models".toList → ∃ v, u.values = [v])

theorem written_fits {u : OptionUse} {p : List Text} (h : u.Written p) : u.Fits := by
  cases h with
  | apart hw ho hv => exact ⟨hw.1, by simp, fun _ => ⟨_, rfl⟩⟩
  | several hw h0 hv => exact ⟨hw.1, h0, fun h => absurd rfl h⟩
  | joined hw => exact ⟨hw.1, by simp, fun _ => ⟨_, rfl⟩⟩

theorem wordsSay_fits {ws : List Text} {uses : List OptionUse} (h : WordsSay ws uses) : ∀ u ∈ uses, u.Fits := by
  obtain ⟨parts, hp, -⟩ := h
  induction hp with
  | nil => simp
  | cons h _ ih =>
    intro u hu
    rcases List.mem_cons.1 hu with rfl | hu
    · exact written_fits h
    · exact ih u hu

theorem flagsSay_init : FlagsSay {} [] := ⟨rfl, rfl, rfl, rfl, rfl, rfl⟩

/-- which option it is -/
theorem cli_cases {o : Text} (h : o ∈ cliOptions) : o = "--study".toList ∨ o = "--models".toList ∨ o = "--component".toList ∨
    o = "--timeseries".toList ∨ o = "--duration".toList ∨ o = "--scenario".toList := by
  simpa [cliOptions] using h

theorem flagsSay_step {f f' : WordFlags} {us : List OptionUse} {u : OptionUse} (hu : u.Fits) (hf : FlagsSay f us)
    (h : setOption f u.name u.values = some f') : FlagsSay f' (us ++ [u]) := by
  obtain ⟨name, values⟩ := u
  obtain ⟨hcli, h0, hone⟩ := hu
  simp only at *
  obtain ⟨h1, h2, h3, h4, h5, h6⟩ := hf
  have other : ∀ o : String, name ≠ o.toList → lastValues (us ++ [⟨name, values⟩]) o = lastValues us o := fun o ho => by
    rw [lastValues_snoc, if_neg ho]
  have same : ∀ o : String, name = o.toList → lastValues (us ++ [⟨name, values⟩]) o = some values := fun o ho => by
    rw [lastValues_snoc, if_pos ho]
  have number : ∀ (o : String) n, name ≠ o.toList → NumberSaid us o n → NumberSaid (us ++ [⟨name, values⟩]) o n := fun o n ho h => by
    unfold NumberSaid
    rw [other o ho]
    exact h
  rcases cli_cases hcli with rfl | rfl | rfl | rfl | rfl | rfl
  · obtain ⟨v, rfl⟩ := hone (by decide +kernel)
    cases h
    exact ⟨by rw [same "--study" rfl, saidPath_eq]; rfl,
      by rw [other "--models" (by decide +kernel)]; exact h2,
      by rw [other "--component" (by decide +kernel)]; exact h3,
      by rw [other "--timeseries" (by decide +kernel)]; exact h4,
      number "--duration" _ (by decide +kernel) h5,
      number "--scenario" _ (by decide +kernel) h6⟩
  · cases h
    exact ⟨by rw [other "--study" (by decide +kernel)]; exact h1,
      by rw [same "--models" rfl, saidPath_eq]; rfl,
      by rw [other "--component" (by decide +kernel)]; exact h3,
      by rw [other "--timeseries" (by decide +kernel)]; exact h4,
      number "--duration" _ (by decide +kernel) h5,
      number "--scenario" _ (by decide +kernel) h6⟩
  · obtain ⟨v, rfl⟩ := hone (by decide +kernel)
    cases h
    exact ⟨by rw [other "--study" (by decide +kernel)]; exact h1,
      by rw [other "--models" (by decide +kernel)]; exact h2,
      by rw [same "--component" rfl, saidPath_eq]; rfl,
      by rw [other "--timeseries" (by decide +kernel)]; exact h4,
      number "--duration" _ (by decide +kernel) h5,
      number "--scenario" _ (by decide +kernel) h6⟩
  · obtain ⟨v, rfl⟩ := hone (by decide +kernel)
    cases h
    exact ⟨by rw [other "--study" (by decide +kernel)]; exact h1,
      by rw [other "--models" (by decide +kernel)]; exact h2,
      by rw [other "--component" (by decide +kernel)]; exact h3,
      by rw [same "--timeseries" rfl, saidPath_eq]; rfl,
      number "--duration" _ (by decide +kernel) h5,
      number "--scenario" _ (by decide +kernel) h6⟩
  · obtain ⟨v, rfl⟩ := hone (by decide +kernel)
    obtain ⟨n, hn, rfl⟩ := Option.map_eq_some_iff.1 h
    have hn := pyInt_iff.1 hn
    exact ⟨by rw [other "--study" (by decide +kernel)]; exact h1,
      by rw [other "--models" (by decide +kernel)]; exact h2,
      by rw [other "--component" (by decide +kernel)]; exact h3,
      by rw [other "--timeseries" (by decide +kernel)]; exact h4,
      by unfold NumberSaid; rw [same "--duration" rfl]; exact ⟨v, rfl, hn⟩,
      number "--scenario" _ (by decide +kernel) h6⟩
  · obtain ⟨v, rfl⟩ := hone (by decide +kernel)
    obtain ⟨n, hn, rfl⟩ := Option.map_eq_some_iff.1 h
    have hn := pyInt_iff.1 hn
    exact ⟨by rw [other "--study" (by decide +kernel)]; exact h1,
      by rw [other "--models" (by decide +kernel)]; exact h2,
      by rw [other "--component" (by decide +kernel)]; exact h3,
      by rw [other "--timeseries" (by decide +kernel)]; exact h4,
      number "--duration" _ (by decide +kernel) h5,
      by unfold NumberSaid; rw [same "--scenario" rfl]; exact ⟨v, rfl, hn⟩⟩

theorem setOption_some (f : WordFlags) {u : OptionUse} (hu : u.Fits) : (∃ f', setOption f u.name u.values = some f') ↔
    (u.name = "--duration".toList ∨ u.name = "--scenario".toList → ∃ v n, u.values = [v] ∧ IsInteger v n) := by
  obtain ⟨name, values⟩ := u
  obtain ⟨hcli, h0, hone⟩ := hu
  simp only at *
  rcases cli_cases hcli with rfl | rfl | rfl | rfl | rfl | rfl
  · obtain ⟨v, rfl⟩ := hone (by decide +kernel)
    exact ⟨fun _ h => absurd h (by decide +kernel), fun _ => ⟨_, rfl⟩⟩
  · exact ⟨fun _ h => absurd h (by decide +kernel), fun _ => ⟨_, rfl⟩⟩
  · obtain ⟨v, rfl⟩ := hone (by decide +kernel)
    exact ⟨fun _ h => absurd h (by decide +kernel), fun _ => ⟨_, rfl⟩⟩
  · obtain ⟨v, rfl⟩ := hone (by decide +kernel)
    exact ⟨fun _ h => absurd h (by decide +kernel), fun _ => ⟨_, rfl⟩⟩
  · obtain ⟨v, rfl⟩ := hone (by decide +kernel)
    constructor
    · rintro ⟨f', h⟩ -
      obtain ⟨n, hn, -⟩ := Option.map_eq_some_iff.1 h
      exact ⟨v, n, rfl, pyInt_iff.1 hn⟩
    · intro h
      obtain ⟨v', n, e, hn⟩ := h (.inl rfl)
      cases e
      exact ⟨_, Option.map_eq_some_iff.2 ⟨n, pyInt_iff.2 hn, rfl⟩⟩
  · obtain ⟨v, rfl⟩ := hone (by decide +kernel)
    constructor
    · rintro ⟨f', h⟩ -
      obtain ⟨n, hn, -⟩ := Option.map_eq_some_iff.1 h
      exact ⟨v, n, rfl, pyInt_iff.1 hn⟩
    · intro h
      obtain ⟨v', n, e, hn⟩ := h (.inr rfl)
      cases e
      exact ⟨_, Option.map_eq_some_iff.2 ⟨n, pyInt_iff.2 hn, rfl⟩⟩

theorem applyUses_says {us : List OptionUse} (hu : ∀ u ∈ us, u.Fits) {f : WordFlags} (h : applyUses {} us = some f) :
    NumbersFine us ∧ FlagsSay f us := by
  induction us using List.reverseRecOn generalizing f with
  | nil => cases h; exact ⟨by simp [NumbersFine], flagsSay_init⟩
  | append_singleton us u ih =>
    rw [applyUses_snoc] at h
    obtain ⟨f1, h1, h2⟩ := Option.bind_eq_some_iff.1 h
    obtain ⟨n1, s1⟩ := ih (fun v hv => hu v (by simp [hv])) h1
    refine ⟨fun v hv => ?_, flagsSay_step (hu u (by simp)) s1 h2⟩
    rcases List.mem_append.1 hv with hv | hv
    · exact n1 v hv
    · rw [List.mem_singleton.1 hv]
      exact (setOption_some f1 (hu u (by simp))).1 ⟨f, h2⟩

theorem applyUses_some {us : List OptionUse} (hu : ∀ u ∈ us, u.Fits) (hn : NumbersFine us) : ∃ f, applyUses {} us = some f := by
  induction us using List.reverseRecOn with
  | nil => exact ⟨_, rfl⟩
  | append_singleton us u ih =>
    obtain ⟨f1, h1⟩ := ih (fun v hv => hu v (by simp [hv])) (fun v hv => hn v (by simp [hv]))
    obtain ⟨f, h⟩ := (setOption_some f1 (hu u (by simp))).2 (hn u (by simp))
    exact ⟨f, by rw [applyUses_snoc, h1]; exact h⟩

theorem _root_.Verif.IsInteger.unique {w : Text} {m n : Int} (h : IsInteger w m) (h' : IsInteger w n) : m = n :=
  Option.some.inj ((pyInt_iff.2 h).symm.trans (pyInt_iff.2 h'))

theorem _root_.Verif.NumberSaid.unique {us : List OptionUse} {o : String} {m n : Int} (h : NumberSaid us o m) (h' : NumberSaid us o n) : m = n := by
  unfold NumberSaid at h h'
  cases hl : lastValues us o with
  | none => rw [hl] at h h'; exact Eq.trans h (Eq.symm h')
  | some vs =>
    rw [hl] at h h'
    obtain ⟨v, rfl, h⟩ := h
    obtain ⟨v', e, h'⟩ := h'
    cases e
    exact h.unique h'

theorem _root_.Verif.FlagsSay.unique {f f' : WordFlags} {us : List OptionUse} (h : FlagsSay f us) (h' : FlagsSay f' us) : f = f' := by
  obtain ⟨a1, a2, a3, a4, a5, a6⟩ := f
  obtain ⟨b1, b2, b3, b4, b5, b6⟩ := f'
  obtain ⟨h1, h2, h3, h4, h5, h6⟩ := h
  obtain ⟨k1, k2, k3, k4, k5, k6⟩ := h'
  simp only at *
  rw [h1, h2, h3, h4, k1, k2, k3, k4, h5.unique k5, h6.unique k6]

theorem applyUses_iff {us : List OptionUse} (hu : ∀ u ∈ us, u.Fits) {f : WordFlags} :
    applyUses {} us = some f ↔ NumbersFine us ∧ FlagsSay f us := by
  refine ⟨applyUses_says hu, fun ⟨hn, hs⟩ => ?_⟩
  obtain ⟨f', h'⟩ := applyUses_some hu hn
  rw [h', hs.unique (applyUses_says hu h').2]

/-- **C77.** The command understands its words as some flags when the words are options of the command with their values, one after the other,
each number is a number, and the flags are what the last use of each option says, 1 for a number that no option gives; every other command is
refused. -/
theorem c77_words (words : List Text) (f : WordFlags) :
    parseArgs words = some f ↔ ∃ uses, WordsSay words uses ∧ NumbersFine uses ∧ FlagsSay f uses := by
  refine ((readWords_iff words).1 {} f).trans (exists_congr fun uses => and_congr_right fun hw => ?_)
  exact applyUses_iff (wordsSay_fits hw)

/-- **C77, refused.** The command refuses words, before anything is read, exactly when they are not options with their values, or a number is
not a number. -/
theorem c77_refused (words : List Text) : parseArgs words = none ↔ ∀ uses, WordsSay words uses → ¬ NumbersFine uses := by
  rw [Option.eq_none_iff_forall_ne_some]
  constructor
  · intro h uses hw hn
    obtain ⟨f, hf⟩ := applyUses_some (wordsSay_fits hw) hn
    exact h f (((readWords_iff words).1 {} f).2 ⟨uses, hw, hf⟩)
  · intro h f hf
    obtain ⟨uses, hw, hn, -⟩ := (c77_words words f).1 hf
    exact h uses hw hn

theorem lastValues_unused {us : List OptionUse} {o : String} (h : ∀ u ∈ us, u.name ≠ o.toList) : lastValues us o = none := by
  unfold lastValues
  rw [Option.map_eq_none_iff, List.find?_eq_none]
  simpa using h

theorem lastValues_used {us : List OptionUse} (hd : (us.map (·.name)).Nodup) {u : OptionUse} (hu : u ∈ us) {o : String} (ho : u.name = o.toList) :
    lastValues us o = some u.values := by
  unfold lastValues
  cases hf : us.reverse.find? fun u => u.name = o.toList with
  | none =>
    rw [List.find?_eq_none] at hf
    exact absurd ho (by simpa using hf u (List.mem_reverse.2 hu))
  | some v =>
    have hv := List.mem_reverse.1 (List.mem_of_find?_eq_some hf)
    have hn : v.name = o.toList := by simpa using List.find?_some hf
    rw [List.inj_on_of_nodup_map hd hv hu (hn.trans ho.symm)]
    rfl

theorem lastValues_perm {us us' : List OptionUse} (hd : (us.map (·.name)).Nodup) (hp : us.Perm us') (o : String) :
    lastValues us o = lastValues us' o := by
  by_cases h : ∃ u ∈ us, u.name = o.toList
  · obtain ⟨u, hu, ho⟩ := h
    rw [lastValues_used hd hu ho, lastValues_used ((hp.map _).nodup_iff.1 hd) (hp.mem_iff.1 hu) ho]
  · push Not at h
    rw [lastValues_unused h, lastValues_unused fun u hu => h u (hp.mem_iff.2 hu)]

/-- words have one reading -/
theorem wordsSay_unique {ws : List Text} {uses uses' : List OptionUse} (h : WordsSay ws uses) (h' : WordsSay ws uses') : uses = uses' := by
  have values : ∀ {p rest : List Text} {us}, (∀ v ∈ p, IsValue v) → WordsSay rest us →
      p = (p ++ rest).takeWhile (fun v => decide (wordKind v = .value)) := by
    intro p rest us hp hr
    have h1 : rest.takeWhile (fun v => decide (wordKind v = .value)) = [] := by
      cases rest with
      | nil => rfl
      | cons w ws =>
        obtain ⟨u, us, p, rest, -, hu, -, -⟩ := wordsSay_first hr
        have : wordKind w ≠ .value := by rcases written_first hu with ⟨hk, -⟩ | ⟨v, hk, -⟩ <;> rw [hk] <;> nofun
        simp [this]
    rw [List.takeWhile_append_of_pos (by simpa using fun v hv => wordKind_value.2 (hp v hv)), h1, List.append_nil]
  induction hn : ws.length using Nat.strongRecOn generalizing ws uses uses' with
  | ind n ih =>
    cases ws with
    | nil => rw [wordsSay_nil.1 h, wordsSay_nil.1 h']
    | cons w ws =>
      obtain ⟨⟨o, vs⟩, us, p, rest, rfl, hu, e, hr⟩ := wordsSay_first h
      obtain ⟨⟨o', vs'⟩, us', p', rest', rfl, hu', e', hr'⟩ := wordsSay_first h'
      have main : o = o' ∧ vs = vs' ∧ p = p' := by
        rcases written_first hu with ⟨hk, -, rfl, hv, hc⟩ | ⟨v, hk, -, hvs, rfl⟩ <;>
          rcases written_first hu' with ⟨hk', -, rfl, hv', hc'⟩ | ⟨v', hk', -, hvs', rfl⟩ <;> rw [hk] at hk' <;>
          simp only [WordKind.option.injEq, reduceCtorEq, and_false] at hk'
        · obtain ⟨rfl, -⟩ := hk'
          have : vs = vs' := by
            rcases hc with ⟨hm, -⟩ | ⟨hm, h1⟩ <;> rcases hc' with ⟨hm', -⟩ | ⟨hm', h1'⟩
            · have a1 := values hv hr
              have a2 := values hv' hr'
              rw [← e] at a1
              rw [← e'] at a2
              exact a1.trans a2.symm
            · exact absurd hm hm'
            · exact absurd hm' hm
            · exact (List.append_inj (e.symm.trans e') (h1.trans h1'.symm)).1
          exact ⟨rfl, this, this⟩
        · obtain ⟨rfl, hvv⟩ := hk'
          simp only at hvs hvs'
          rw [hvs, hvs', Option.some.inj hvv]
          exact ⟨rfl, rfl, rfl⟩
      obtain ⟨rfl, rfl, rfl⟩ := main
      rw [e] at e'
      obtain rfl := List.append_cancel_left e'
      rw [ih rest.length (by rw [← hn, e]; simp) hr hr' rfl]

/-- **C77, order.** When no option is used twice, the order of the options, and the way they are written, do not matter. -/
theorem c77_order {words words' : List Text} {uses uses' : List OptionUse} (hw : WordsSay words uses) (hw' : WordsSay words' uses')
    (hp : uses.Perm uses') (hd : (uses.map (·.name)).Nodup) : parseArgs words = parseArgs words' := by
  have key : ∀ {words words' uses uses'}, WordsSay words uses → WordsSay words' uses' → uses.Perm uses' → (uses.map (·.name)).Nodup →
      ∀ f, applyUses {} uses = some f → applyUses {} uses' = some f := by
    intro words words' uses uses' hw hw' hp hd f hf
    obtain ⟨hn, h1, h2, h3, h4, h5, h6⟩ := (applyUses_iff (wordsSay_fits hw)).1 hf
    have hl := lastValues_perm hd hp
    refine (applyUses_iff (wordsSay_fits hw')).2 ⟨fun u hu => hn u (hp.mem_iff.2 hu), ?_, ?_, ?_, ?_, ?_, ?_⟩
    · rw [← hl]; exact h1
    · rw [← hl]; exact h2
    · rw [← hl]; exact h3
    · rw [← hl]; exact h4
    · unfold NumberSaid at *; rw [← hl]; exact h5
    · unfold NumberSaid at *; rw [← hl]; exact h6
  have e : ∀ {words uses}, WordsSay words uses → parseArgs words = applyUses {} uses := by
    intro words uses hw
    refine Option.ext fun f => ((readWords_iff words).1 {} f).trans ⟨?_, fun h => ⟨uses, hw, h⟩⟩
    rintro ⟨uses0, hw0, h⟩
    rwa [wordsSay_unique hw hw0]
  rw [e hw, e hw']
  exact Option.ext fun f => ⟨key hw hw' hp hd f, key hw' hw hp.symm ((hp.map _).nodup_iff.1 hd) f⟩

theorem lastValues_middle {before after : List OptionUse} {u : OptionUse} {o : String} (hu : u.name = o.toList)
    (h : ∀ u ∈ after, u.name ≠ o.toList) : lastValues (before ++ u :: after) o = some u.values := by
  unfold lastValues
  rw [List.reverse_append, List.reverse_cons, List.append_assoc, List.find?_append,
    List.find?_eq_none.2 fun v hv => by simpa using h v (List.mem_reverse.1 hv)]
  simp [hu]

/-- **C77, several models.** When `--models` is used several times, the files of its last use are read, and only those. -/
theorem c77_last_models {words : List Text} {before after : List OptionUse} {vs : List Text}
    (hw : WordsSay words (before ++ ⟨"--models".toList, vs⟩ :: after)) (hlast : ∀ u ∈ after, u.name ≠ "--models".toList) {f : WordFlags}
    (hf : parseArgs words = some f) : f.models = vs.map saidPath := by
  obtain ⟨uses, hw', -, hs⟩ := (c77_words words f).1 hf
  rw [← wordsSay_unique hw hw'] at hs
  rw [hs.models, lastValues_middle (o := "--models") (u := ⟨"--models".toList, vs⟩) rfl hlast]
  rfl

/-- **C77, the command.** Words that are options with their values run the command (C66, C76) with what these options say; a negative duration
is as good as 0. -/
theorem c77_command {words : List Text} {uses : List OptionUse} (hw : WordsSay words uses) (hn : NumbersFine uses) {f : WordFlags}
    (hf : FlagsSay f uses) (hs : 0 ≤ f.scenario) {c : CliFlags} (hstudy : c.study.map String.toList = f.study)
    (hmodels : c.models.map String.toList = f.models) (hcomponent : c.component.map String.toList = f.component)
    (hseries : c.timeseries.map String.toList = f.timeseries) (hduration : (c.duration : Int) = max f.duration 0)
    (hscenario : (c.scenario : Int) = f.scenario) (solve : Solver → Answer) (parser : Parser) (os : Nat → SetOrder) (fuel : Nat) (d : Disk) :
    mainWords solve parser os fuel d words = mainOutput solve parser os fuel d c := by
  have hc : f.cli = c := by
    obtain ⟨c1, c2, c3, c4, c5, c6⟩ := c
    simp only at hstudy hmodels hcomponent hseries hduration hscenario
    unfold WordFlags.cli
    rw [← hstudy, ← hmodels, ← hcomponent, ← hseries]
    congr 1
    · simp [Function.comp_def]
    · simp [Function.comp_def]
    · simp [Function.comp_def]
    · simp [Function.comp_def]
    · omega
    · omega
  unfold mainWords
  rw [(c77_words words f).2 ⟨uses, hw, hn, hf⟩]
  simp only [if_pos hs, hc]

/-- **C77, the command.** For all other words the program ends without reading a file. -/
theorem c77_command_refused {words : List Text} (h : ∀ uses, WordsSay words uses → ¬ NumbersFine uses) (solve : Solver → Answer)
    (parser : Parser) (os : Nat → SetOrder) (fuel : Nat) (d : Disk) :
    mainWords solve parser os fuel d words = some (.error (.exception "SystemExit")) := by
  unfold mainWords
  rw [(c77_refused words).2 h]

/-! ## Examples -/

theorem stands_models : Stands "--models".toList "--models".toList := wordKind_stands.1 (by decide +kernel)

/-- options may be shortened, joined with their values, and follow in any order -/
example : parseArgs (["--mod", "a.yml", "b.yml", "--duration=-3", "--comp", "c.yml", "--sc", " 1_0 "].map String.toList) =
    some { models := ["a.yml".toList, "b.yml".toList], component := some "c.yml".toList, duration := -3, scenario := 10 } := by
  decide +kernel

/-- this is one of the cases of `c77_words`, and of `c77_last_models` -/
example : WordsSay (["--models", "a.yml", "b.yml", "--duration=-3"].map String.toList)
    ([] ++ ⟨"--models".toList, ["a.yml".toList, "b.yml".toList]⟩ :: [⟨"--duration".toList, ["-3".toList]⟩]) := by
  refine ⟨[["--models".toList, "a.yml".toList, "b.yml".toList], ["--duration".toList ++ '=' :: "-3".toList]], .cons ?_ (.cons ?_ .nil), by decide +kernel⟩
  · refine .several stands_models (by simp) fun v hv => wordKind_value.1 ?_
    rcases List.mem_cons.1 hv with rfl | hv
    · decide +kernel
    · rw [List.mem_singleton.1 hv]
      decide +kernel
  · exact .joined (wordKind_stands.1 (by decide +kernel))

/-- the command with these words is the command with these flags -/
example (solve : Solver → Answer) (parser : Parser) (os : Nat → SetOrder) (fuel : Nat) (d : Disk) :
    mainWords solve parser os fuel d (["--duration=-3", "--comp", "c.yml", "--mod", "a.yml", "b.yml"].map String.toList) =
      mainOutput solve parser os fuel d { models := ["a.yml", "b.yml"], component := some "c.yml", duration := 0 } := by
  obtain ⟨uses, hw, hn, hf⟩ := (c77_words (["--duration=-3", "--comp", "c.yml", "--mod", "a.yml", "b.yml"].map String.toList)
    { models := ["a.yml".toList, "b.yml".toList], component := some "c.yml".toList, duration := -3 }).1 (by decide +kernel)
  exact c77_command hw hn hf (by decide) rfl rfl rfl rfl rfl rfl solve parser os fuel d

/-- words that are refused: a beginning of two options, a value too many, an option without value, a number that is not whole -/
example : parseArgs (["--s", "here"].map String.toList) = none ∧ parseArgs (["--study", "here", "there"].map String.toList) = none ∧
    parseArgs (["--study", "--duration", "3"].map String.toList) = none ∧ parseArgs (["--duration", "1.5"].map String.toList) = none := by
  decide +kernel

theorem setOption_models (f : WordFlags) (vs : List Text) : setOption f "--models".toList vs = some { f with models := vs.map pathText } := by
  unfold setOption
  rw [if_pos rfl]

theorem readWords_models (f : WordFlags) (m : List Text) (ws vs : List Text) :
    readWords { f with models := m } (some ("--models".toList, vs)) ws = readWords f (some ("--models".toList, vs)) ws := by
  have hf : ∀ vs, finishOption { f with models := m } (some ("--models".toList, vs)) = finishOption f (some ("--models".toList, vs)) := by
    intro vs
    cases vs with
    | nil => rfl
    | cons v vs => simp only [finishOption, setOption_models]
  induction ws generalizing vs with
  | nil => exact hf vs
  | cons w ws ih =>
    rw [readWords, readWords]
    rcases wordKind w with _ | ⟨o, _ | v⟩ | _
    · simp only [if_pos]
      exact ih _
    · simp only [hf]
    · simp only [hf]
    · rfl

/-- **C77, violation.** Every file that an earlier `--models` names is dropped without a word: for any two files, the command with both, each
after its own `--models`, is the command with the second one only. -/
theorem c77_repeated_models (a b : Text) (ha : IsValue a) (words : List Text) :
    parseArgs ("--models".toList :: a :: "--models".toList :: b :: words) = parseArgs ("--models".toList :: b :: words) := by
  have hm : wordKind "--models".toList = .option "--models".toList none := by decide +kernel
  have h1 : ∀ f cur ws, readWords f cur ("--models".toList :: ws) = (finishOption f cur).bind fun f => readWords f (some ("--models".toList, [])) ws := by
    intro f cur ws
    simp only [readWords, hm]
  have h2 : ∀ f vs ws, readWords f (some ("--models".toList, vs)) (a :: ws) = readWords f (some ("--models".toList, vs ++ [a])) ws := by
    intro f vs ws
    rw [readWords, wordKind_value.2 ha]
    simp only [if_pos]
  unfold parseArgs
  rw [h1, h1, finishOption, Option.bind_some, h2, h1, Option.bind_some, List.nil_append, finishOption, setOption_models, Option.bind_some,
    readWords_models]

/-- a machine that must run, and costs 50 an hour -/
def machineDisk : Disk where
  listDir _ := .error (.exception "FileNotFoundError")
  library _ := .ok
    { id := "lib", models := [{ id := "machine", variables_ := [{ id := "p", lowerBound := some "5" }], objective := some "expec(sum(10 * p))" }] }
  system _ := .ok { components := [{ id := "m", model := "lib.machine" }] }
  table _ _ := .error (.exception "FileNotFoundError")

/-- the command for this machine -/
def machineWords (hours : Text) : List Text :=
  ["--models".toList, "lib.yml".toList, "--component".toList, "study.yml".toList, "--duration".toList ++ '=' :: hours]

theorem parse_models_component_number {m a c b w o v : Text} {n : Int} (h1 : wordKind m = .option "--models".toList none) (h2 : wordKind a = .value)
    (h3 : wordKind c = .option o none) (h4 : wordKind b = .value) (h5 : wordKind w = .option "--duration".toList (some v))
    (ho : o ≠ "--models".toList) (hc : ∀ f : WordFlags, setOption f o [b] = some { f with component := some b })
    (hd : ∀ f : WordFlags, setOption f "--duration".toList [v] = some { f with duration := n }) (ha : pathText a = a) :
    parseArgs [m, a, c, b, w] = some { models := [a], component := some b, duration := n } := by
  simp only [parseArgs, readWords, h1, h2, h3, h4, h5, ho, finishOption, Option.bind_some, if_true, if_false, List.nil_append, setOption_models, hc, hd,
    List.map_cons, List.map_nil, ha]

theorem machineWords_flags (v : Text) (n : Int) (h : IsInteger v n) :
    parseArgs (machineWords v) = some { models := ["lib.yml".toList], component := some "study.yml".toList, duration := n } := by
  refine parse_models_component_number (o := "--component".toList) (v := v) (by decide +kernel) (by decide +kernel) (by decide +kernel)
    (by decide +kernel) (wordKind_joined.2 ⟨_, rfl, wordKind_stands.1 (by decide +kernel)⟩).1 (by decide +kernel) (fun f => ?_) (fun f => ?_)
    (by decide +kernel)
  · unfold setOption
    rw [if_neg (by decide +kernel)]
    simp only
    rw [if_neg (by decide +kernel), if_pos trivial, pathText, if_neg (by decide +kernel)]
  · unfold setOption
    rw [if_neg (by decide +kernel)]
    simp only
    rw [if_neg (by decide +kernel), if_neg (by decide +kernel), if_neg (by decide +kernel), if_pos trivial, pyInt_iff.2 h]
    rfl

/-- **C77, violation.** A duration that is not positive is accepted: the study of a machine that costs 50 an hour is then found to cost 0, with
the status of a best solution. -/
theorem c77_no_hours (solve : Solver → Answer) (hsolve : RightSolver solve) (v : Text) (n : Int) (h : IsInteger v n) (hn : n ≤ 0) :
    mainWords solve textParser (fun _ => firstOrder) 8 machineDisk (machineWords v) = some (.ok ⟨0, 0⟩) := by
  have hrun : mainCli textParser (fun _ => firstOrder) 8 machineDisk { models := ["lib.yml"], component := some "study.yml", duration := 0 } =
      some (.ok {}) := by decide +kernel
  have hbest : LeastCost ({} : Solver).Feasible ({} : Solver).cost 0 := by
    have h : ∀ pt, ({} : Solver).cost pt = 0 := fun pt => by simp [Solver.cost, linForm]; rfl
    exact ⟨⟨fun _ => 0, ⟨by simp, by simp⟩, h _⟩, fun pt _ => (h pt).ge⟩
  have h0 := (hsolve.optimal {}).2 ⟨0, hbest⟩
  have hv : (solve {}).value = 0 := le_antisymm (by
    obtain ⟨pt, hpt, e⟩ := hbest.1
    exact e ▸ (hsolve.value _ h0).2 pt hpt) (by
    obtain ⟨pt, hpt, e⟩ := (hsolve.value _ h0).1
    rw [← e]; exact hbest.2 pt hpt)
  unfold mainWords
  rw [machineWords_flags v n h]
  simp only [show (0 : Int) ≤ 1 by decide, if_true]
  have hflags : WordFlags.cli { models := ["lib.yml".toList], component := some "study.yml".toList, duration := n } =
      { models := ["lib.yml"], component := some "study.yml", duration := 0 } := by
    simp [WordFlags.cli, Int.toNat_eq_zero.2 hn]
  rw [hflags, mainOutput, hrun]
  simp [printAnswer, h0, hv]

/-- `0` and `-3` are such durations -/
example : IsInteger "0".toList 0 ∧ IsInteger "-3".toList (-3) :=
  ⟨pyInt_iff.1 (by decide +kernel), pyInt_iff.1 (by decide +kernel)⟩

/-- for an hour, the cost is 50 -/
example : ∃ p, mainCli textParser (fun _ => firstOrder) 8 machineDisk { models := ["lib.yml"], component := some "study.yml", duration := 1 } =
    some (.ok p) ∧ LeastCost p.solver.Feasible p.solver.cost 50 := by
  refine ⟨{ solver := { vars := [⟨"m_p", .fin 5, .pinf, false⟩], objective := [(0, .fin 10)], offset := .fin 0 },
            columns := [(⟨"m", "p", some 0, some 0⟩, 0)], infos := [("m_p", ⟨"m_p", 0, true⟩)] }, by decide +kernel, ?_⟩
  have hc : ∀ pt, Solver.cost { vars := [⟨"m_p", .fin 5, .pinf, false⟩], objective := [(0, .fin 10)], offset := .fin 0 } pt = 10 * pt 0 := by
    intro pt
    simp [Solver.cost, linForm, Num.toQ]
  refine ⟨⟨fun _ => 5, ⟨fun i v h => ?_, by simp⟩, by rw [hc]; norm_num⟩, fun pt hpt => ?_⟩
  · rcases i with _ | i <;> simp at h
    subst h
    simp [SolverVar.Sat, Num.isBelow, Num.isAbove]
  · have := (hpt.1 0 _ rfl).1
    rw [hc]
    simp only [Num.isBelow] at this
    linarith

end Verif.Props
