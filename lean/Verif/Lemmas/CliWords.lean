import Verif.Spec.CliWords
import Mathlib.Tactic.IntervalCases

/-! Words of the command. -/

namespace Verif

theorem options_distinct : ∀ o ∈ allOptions, ∀ o' ∈ allOptions, o <+: o' → o' = o := by decide +kernel
theorem options_cli : ∀ o ∈ cliOptions, o ∈ allOptions ∧ "--".toList <+: o ∧ '=' ∉ o := by decide +kernel
theorem options_dashes : ∀ o ∈ allOptions, o = "-h".toList ∨ "--".toList <+: o := by decide +kernel
theorem options_equal : ∀ o ∈ allOptions, '=' ∉ o := by decide +kernel
theorem options_nodup : allOptions.Nodup := by decide +kernel

theorem takeWhile_all {α} {p : α → Bool} {l : List α} (h : ∀ a ∈ l, p a = true) : l.takeWhile p = l := by
  induction l with
  | nil => rfl
  | cons a l ih => rw [List.takeWhile_cons, if_pos (h a (by simp)), ih fun b hb => h b (by simp [hb])]

theorem dropWhile_all {α} {p : α → Bool} {l : List α} (h : ∀ a ∈ l, p a = true) : l.dropWhile p = [] := by
  induction l with
  | nil => rfl
  | cons a l ih => rw [List.dropWhile_cons, if_pos (h a (by simp)), ih fun b hb => h b (by simp [hb])]

theorem mem_takeWhile {α} {p : α → Bool} {l : List α} {a : α} (h : a ∈ l.takeWhile p) : p a = true := by
  induction l with
  | nil => cases h
  | cons b l ih =>
    rw [List.takeWhile_cons] at h
    split_ifs at h with hb
    · rcases List.mem_cons.1 h with rfl | h
      · exact hb
      · exact ih h
    · cases h

theorem splitEqual_none {w : Text} (h : '=' ∉ w) : splitEqual w = (w, none) := by
  unfold splitEqual
  have : w.span (· ≠ '=') = (w, []) := by
    rw [List.span_eq_takeWhile_dropWhile]
    have h1 : ∀ c ∈ w, decide (c ≠ '=') = true := fun c hc => by simp; rintro rfl; exact h hc
    rw [takeWhile_all h1, dropWhile_all h1]
  rw [this]

theorem splitEqual_some {a v : Text} (h : '=' ∉ a) : splitEqual (a ++ '=' :: v) = (a, some v) := by
  unfold splitEqual
  have : (a ++ '=' :: v).span (· ≠ '=') = (a, '=' :: v) := by
    rw [List.span_eq_takeWhile_dropWhile]
    have h1 : ∀ c ∈ a, decide (c ≠ '=') = true := fun c hc => by simp; rintro rfl; exact h hc
    rw [List.takeWhile_append_of_pos h1, List.dropWhile_append_of_pos h1]
    simp
  rw [this]

theorem splitEqual_cases (w : Text) : '=' ∉ w ∧ splitEqual w = (w, none) ∨ ∃ a v, '=' ∉ a ∧ w = a ++ '=' :: v ∧ splitEqual w = (a, some v) := by
  by_cases h : '=' ∈ w
  · obtain ⟨a, b, rfl, ha⟩ := List.eq_append_cons_of_mem h
    exact .inr ⟨a, b, ha, rfl, splitEqual_some ha⟩
  · exact .inl ⟨h, splitEqual_none h⟩

theorem filter_single {α} {p : α → Bool} {l : List α} (hn : l.Nodup) {a : α} : l.filter p = [a] ↔ (a ∈ l ∧ p a = true ∧ ∀ b ∈ l, p b = true → b = a) := by
  constructor
  · intro h
    have hm : ∀ b, b ∈ l.filter p ↔ b = a := by rw [h]; simp
    refine ⟨(List.mem_filter.1 ((hm a).2 rfl)).1, (List.mem_filter.1 ((hm a).2 rfl)).2, fun b hb hp => (hm b).1 (List.mem_filter.2 ⟨hb, hp⟩)⟩
  · rintro ⟨h1, h2, h3⟩
    have hm : ∀ b, b ∈ l.filter p ↔ b = a := fun b => by
      rw [List.mem_filter]
      exact ⟨fun h => h3 b h.1 h.2, fun h => h ▸ ⟨h1, h2⟩⟩
    have hn' := hn.filter p
    rcases hl : l.filter p with _ | ⟨b, _ | ⟨c, r⟩⟩
    · exact absurd ((hm a).2 rfl) (by simp [hl])
    · rw [hl] at hm; rw [(hm b).1 (by simp)]
    · rw [hl] at hm hn'
      have e1 := (hm b).1 (by simp)
      have e2 := (hm c).1 (by simp)
      simp [e1, e2] at hn'

theorem prefix_two {w o : Text} (ho : "--".toList <+: o) (hw : w <+: o) : w = [] ∨ w = ['-'] ∨ "--".toList <+: w := by
  obtain ⟨r, rfl⟩ := ho
  have e : "--".toList = ['-', '-'] := rfl
  rw [e] at hw ⊢
  rcases w with _ | ⟨a, _ | ⟨b, w⟩⟩
  · exact .inl rfl
  · simp [List.cons_prefix_cons] at hw; simp [hw]
  · simp only [List.cons_append, List.nil_append, List.cons_prefix_cons] at hw
    obtain ⟨rfl, rfl, -⟩ := hw
    exact .inr (.inr ⟨w, rfl⟩)

theorem option_h : "-h".toList ∈ allOptions := by decide +kernel
theorem option_study : "--study".toList ∈ allOptions ∧ "--models".toList ∈ allOptions := by decide +kernel

theorem Stands.facts {w o : Text} (h : Stands w o) : "--".toList <+: w ∧ w ≠ "--".toList ∧ w.head? = some '-' ∧ w.length ≠ 1 ∧ '=' ∉ w := by
  obtain ⟨h1, h2, h3⟩ := h
  obtain ⟨g1, g2, g3⟩ := options_cli o h1
  have hall : ∀ {v : Text}, (∀ o ∈ cliOptions, v <+: o) → w ≠ v := by
    rintro v hv rfl
    have e1 := h3 _ option_study.1 (hv _ (by decide +kernel))
    have e2 := h3 _ option_study.2 (hv _ (by decide +kernel))
    exact absurd (e1.trans e2.symm) (by decide)
  have hd : "--".toList <+: w := by
    rcases prefix_two g2 h2 with rfl | rfl | h
    · exact absurd rfl (hall (v := []) (fun o _ => List.nil_prefix))
    · exact absurd rfl (hall (v := ['-']) (by decide +kernel))
    · exact h
  refine ⟨hd, hall (by decide +kernel), ?_, ?_, fun he => g3 (h2.subset he)⟩
  · obtain ⟨r, rfl⟩ := hd; rfl
  · obtain ⟨r, rfl⟩ := hd
    simp

theorem isPrefixOf_dashes {w : Text} : ['-', '-'].isPrefixOf w = true ↔ "--".toList <+: w := by
  rw [List.isPrefixOf_iff_prefix]
  rfl

theorem tuples_dashes {w : Text} (h : "--".toList <+: w) :
    optionTuples w = (allOptions.filter fun o => (splitEqual w).1.isPrefixOf o).map fun o => (o, (splitEqual w).2) := by
  unfold optionTuples
  rw [if_pos (isPrefixOf_dashes.2 h)]

theorem tuples_single {w : Text} (h : ¬ "--".toList <+: w) (h2 : 2 ≤ w.length) (hd : w.head? = some '-') :
    optionTuples w = if "-h".toList <+: w then [("-h".toList, some (w.drop 2))] else [] := by
  have h' : ¬ ['-', '-'].isPrefixOf w = true := fun e => h (isPrefixOf_dashes.1 e)
  obtain ⟨b, r, rfl⟩ : ∃ b r, w = '-' :: b :: r := by
    rcases w with _ | ⟨a, _ | ⟨b, r⟩⟩
    · simp at h2
    · simp at h2
    · simp at hd; exact ⟨b, r, by rw [hd]⟩
  have hb : b ≠ '-' := by rintro rfl; exact h ⟨r, rfl⟩
  have hb' : ¬ '-' = b := fun e => hb e.symm
  unfold optionTuples
  rw [if_neg h']
  have e : "-h".toList = ['-', 'h'] := rfl
  have hc : ∀ o ∈ cliOptions, (if o = ('-' :: b :: r).take 2 then some (o, some (('-' :: b :: r).drop 2)) else
      if ('-' :: b :: r).isPrefixOf o then some (o, none) else none) = (none : Option (Text × Option Text)) := by
    intro o ho
    obtain ⟨-, ⟨q, rfl⟩, -⟩ := options_cli o ho
    have e : "--".toList = ['-', '-'] := rfl
    simp [e, hb, hb']
  unfold allOptions
  rw [List.filterMap_cons, List.filterMap_cons, List.filterMap_eq_nil_iff.2 hc]
  have e' : "--help".toList = ['-', '-', 'h', 'e', 'l', 'p'] := rfl
  rw [e, e']
  by_cases hh : b = 'h'
  · subst hh
    simp
  · have hh' : ¬ 'h' = b := fun e => hh e.symm
    simp [hh, hh', hb, hb']

theorem abbreviated_option {w o : Text} {v : Option Text} (h : abbreviated w = .option o v) : optionTuples w = [(o, v)] := by
  unfold abbreviated at h
  split at h
  · next o' v' heq => cases h; exact heq
  · cases h
  · split_ifs at h

theorem abbreviated_eq {w o : Text} {v : Option Text} (h : optionTuples w = [(o, v)]) : abbreviated w = .option o v := by
  unfold abbreviated
  rw [h]

/-- words that stand for an option without a value in them -/
theorem wordKind_stands {w o : Text} : (wordKind w = .option o none ∧ o ∈ cliOptions) ↔ Stands w o := by
  constructor
  · rintro ⟨h, ho⟩
    obtain ⟨g1, g2, g3⟩ := options_cli o ho
    unfold wordKind at h
    split_ifs at h with c1 c2 c3 c4 c5
    · simp only [WordKind.option.injEq, and_true] at h
      subst h
      exact ⟨ho, List.prefix_rfl, fun o' ho' hp => options_distinct _ c3 _ ho' hp⟩
    · simp only [WordKind.option.injEq] at h
      rw [h.2] at c5
      simp at c5
    · have ht : optionTuples w = [(o, none)] := abbreviated_option h
      by_cases hd : "--".toList <+: w
      · rw [tuples_dashes hd] at ht
        obtain ⟨o', hf, he⟩ := List.map_eq_singleton_iff.1 ht
        obtain ⟨k1, k2, k3⟩ := (filter_single options_nodup).1 hf
        rcases splitEqual_cases w with ⟨-, e⟩ | ⟨a, v, -, -, e⟩
        · rw [e] at k2 k3 he
          cases he
          exact ⟨ho, List.isPrefixOf_iff_prefix.1 k2, fun o' ho' hp => k3 o' ho' (List.isPrefixOf_iff_prefix.2 hp)⟩
        · rw [e] at he
          simp at he
      · have h2 : 2 ≤ w.length := by
          rcases w with _ | ⟨a, _ | ⟨b, r⟩⟩
          · simp at c1
          · simp at c4
          · simp
        rw [tuples_single hd h2 (by simpa using c1)] at ht
        split_ifs at ht
        simp at ht
  · intro h
    obtain ⟨f1, f2, f3, f4, f5⟩ := h.facts
    obtain ⟨ho, hp, hu⟩ := h
    refine ⟨?_, ho⟩
    unfold wordKind
    rw [if_neg (by simp [f3]), if_neg f2]
    split_ifs with c3 c5
    · rw [hu w c3 List.prefix_rfl]
    · exfalso
      rw [splitEqual_none f5] at c5
      simp at c5
    · refine abbreviated_eq ?_
      rw [tuples_dashes f1, splitEqual_none f5]
      have : (allOptions.filter fun o => w.isPrefixOf o) = [o] :=
        (filter_single options_nodup).2 ⟨(options_cli o ho).1, List.isPrefixOf_iff_prefix.2 hp,
          fun b hb hpb => hu b hb (List.isPrefixOf_iff_prefix.1 hpb)⟩
      simp only [this, List.map_cons, List.map_nil]

/-- words that stand for an option with a value in them -/
theorem wordKind_joined {w o v : Text} : (wordKind w = .option o (some v) ∧ o ∈ cliOptions) ↔ ∃ a, w = a ++ '=' :: v ∧ Stands a o := by
  constructor
  · rintro ⟨h, ho⟩
    obtain ⟨g1, g2, g3⟩ := options_cli o ho
    unfold wordKind at h
    split_ifs at h with c1 c2 c3 c4 c5
    · simp at h
    · rcases splitEqual_cases w with ⟨-, e⟩ | ⟨a, v', -, e1, e⟩
      · rw [e] at c5
        simp at c5
      · rw [e] at h c5
        simp only [WordKind.option.injEq, Option.some.injEq] at h
        obtain ⟨rfl, rfl⟩ := h
        exact ⟨a, e1, ho, List.prefix_rfl, fun o' ho' hp => options_distinct _ c5.2 _ ho' hp⟩
    · have ht : optionTuples w = [(o, some v)] := abbreviated_option h
      by_cases hd : "--".toList <+: w
      · rw [tuples_dashes hd] at ht
        obtain ⟨o', hf, he⟩ := List.map_eq_singleton_iff.1 ht
        obtain ⟨k1, k2, k3⟩ := (filter_single options_nodup).1 hf
        rcases splitEqual_cases w with ⟨-, e⟩ | ⟨a, v', -, e1, e⟩
        · rw [e] at he
          simp at he
        · rw [e] at k2 k3 he
          simp only [Prod.mk.injEq, Option.some.injEq] at he
          obtain ⟨rfl, rfl⟩ := he
          exact ⟨a, e1, ho, List.isPrefixOf_iff_prefix.1 k2, fun o' ho' hp => k3 o' ho' (List.isPrefixOf_iff_prefix.2 hp)⟩
      · have h2 : 2 ≤ w.length := by
          rcases w with _ | ⟨a, _ | ⟨b, r⟩⟩
          · simp at c1
          · simp at c4
          · simp
        rw [tuples_single hd h2 (by simpa using c1)] at ht
        split_ifs at ht
        · simp only [List.cons.injEq, Prod.mk.injEq, Option.some.injEq, and_true] at ht
          rw [← ht.1] at g2
          exact absurd g2 (by decide)
  · rintro ⟨a, rfl, h⟩
    obtain ⟨f1, f2, f3, f4, f5⟩ := h.facts
    obtain ⟨ho, hp, hu⟩ := h
    refine ⟨?_, ho⟩
    have hm : '=' ∈ a ++ '=' :: v := by simp
    have hd : "--".toList <+: a ++ '=' :: v := f1.trans (List.prefix_append _ _)
    have c1 : (a ++ '=' :: v).head? = some '-' := by
      obtain ⟨r, rfl⟩ := f1; rfl
    have c2 : a ++ '=' :: v ≠ "--".toList := fun e => by rw [e] at hm; exact absurd hm (by decide)
    have c3 : a ++ '=' :: v ∉ allOptions := fun e => options_equal _ e hm
    have c4 : (a ++ '=' :: v).length ≠ 1 := by
      obtain ⟨r, rfl⟩ := f1; simp
    unfold wordKind
    rw [if_neg (by simp [c1]), if_neg c2, if_neg c3, if_neg c4]
    split_ifs with c5
    · rw [splitEqual_some f5] at c5 ⊢
      rw [hu a c5.2 List.prefix_rfl]
    · refine abbreviated_eq ?_
      rw [tuples_dashes hd, splitEqual_some f5]
      have : (allOptions.filter fun o => a.isPrefixOf o) = [o] :=
        (filter_single options_nodup).2 ⟨(options_cli o ho).1, List.isPrefixOf_iff_prefix.2 hp,
          fun b hb hpb => hu b hb (List.isPrefixOf_iff_prefix.1 hpb)⟩
      simp only [this, List.map_cons, List.map_nil]

/-! ## Values -/

theorem digit_ne {c d : Char} (h : c.isDigit = true) (hd : d.isDigit = false) : c ≠ d := by rintro rfl; simp [h] at hd

theorem negativeNumber_iff {w : Text} : isNegativeNumber w = true ↔ NegativeNumber w := by
  have strip : ∀ (x e : Text), (∀ c ∈ x, c ≠ '\n') → (e = [] ∨ e = ['\n']) →
      (if (x ++ e).getLast? = some '\n' then (x ++ e).dropLast else x ++ e) = x := by
    intro x e hx he
    rcases he with rfl | rfl
    · rw [List.append_nil, if_neg]
      intro h
      exact hx _ (List.mem_of_getLast? h) rfl
    · simp
  constructor
  · intro h
    unfold isNegativeNumber at h
    split at h
    · next r =>
      obtain ⟨e, he, hr⟩ : ∃ e, (e = [] ∨ e = ['\n']) ∧ r = (if r.getLast? = some '\n' then r.dropLast else r) ++ e := by
        split_ifs with hl
        · exact ⟨['\n'], .inr rfl, (List.dropLast_append_getLast? _ hl).symm⟩
        · exact ⟨[], .inl rfl, (List.append_nil _).symm⟩
      simp only at h
      generalize (if r.getLast? = some '\n' then r.dropLast else r) = r' at h hr
      have hsplit := List.takeWhile_append_dropWhile (p := Char.isDigit) (l := r')
      refine ⟨r'.takeWhile Char.isDigit, e, fun c hc => mem_takeWhile hc, he, ?_⟩
      split at h
      · next hnil =>
        rw [hnil, List.append_nil] at hsplit
        refine .inl ⟨by simpa using h, ?_⟩
        rw [hsplit, hr]; rfl
      · next ds hds =>
        rw [hds] at hsplit
        simp only [ne_eq, decide_not, Bool.and_eq_true, Bool.not_eq_eq_eq_not, Bool.not_true, decide_eq_false_iff_not, List.all_eq_true] at h
        refine .inr ⟨ds, h.1, h.2, ?_⟩
        rw [hr]
        conv_lhs => rw [← hsplit]
        simp
      · cases h
    · cases h
  · rintro ⟨d, e, hd, he, ⟨h0, rfl⟩ | ⟨d', h0, hd', rfl⟩⟩
    · unfold isNegativeNumber
      simp only [List.cons_append]
      rw [strip d e (fun c hc => digit_ne (hd c hc) (by decide)) he, takeWhile_all hd, dropWhile_all hd]
      simpa using h0
    · unfold isNegativeNumber
      have hx : ∀ c ∈ d ++ '.' :: d', c ≠ '\n' := by
        intro c hc
        simp only [List.mem_append, List.mem_cons] at hc
        rcases hc with hc | rfl | hc
        · exact digit_ne (hd c hc) (by decide)
        · decide
        · exact digit_ne (hd' c hc) (by decide)
      have e1 : '-' :: d ++ '.' :: d' ++ e = '-' :: ((d ++ '.' :: d') ++ e) := by simp
      rw [e1]
      simp only
      rw [strip _ e hx he, List.dropWhile_append_of_pos hd]
      have : List.dropWhile Char.isDigit ('.' :: d') = '.' :: d' := by simp
      rw [this]
      simpa [h0] using hd'

theorem wordKind_value {w : Text} : wordKind w = .value ↔ IsValue w := by
  have hno : ∀ {w : Text}, w.head? = some '-' → w ≠ ['-'] → IsValue w → (NegativeNumber w ∨ ' ' ∈ w) ∧ ¬ "-h".toList <+: w ∧
      ∀ a, "--".toList <+: a → (a = w ∨ ∃ v, w = a ++ '=' :: v) → ∀ o ∈ allOptions, ¬ a <+: o := by
    intro w h1 h2 h
    rcases h with h | h | h
    · exact absurd h1 h
    · exact absurd h h2
    · exact h.2
  unfold wordKind
  split_ifs with c1 c2 c3 c4 c5
  · exact ⟨fun _ => .inl c1, fun _ => rfl⟩
  · subst c2
    refine ⟨fun h => (by cases h), fun h => ?_⟩
    exact absurd (by decide +kernel) ((hno rfl (by decide) h).2.2 _ List.prefix_rfl (.inl rfl) _ option_study.1)
  · refine ⟨fun h => (by cases h), fun h => ?_⟩
    obtain ⟨-, k2, k3⟩ := hno (by simpa using c1) (by rintro rfl; exact absurd c3 (by decide +kernel)) h
    rcases options_dashes w c3 with rfl | hd
    · exact absurd List.prefix_rfl k2
    · exact absurd List.prefix_rfl (k3 w hd (.inl rfl) w c3)
  · refine ⟨fun _ => .inr (.inl ?_), fun _ => rfl⟩
    obtain ⟨a, rfl⟩ := List.length_eq_one_iff.1 c4
    simp at c1
    rw [c1]
  · refine ⟨fun h => (by cases h), fun h => ?_⟩
    obtain ⟨-, k2, k3⟩ := hno (by simpa using c1) (by rintro rfl; simp at c4) h
    rcases splitEqual_cases w with ⟨-, e⟩ | ⟨a, v, -, e1, e⟩
    · rw [e] at c5
      simp at c5
    · rw [e] at c5
      rcases options_dashes a c5.2 with rfl | hd
      · exact absurd ⟨_, e1.symm⟩ k2
      · exact absurd List.prefix_rfl (k3 a hd (.inr ⟨v, e1⟩) a c5.2)
  · have c1' : w.head? = some '-' := by simpa using c1
    have h1 : w ≠ ['-'] := by rintro rfl; simp at c4
    have h2 : 2 ≤ w.length := by
      rcases w with _ | ⟨a, _ | ⟨b, r⟩⟩
      · simp at c1
      · simp at c4
      · simp
    have key : optionTuples w = [] ↔ (¬ "-h".toList <+: w ∧
        ∀ a, "--".toList <+: a → (a = w ∨ ∃ v, w = a ++ '=' :: v) → ∀ o ∈ allOptions, ¬ a <+: o) := by
      by_cases hd : "--".toList <+: w
      · rw [tuples_dashes hd, List.map_eq_nil_iff, List.filter_eq_nil_iff]
        have hh : ¬ "-h".toList <+: w := by
          obtain ⟨r, rfl⟩ := hd
          have e1 : "-h".toList = ['-', 'h'] := rfl
          have e2 : "--".toList = ['-', '-'] := rfl
          rw [e1, e2]
          simp
        constructor
        · intro h
          refine ⟨hh, fun a ha hw o ho hp => ?_⟩
          have hna : '=' ∉ a := fun he => options_equal o ho (hp.subset he)
          rcases hw with rfl | ⟨v, rfl⟩
          · rw [splitEqual_none hna] at h
            exact h o ho (List.isPrefixOf_iff_prefix.2 hp)
          · rw [splitEqual_some hna] at h
            exact h o ho (List.isPrefixOf_iff_prefix.2 hp)
        · rintro ⟨-, h⟩ o ho hp
          rcases splitEqual_cases w with ⟨hn, e⟩ | ⟨a, v, hn, e1, e⟩
          · rw [e] at hp
            exact h w hd (.inl rfl) o ho (List.isPrefixOf_iff_prefix.1 hp)
          · rw [e] at hp
            refine h a ?_ (.inr ⟨v, e1⟩) o ho (List.isPrefixOf_iff_prefix.1 hp)
            rw [e1] at hd
            have e2 : "--".toList = ['-', '-'] := rfl
            rw [e2] at hd ⊢
            rcases a with _ | ⟨x, _ | ⟨y, a⟩⟩
            · simp at hd
            · simp at hd
            · simp only [List.cons_append, List.cons_prefix_cons] at hd
              obtain ⟨rfl, rfl, -⟩ := hd
              exact ⟨a, rfl⟩
      · rw [tuples_single hd h2 c1']
        constructor
        · intro h
          split_ifs at h with hh
          exact ⟨hh, fun a ha hw => absurd (by rcases hw with rfl | ⟨v, rfl⟩; exacts [ha, ha.trans (List.prefix_append _ _)]) hd⟩
        · rintro ⟨hh, -⟩
          rw [if_neg hh]
    have hval : abbreviated w = .value ↔ optionTuples w = [] ∧ (isNegativeNumber w = true ∨ ' ' ∈ w) := by
      unfold abbreviated
      split
      · next h => simp [h]
      · next h => simp [h]
      · next h =>
        rw [h]
        split_ifs with g1 g2 <;> simp [*]
    rw [hval, key, negativeNumber_iff]
    constructor
    · rintro ⟨⟨k1, k2⟩, k3⟩
      exact .inr (.inr ⟨c1', k3, k1, k2⟩)
    · intro h
      obtain ⟨k1, k2, k3⟩ := hno c1' h1 h
      exact ⟨⟨k2, k3⟩, k1⟩

/-! ## Numbers -/

theorem digit_of_nat {d : Nat} (h : d < 10) : (Char.ofNat (48 + d)).isDigit = true ∧ (Char.ofNat (48 + d)).toNat - 48 = d := by
  interval_cases d <;> exact ⟨rfl, rfl⟩

theorem digit_nat {c : Char} (h : c.isDigit = true) : ∃ d < 10, c = Char.ofNat (48 + d) := by
  have h' : 48 ≤ c.toNat ∧ c.toNat ≤ 57 := by
    simp only [Char.isDigit, Bool.and_eq_true, decide_eq_true_eq] at h
    exact ⟨by exact_mod_cast h.1, by exact_mod_cast h.2⟩
  refine ⟨c.toNat - 48, by omega, ?_⟩
  rw [show 48 + (c.toNat - 48) = c.toNat by omega, Char.ofNat_toNat]

theorem digitsAfter_append {n m : Nat} {w v : Text} (h : digitsAfter n w = some m) : digitsAfter n (w ++ v) = digitsAfter m v := by
  induction n, w using digitsAfter.induct with
  | case1 n =>
    simp only [digitsAfter, Option.some.injEq] at h
    rw [h]; rfl
  | case2 n c r hc ih =>
    simp only [digitsAfter, hc, if_true] at h
    simp only [List.cons_append, digitsAfter, hc, if_true]
    exact ih h
  | case3 n c r hc =>
    simp only [digitsAfter, hc, Bool.false_eq_true, if_false] at h
    cases h
  | case4 n c r hne hc ih =>
    have e : ∀ r, digitsAfter n (c :: r) = digitsAfter (10 * n + (c.toNat - 48)) r := by
      intro r
      rw [digitsAfter.eq_3, if_pos hc]
      rintro c' r' rfl
      exact absurd hc (by decide)
    rw [e] at h
    rw [List.cons_append, e]
    exact ih h
  | case5 n c r hne hc =>
    rw [digitsAfter.eq_3 _ _ _ hne, if_neg hc] at h
    cases h

theorem numeral_sound {n m : Nat} {u w : Text} (hu : IsNumeral u n) (h : digitsAfter n w = some m) : IsNumeral (u ++ w) m := by
  induction n, w using digitsAfter.induct generalizing u with
  | case1 n =>
    simp only [digitsAfter, Option.some.injEq] at h
    rw [← h, List.append_nil]; exact hu
  | case2 n c r hc ih =>
    simp only [digitsAfter, hc, if_true] at h
    obtain ⟨d, hd, rfl⟩ := digit_nat hc
    rw [(digit_of_nat hd).2] at h ih
    have := ih (hu.apart d hd) h
    simpa using this
  | case3 n c r hc =>
    simp only [digitsAfter, hc, Bool.false_eq_true, if_false] at h
    cases h
  | case4 n c r hne hc ih =>
    rw [digitsAfter.eq_3 _ _ _ hne, if_pos hc] at h
    obtain ⟨d, hd, rfl⟩ := digit_nat hc
    rw [(digit_of_nat hd).2] at h ih
    have := ih (hu.more d hd) h
    simpa using this
  | case5 n c r hne hc =>
    rw [digitsAfter.eq_3 _ _ _ hne, if_neg hc] at h
    cases h

theorem numeral_iff {w : Text} {n : Nat} : numeral w = some n ↔ IsNumeral w n := by
  constructor
  · intro h
    cases w with
    | nil => cases h
    | cons c r =>
      simp only [numeral] at h
      split_ifs at h with hc
      obtain ⟨d, hd, rfl⟩ := digit_nat hc
      rw [(digit_of_nat hd).2] at h
      exact numeral_sound (.digit d hd) h
  · intro h
    have one : ∀ (k d : Nat), d < 10 → digitsAfter k [Char.ofNat (48 + d)] = some (10 * k + d) ∧
        digitsAfter k ['_', Char.ofNat (48 + d)] = some (10 * k + d) := by
      intro k d hd
      refine ⟨?_, by simp [digitsAfter, (digit_of_nat hd).1, (digit_of_nat hd).2]⟩
      rw [digitsAfter.eq_3 _ _ _ (by intro c r _ h; cases h), if_pos (digit_of_nat hd).1, (digit_of_nat hd).2]
      rfl
    have app : ∀ (w v : Text) (k m : Nat), numeral w = some k → digitsAfter k v = some m → numeral (w ++ v) = some m := by
      intro w v k m h1 h2
      cases w with
      | nil => cases h1
      | cons c r =>
        simp only [numeral] at h1
        split_ifs at h1 with hc
        simp only [List.cons_append, numeral, hc, if_true]
        rw [digitsAfter_append h1, h2]
    induction h with
    | digit d hd =>
      simp [numeral, (digit_of_nat hd).1, (digit_of_nat hd).2, digitsAfter]
    | more hw d hd ih => exact app _ _ _ _ ih (one _ d hd).1
    | apart hw d hd ih => exact app _ _ _ _ ih (one _ d hd).2

theorem numeral_ends {w : Text} {n : Nat} (h : IsNumeral w n) : (∃ c, w.head? = some c ∧ c.isDigit = true) ∧ ∃ c, w.getLast? = some c ∧ c.isDigit = true := by
  induction h with
  | digit d hd => exact ⟨⟨_, rfl, (digit_of_nat hd).1⟩, ⟨_, rfl, (digit_of_nat hd).1⟩⟩
  | more hw d hd ih =>
    obtain ⟨⟨c, h1, h2⟩, -⟩ := ih
    exact ⟨⟨c, by rw [List.head?_append, h1]; rfl, h2⟩, ⟨_, by simp, (digit_of_nat hd).1⟩⟩
  | apart hw d hd ih =>
    obtain ⟨⟨c, h1, h2⟩, -⟩ := ih
    exact ⟨⟨c, by rw [List.head?_append, h1]; rfl, h2⟩, ⟨_, by simp, (digit_of_nat hd).1⟩⟩

theorem dropWhile_stop {α} {p : α → Bool} {a w : List α} (ha : ∀ c ∈ a, p c = true) (hw : ∀ c, w.head? = some c → p c = false) :
    (a ++ w).dropWhile p = w := by
  rw [List.dropWhile_append_of_pos ha]
  cases w with
  | nil => rfl
  | cons c w => rw [List.dropWhile_cons, if_neg]; simp [hw c rfl]

theorem stripSpace_core {a r b : Text} (ha : ∀ c ∈ a, isSpaceChar c = true) (hb : ∀ c ∈ b, isSpaceChar c = true)
    (h1 : ∃ c, r.head? = some c ∧ isSpaceChar c = false) (h2 : ∃ c, r.getLast? = some c ∧ isSpaceChar c = false) : stripSpace (a ++ r ++ b) = r := by
  obtain ⟨c1, e1, f1⟩ := h1
  obtain ⟨c2, e2, f2⟩ := h2
  unfold stripSpace
  rw [List.append_assoc, dropWhile_stop ha (by intro c hc; rw [List.head?_append, e1] at hc; cases hc; exact f1), List.reverse_append,
    dropWhile_stop (by simpa using hb) (by intro c hc; rw [List.head?_reverse, e2] at hc; cases hc; exact f2), List.reverse_reverse]

theorem stripSpace_parts (w : Text) : ∃ a b, (∀ c ∈ a, isSpaceChar c = true) ∧ (∀ c ∈ b, isSpaceChar c = true) ∧ w = a ++ stripSpace w ++ b := by
  refine ⟨w.takeWhile isSpaceChar, ((w.dropWhile isSpaceChar).reverse.takeWhile isSpaceChar).reverse, fun c hc => mem_takeWhile hc,
    fun c hc => mem_takeWhile (by simpa using hc), ?_⟩
  unfold stripSpace
  rw [List.append_assoc, ← List.reverse_append, List.takeWhile_append_dropWhile, List.reverse_reverse, List.takeWhile_append_dropWhile]

theorem digit_not_space {c : Char} (h : c.isDigit = true) : isSpaceChar c = false := by
  obtain ⟨d, hd, rfl⟩ := digit_nat h
  interval_cases d <;> rfl

theorem char_ofNat {c : Char} {n : Nat} (h : c.toNat = n) : c = Char.ofNat n := by rw [← h, Char.ofNat_toNat]

theorem isSpaceChar_iff {c : Char} : isSpaceChar c = true ↔ c ∈ whiteSpace := by
  constructor
  · intro h
    simp only [isSpaceChar, Bool.or_eq_true, Bool.and_eq_true, decide_eq_true_eq] at h
    rcases h with (h | ⟨h1, h2⟩) | ⟨h1, h2⟩
    · simp [whiteSpace, h]
    · interval_cases h : c.toNat <;> rw [char_ofNat h] <;> decide
    · interval_cases h : c.toNat <;> rw [char_ofNat h] <;> decide
  · intro h
    simp only [whiteSpace, List.mem_cons, List.not_mem_nil, or_false] at h
    rcases h with rfl | rfl | rfl | rfl | rfl | rfl | rfl | rfl | rfl | rfl <;> decide

theorem saidPath_eq : saidPath = pathText := by
  funext w
  cases w <;> simp [saidPath, pathText]

theorem pyInt_iff {w : Text} {n : Int} : pyInt w = some n ↔ IsInteger w n := by
  unfold IsInteger
  simp only [← isSpaceChar_iff]
  constructor
  · intro h
    obtain ⟨a, b, ha, hb, hw⟩ := stripSpace_parts w
    unfold pyInt at h
    split at h
    · next r hr =>
      obtain ⟨k, hk, rfl⟩ := Option.map_eq_some_iff.1 h
      exact ⟨a, r, b, k, ha, hb, numeral_iff.1 hk, .inr (.inr ⟨by rw [← hr]; exact hw, rfl⟩)⟩
    · next r hr =>
      obtain ⟨k, hk, rfl⟩ := Option.map_eq_some_iff.1 h
      exact ⟨a, r, b, k, ha, hb, numeral_iff.1 hk, .inr (.inl ⟨by rw [← hr]; exact hw, rfl⟩)⟩
    · obtain ⟨k, hk, rfl⟩ := Option.map_eq_some_iff.1 h
      exact ⟨a, _, b, k, ha, hb, numeral_iff.1 hk, .inl ⟨hw, rfl⟩⟩
  · rintro ⟨a, r, b, k, ha, hb, hr, h⟩
    obtain ⟨⟨c1, e1, f1⟩, ⟨c2, e2, f2⟩⟩ := numeral_ends hr
    have hn := numeral_iff.2 hr
    have hne : r ≠ [] := by rintro rfl; simp at e1
    have sgn : ∀ s : Char, isSpaceChar s = false → stripSpace (a ++ s :: r ++ b) = s :: r := fun s hs =>
      stripSpace_core ha hb ⟨s, rfl, hs⟩ ⟨c2, by rw [List.getLast?_cons, e2]; rfl, digit_not_space f2⟩
    rcases h with ⟨rfl, rfl⟩ | ⟨rfl, rfl⟩ | ⟨rfl, rfl⟩
    · unfold pyInt
      rw [stripSpace_core ha hb ⟨c1, e1, digit_not_space f1⟩ ⟨c2, e2, digit_not_space f2⟩]
      split
      · next r' =>
        simp only [List.head?_cons, Option.some.injEq] at e1
        rw [← e1] at f1
        exact absurd f1 (by decide)
      · next r' =>
        simp only [List.head?_cons, Option.some.injEq] at e1
        rw [← e1] at f1
        exact absurd f1 (by decide)
      · rw [hn]; rfl
    · unfold pyInt
      rw [sgn '+' rfl]
      simp [hn]
    · unfold pyInt
      rw [sgn '-' rfl]
      simp [hn]

end Verif
