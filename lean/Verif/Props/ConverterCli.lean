import Verif.Spec.ConverterCli
import Verif.Lemmas.Basic
import Verif.Lemmas.Dict
import Mathlib.Tactic.FinCases

/-!
# C73: the command that converts Antares studies
-/

namespace Verif.Props
open Verif Verif.ConvWorld

/-! ## Values with `%` -/

theorem removeEscapes_plain {v : Text} (h : '%' ∉ v) : removeEscapes v = v := by
  induction v with
  | nil => rfl
  | cons c v ih =>
    have hc : c ≠ '%' := fun e => h (by simp [e])
    have hv : '%' ∉ v := fun e => h (List.mem_cons_of_mem _ e)
    rw [removeEscapes.eq_2 _ _ (fun r e _ => hc e), ih hv]

theorem matchRef_head {c : Char} {v : Text} (h : c ≠ '%') : matchRef (c :: v) = none := by
  unfold matchRef
  split
  · rename_i e; simp only [List.cons.injEq] at e; exact absurd e.1 h
  · rfl

theorem removeRefs_plain {v : Text} (h : '%' ∉ v) : removeRefs 0 v = v := by
  induction v with
  | nil => rfl
  | cons c v ih =>
    have hc : c ≠ '%' := fun e => h (by simp [e])
    have hv : '%' ∉ v := fun e => h (List.mem_cons_of_mem _ e)
    simp only [removeRefs, matchRef_head hc, ih hv]

theorem beforeSet_plain {v : Text} (h : '%' ∉ v) : beforeSet v = .ok v := by
  unfold beforeSet
  rw [removeEscapes_plain h, removeRefs_plain h, if_neg h]

theorem expandGo_char {inner : Text → R Text} {value : Text → Option Text} {c : Char} (hc : c ≠ '%') (cs : Text) :
    expandGo inner value 0 (c :: cs) = (do let r ← expandGo inner value 0 cs; .ok (c :: r)) := by
  conv_lhs => unfold expandGo
  split
  · rename_i e; cases e
  · rename_i e _; cases e
  · rename_i e; simp only [List.cons.injEq] at e; exact absurd e.1 hc
  · rename_i e
    simp only [List.cons.injEq] at e
    obtain ⟨rfl, rfl⟩ := e
    rfl

theorem expandGo_plain {inner : Text → R Text} {value : Text → Option Text} {v : Text} (h : '%' ∉ v) :
    ∀ w, expandGo inner value 0 (v ++ w) = (do let r ← expandGo inner value 0 w; .ok (v ++ r)) := by
  induction v with
  | nil => intro w; simp only [List.nil_append]; cases expandGo inner value 0 w <;> rfl
  | cons c v ih =>
    intro w
    have hc : c ≠ '%' := fun e => h (by simp [e])
    have hv : '%' ∉ v := fun e => h (List.mem_cons_of_mem _ e)
    rw [List.cons_append, expandGo_char hc, ih hv]
    cases expandGo inner value 0 w <;> rfl

theorem interpolate_plain {value : Text → Option Text} {n : Nat} {v : Text} (h : '%' ∉ v) : interpolate value (n + 1) v = .ok v := by
  have := expandGo_plain (inner := interpolate value n) (value := value) h []
  rw [List.append_nil] at this
  unfold interpolate
  rw [this]
  simp [expandGo, ok_bind]

theorem expandGo_escaped {inner : Text → R Text} {value : Text → Option Text} (v : Text) : expandGo inner value 0 (escapePercent v) = .ok v := by
  induction v with
  | nil => rfl
  | cons c v ih =>
    unfold escapePercent
    split_ifs with hc
    · subst hc
      have h1 : expandGo inner value 1 ('%' :: escapePercent v) = .ok v := by
        simp only [expandGo, ih]
      simp only [expandGo] at h1 ⊢
      rw [h1]
      rfl
    · rw [expandGo_char hc, ih]
      rfl

theorem Ini.has_iff {i : Ini} {key v : Text} : i.Has key v ↔ i.value key = some v := by
  unfold Ini.Has Ini.value
  cases hs : i.study with
  | none => simp
  | some s =>
    cases hk : s.get? key with
    | none => simp [hk]
    | some w => simp [hk]

/-- **C73.** Any folder can be named in the configuration file: with each `%` written twice, its value is the name of the folder. -/
theorem c73_escape (i : Ini) (key v : Text) (h : i.Has key (escapePercent v)) : i.get key = .ok (some v) := by
  rw [Ini.has_iff] at h
  unfold Ini.get
  rw [h]
  simp only [interpolate, expandGo_escaped, ok_bind]

theorem get_plain {i : Ini} {key v : Text} (h : i.value key = some v) (hv : '%' ∉ v) : i.get key = .ok (some v) := by
  unfold Ini.get
  rw [h]
  simp only [interpolate_plain hv, ok_bind]

theorem span_name {n : Text} (h : ')' ∉ n) (rest : Text) : (n ++ ')' :: rest).span (· ≠ ')') = (n, ')' :: rest) := by
  rw [List.span_eq_takeWhile_dropWhile]
  have hall : ∀ c ∈ n, decide (c ≠ ')') = true := fun c hc => decide_eq_true fun e => h (e ▸ hc)
  rw [List.takeWhile_append_of_pos hall, List.dropWhile_append_of_pos hall]
  simp

theorem expandGo_skip {inner : Text → R Text} {value : Text → Option Text} (a b : Text) : expandGo inner value a.length (a ++ b) = expandGo inner value 0 b := by
  induction a with
  | nil => rfl
  | cons c a ih => simpa [expandGo] using ih

/-- **C73, references.** A value of the configuration file may refer to another one, in the section `study` or else in `DEFAULT`: `%(name)s`
stands for this value, and capitals in the name do not count. -/
theorem c73_reference (i : Ini) (key name x rest : Text) (hn : name ≠ []) (hp : ')' ∉ name)
    (h : i.Has key ("%(".toList ++ name ++ ")s".toList ++ rest)) (hx : i.Has (name.map Char.toLower) x) (hxp : '%' ∉ x)
    (hr : '%' ∉ rest) : i.get key = .ok (some (x ++ rest)) := by
  rw [Ini.has_iff] at h hx
  unfold Ini.get
  rw [h]
  have e : "%(".toList ++ name ++ ")s".toList ++ rest = '%' :: '(' :: (name ++ ')' :: 's' :: rest) := by simp
  have hm : matchRef ('%' :: '(' :: (name ++ ')' :: 's' :: rest)) = some (name, name.length + 4) := by
    simp only [matchRef]
    rw [span_name hp]
    simp [hn]
  have hlen : expandGo (interpolate i.value 9) i.value (name.length + 3) ('(' :: (name ++ ')' :: 's' :: rest)) = .ok rest := by
    have := expandGo_skip (inner := interpolate i.value 9) (value := i.value) ('(' :: (name ++ [')', 's'])) rest
    simp only [List.length_cons, List.length_append, List.length_nil, List.cons_append, List.append_assoc, List.nil_append] at this
    rw [show name.length + 3 = name.length + (0 + 1 + 1) + 1 from rfl, this]
    have h2 := expandGo_plain (inner := interpolate i.value 9) (value := i.value) hr []
    rw [List.append_nil] at h2
    rw [h2]
    simp [expandGo, ok_bind]
  simp only [e]
  rw [show interpolate i.value 10 = fun v => expandGo (interpolate i.value 9) i.value 0 v from rfl]
  simp only [expandGo, hm, show i.value (optionKey name) = some x from hx, if_neg hxp, ok_bind]
  rw [show name.length + 4 - 1 = name.length + 3 from rfl, hlen]
  rfl

/-! ## Options -/

/-- the last given value, else the value so far -/
def lastOr (f : Text → Text) (l : List Text) (o : Option Text) : Option Text := (l.getLast?.map f).or o

theorem lastOr_nil (f : Text → Text) (o : Option Text) : lastOr f [] o = o := by simp [lastOr]

theorem lastOr_cons (f : Text → Text) (x : Text) (l : List Text) (o : Option Text) : lastOr f (x :: l) o = lastOr f l (some (f x)) := by
  unfold lastOr
  cases l with
  | nil => simp
  | cons y l =>
    rw [List.getLast?_cons_cons]
    cases h : (y :: l).getLast? with
    | none => simp at h
    | some z => rfl

/-- What has been created is only what was not there. -/
def OnlyNew (w : ConvWorld) (created : List Text) : Prop := ∀ p ∈ created, w.kind p = none

theorem kindNow_some {w : ConvWorld} {created : List Text} (h : OnlyNew w created) {p : Text} {b : Bool} (hk : w.kind (w.resolve p) = some b) :
    w.kindNow created p = some b := by
  unfold kindNow
  rw [if_neg, hk]
  intro hm
  rw [h _ hm] at hk
  cases hk

theorem parse_fine {w : ConvWorld} (hl : w.Lawful) : ∀ (os : List ConvOption) (a : ConvArgs), (∀ o ∈ os, o.Fine w) → OnlyNew w a.created →
    ∃ b, w.parseOptions os a = (b.created, .ok b) ∧ OnlyNew w b.created ∧ b.conf = lastOr w.home (confs os) a.conf ∧
      b.logging = lastOr (fun s => w.resolve (w.home s)) (logs os) a.logging ∧ b.study = lastOr w.home (studies os) a.study ∧
      b.output = lastOr w.home (outputs os) a.output ∧
      ∀ p, p ∈ b.created ↔ p ∈ a.created ∨ ∃ s ∈ logs os, p = w.resolve (w.home s) ∧ w.kind p = none := by
  intro os
  induction os with
  | nil =>
    intro a _ ha
    exact ⟨a, rfl, ha, by simp [confs, lastOr_nil], by simp [logs, lastOr_nil], by simp [studies, lastOr_nil], by simp [outputs, lastOr_nil],
      by simp [logs]⟩
  | cons o os ih =>
    intro a hos ha
    have ho := hos o List.mem_cons_self
    have hos' : ∀ x ∈ os, x.Fine w := fun x hx => hos x (List.mem_cons_of_mem _ hx)
    cases o with
    | conf s =>
      obtain ⟨b, h1, h2, h3, h4, h5, h6, h7⟩ := ih { a with conf := some (w.home s) } hos' ha
      refine ⟨b, ?_, h2, ?_, h4, h5, h6, h7⟩
      · simp only [parseOptions, fileArg, kindNow_some ha ho, if_true]
        exact h1
      · rw [show confs (.conf s :: os) = s :: confs os from rfl, lastOr_cons]
        exact h3
    | study s =>
      obtain ⟨b, h1, h2, h3, h4, h5, h6, h7⟩ := ih { a with study := some (w.home s) } hos' ha
      refine ⟨b, ?_, h2, h3, h4, ?_, h6, h7⟩
      · simp only [parseOptions, dirArg, kindNow_some ha ho, if_true]
        exact h1
      · rw [show studies (.study s :: os) = s :: studies os from rfl, lastOr_cons]
        exact h5
    | output s =>
      obtain ⟨b, h1, h2, h3, h4, h5, h6, h7⟩ := ih { a with output := some (w.home s) } hos' ha
      refine ⟨b, ?_, h2, h3, h4, h5, ?_, h7⟩
      · simp only [parseOptions, dirArg, kindNow_some ha ho, if_true]
        exact h1
      · rw [show outputs (.output s :: os) = s :: outputs os from rfl, lastOr_cons]
        exact h6
    | logging s =>
      obtain ⟨hk, hp⟩ := ho
      have hnot : w.kindNow a.created (w.resolve (w.home s)) ≠ some true := by
        unfold kindNow
        rw [hl]
        split_ifs
        · simp
        · exact hk
      obtain ⟨c, hc, hcn, hcm⟩ : ∃ c, w.logArg a.created s = .ok (w.resolve (w.home s), c) ∧ OnlyNew w c ∧
          ∀ p, p ∈ c ↔ p ∈ a.created ∨ p = w.resolve (w.home s) ∧ w.kind p = none := by
        unfold logArg
        simp only [if_neg hnot, hp, not_true_eq_false, if_false]
        split_ifs with hn
        · have hn' : w.resolve (w.home s) ∉ a.created ∧ w.kind (w.resolve (w.home s)) = none := by
            unfold kindNow at hn
            rw [hl] at hn
            split_ifs at hn with hm
            exact ⟨hm, hn⟩
          refine ⟨_, rfl, ?_, ?_⟩
          · intro p hp
            rcases List.mem_append.1 hp with hp | hp
            · exact ha p hp
            · rw [List.mem_singleton.1 hp]; exact hn'.2
          · intro p
            rw [List.mem_append, List.mem_singleton]
            constructor
            · rintro (h | h)
              · exact .inl h
              · exact .inr ⟨h, h ▸ hn'.2⟩
            · rintro (h | h)
              · exact .inl h
              · exact .inr h.1
        · refine ⟨_, rfl, ha, ?_⟩
          intro p
          constructor
          · exact .inl
          · rintro (h | ⟨rfl, h⟩)
            · exact h
            · by_contra hm
              apply hn
              unfold kindNow
              rw [hl, if_neg hm, h]
      obtain ⟨b, h1, h2, h3, h4, h5, h6, h7⟩ := ih { a with logging := some (w.resolve (w.home s)), created := c } hos' hcn
      refine ⟨b, ?_, h2, h3, ?_, h5, h6, ?_⟩
      · simp only [parseOptions, hc]
        exact h1
      · rw [show logs (.logging s :: os) = s :: logs os from rfl, lastOr_cons]
        exact h4
      · intro p
        rw [h7, hcm, show logs (.logging s :: os) = s :: logs os from rfl]
        simp only [List.mem_cons, exists_eq_or_imp, or_assoc]

theorem confs_append (a b : List ConvOption) : confs (a ++ b) = confs a ++ confs b := List.filterMap_append
theorem logs_append (a b : List ConvOption) : logs (a ++ b) = logs a ++ logs b := List.filterMap_append
theorem studies_append (a b : List ConvOption) : studies (a ++ b) = studies a ++ studies b := List.filterMap_append
theorem outputs_append (a b : List ConvOption) : outputs (a ++ b) = outputs a ++ outputs b := List.filterMap_append

theorem any_conf (os : List ConvOption) : os.any ConvOption.isConf = true ↔ confs os ≠ [] := by
  induction os with
  | nil => simp [confs]
  | cons o os ih =>
    rw [List.any_cons]
    cases o with
    | conf s => simp [confs, ConvOption.isConf]
    | _ => simpa [confs, ConvOption.isConf] using ih

theorem any_log (os : List ConvOption) : os.any ConvOption.isLogging = true ↔ logs os ≠ [] := by
  induction os with
  | nil => simp [logs]
  | cons o os ih =>
    rw [List.any_cons]
    cases o with
    | logging s => simp [logs, ConvOption.isLogging]
    | _ => simpa [logs, ConvOption.isLogging] using ih

theorem default_confs (w : ConvWorld) (os : List ConvOption) :
    (confs (os ++ w.defaultOptions os)).getLast? = some ((confs os).getLast?.getD "data/config.ini".toList) := by
  rw [confs_append]
  unfold defaultOptions
  rw [confs_append]
  by_cases h : confs os = []
  · rw [if_neg (by rw [any_conf]; simp [h]), h]
    split_ifs <;> rfl
  · rw [if_pos (by rw [any_conf]; exact h)]
    have : confs (if os.any ConvOption.isLogging = true then [] else [.logging w.loggerPath]) = [] := by split_ifs <;> rfl
    rw [this, show confs [] = [] from rfl, List.append_nil, List.append_nil]
    cases hc : confs os with
    | nil => exact absurd hc h
    | cons x l => simp [List.getLast?_cons]

theorem default_logs (w : ConvWorld) (os : List ConvOption) :
    (logs (os ++ w.defaultOptions os)).getLast? = some ((logs os).getLast?.getD w.loggerPath) := by
  rw [logs_append]
  unfold defaultOptions
  rw [logs_append]
  have h0 : logs (if os.any ConvOption.isConf = true then [] else [.conf "data/config.ini".toList]) = [] := by split_ifs <;> rfl
  rw [h0, List.nil_append]
  by_cases h : logs os = []
  · rw [if_neg (by rw [any_log]; simp [h]), h]
    rfl
  · rw [if_pos (by rw [any_log]; exact h), show logs [] = [] from rfl, List.append_nil]
    cases hc : logs os with
    | nil => exact absurd hc h
    | cons x l => simp [List.getLast?_cons]

theorem default_studies (w : ConvWorld) (os : List ConvOption) : studies (os ++ w.defaultOptions os) = studies os := by
  rw [studies_append]
  unfold defaultOptions
  split_ifs <;> simp [studies]

theorem default_outputs (w : ConvWorld) (os : List ConvOption) : outputs (os ++ w.defaultOptions os) = outputs os := by
  rw [outputs_append]
  unfold defaultOptions
  split_ifs <;> simp [outputs]

/-- A command without faults is read as it should. -/
theorem run_faultless {w : ConvWorld} (hl : w.Lawful) {os : List ConvOption} {conf log : Text} (hf : Faultless w os conf log) :
    ∃ b : ConvArgs, w.run os = ⟨b.created, b.logging.map logName, w.convertAt b⟩ ∧ OnlyNew w b.created ∧ b.conf = some (w.home conf) ∧
      b.logging = some (w.resolve (w.home log)) ∧ b.study = (studies os).getLast?.map w.home ∧ b.output = (outputs os).getLast?.map w.home ∧
      ∀ p, p ∈ b.created ↔ (p = w.resolve (w.home log) ∨ ∃ s ∈ logs os, p = w.resolve (w.home s)) ∧ w.kind p = none := by
  have hfine : ∀ o ∈ os ++ w.defaultOptions os, o.Fine w := by
    intro o ho
    rcases List.mem_append.1 ho with ho | ho
    · exact hf.options o ho
    · unfold defaultOptions at ho
      rcases List.mem_append.1 ho with ho | ho
      · split_ifs at ho with hc
        · cases ho
        · rw [List.mem_singleton.1 ho]
          rw [any_conf, not_not] at hc
          have := hf.confIs
          rw [hc] at this
          have h := hf.confFine
          rw [← this] at h
          exact h
      · split_ifs at ho with hc
        · cases ho
        · rw [List.mem_singleton.1 ho]
          rw [any_log, not_not] at hc
          have := hf.logIs
          rw [hc] at this
          have h := hf.logFine
          rw [← this] at h
          exact h
  obtain ⟨b, h1, h2, h3, h4, h5, h6, h7⟩ := parse_fine hl _ {} hfine (by intro p hp; cases hp)
  refine ⟨b, ?_, h2, ?_, ?_, ?_, ?_, ?_⟩
  · unfold run
    rw [h1]
  · rw [h3, lastOr, default_confs, hf.confIs]
    rfl
  · rw [h4, lastOr, default_logs, hf.logIs]
    rfl
  · rw [h5, lastOr, default_studies]
    cases (studies os).getLast? <;> rfl
  · rw [h6, lastOr, default_outputs]
    cases (outputs os).getLast? <;> rfl
  · intro p
    rw [h7]
    have hlogs : ∀ s, s ∈ logs (os ++ w.defaultOptions os) ↔ s ∈ logs os ∨ s = log := by
      intro s
      have hlast := default_logs w os
      rw [hf.logIs] at hlast
      constructor
      · intro hs
        rw [logs_append] at hs
        rcases List.mem_append.1 hs with hs | hs
        · exact .inl hs
        · unfold defaultOptions at hs
          rw [logs_append] at hs
          have h0 : logs (if os.any ConvOption.isConf = true then [] else [.conf "data/config.ini".toList]) = [] := by
            split_ifs <;> rfl
          rw [h0, List.nil_append] at hs
          by_cases hc : logs os = []
          · rw [if_neg (by rw [any_log]; simp [hc])] at hs
            have := hf.logIs
            rw [hc] at this
            right
            rw [← this]
            simpa [logs] using hs
          · rw [if_pos (by rw [any_log]; exact hc)] at hs
            cases hs
      · rintro (hs | rfl)
        · rw [logs_append]
          exact List.mem_append_left _ hs
        · exact List.mem_of_getLast? hlast
    constructor
    · rintro (h | ⟨s, hs, rfl, hk⟩)
      · cases h
      · rcases (hlogs s).1 hs with hs | rfl
        · exact ⟨.inr ⟨s, hs, rfl⟩, hk⟩
        · exact ⟨.inl rfl, hk⟩
    · rintro ⟨h | ⟨s, hs, rfl⟩, hk⟩
      · exact .inr ⟨log, (hlogs log).2 (.inr rfl), h, hk⟩
      · exact .inr ⟨s, (hlogs s).2 (.inl hs), rfl, hk⟩

theorem studyPath_ne : "output_path".toList ≠ "study_path".toList := by decide

theorem get?_set_self (d : Dict Text Text) (k v : Text) : (d.set k v).get? k = some v := by
  simp [Dict.get?_set]

theorem readIni_faultless {w : ConvWorld} {created : List Text} (hn : OnlyNew w created) {conf : Text} (hc : (ConvOption.conf conf).Fine w) :
    w.readIni created (w.home conf) = w.ini (w.resolve (w.home conf)) := by
  unfold readIni
  rw [if_neg]
  intro h
  have := hn _ h
  rw [show w.kind (w.resolve (w.home conf)) = some false from hc] at this
  cases this

/-- setting the output does not change the study -/
theorem value_set_output {i i' : Ini} {p : Text} (h : i.set "output_path".toList p = .ok i') :
    i'.value "study_path".toList = i.value "study_path".toList := by
  unfold Ini.set at h
  rw [bind_ok_iff] at h
  obtain ⟨v, -, h⟩ := h
  cases h
  unfold Ini.value
  simp only [Option.getD_some]
  rw [Dict.get?_set, if_neg studyPath_ne]

/-- **C73 (partial), the study on the command line.** A command without faults that names a study, in which no folder has a `%` in its name:
this study is converted, whatever the configuration file says.  The converted study is written into its folder, as `output.yaml`. -/
theorem c73_study_partial {w : ConvWorld} (hl : w.Lawful) {os : List ConvOption} {conf log : Text} (hf : Faultless w os conf log) {i : Ini}
    (hi : w.ini (w.resolve (w.home conf)) = .ok i) {s : Text} (hs : (studies os).getLast? = some s) (hp : '%' ∉ w.home s)
    (ho : ∀ o ∈ outputs os, '%' ∉ w.home o) :
    (w.run os).result = .ok (w.resolve (w.home s), w.resolve (w.home s) ++ "/output.yaml".toList) := by
  obtain ⟨b, h1, h2, h3, h4, h5, h6, -⟩ := run_faultless hl hf
  rw [h1]
  have htext : w.studyText b = .ok (some (w.home s)) := by
    unfold studyText
    rw [h3, Option.getD_some, readIni_faultless h2 hf.confFine, hi, ok_bind, h5, hs]
    simp only [Option.map_some, Ini.set, beforeSet_plain hp, ok_bind]
    rw [h6]
    cases hlo : (outputs os).getLast? with
    | none =>
      simp only [Option.map_none, ok_bind]
      exact get_plain (by unfold Ini.value; simp only [Option.getD_some, get?_set_self]) hp
    | some o =>
      simp only [Option.map_some, beforeSet_plain (ho o (List.mem_of_getLast? hlo)), ok_bind, Option.getD_some]
      refine get_plain ?_ hp
      unfold Ini.value
      simp only [Option.getD_some]
      rw [Dict.get?_set, if_neg studyPath_ne, get?_set_self]
  unfold convertAt
  rw [htext, ok_bind]
  simp only
  rw [if_neg]
  have hk : w.kind (w.resolve (w.home s)) = some true := by
    have hm := List.mem_of_getLast? hs
    obtain ⟨o, ho, he⟩ := List.mem_filterMap.1 hm
    cases o <;> simp at he
    subst he
    exact hf.options _ ho
  unfold kindNow
  rw [hk]
  split_ifs <;> simp

/-- **C73 (partial), the study in the configuration file.** If the command names no study, the study of the configuration file is converted. -/
theorem c73_config_partial {w : ConvWorld} (hl : w.Lawful) {os : List ConvOption} {conf log : Text} (hf : Faultless w os conf log) {i : Ini}
    (hi : w.ini (w.resolve (w.home conf)) = .ok i) (hs : studies os = []) {v : Text} (hv : i.Has "study_path".toList v) (hp : '%' ∉ v)
    (hk : w.kind (w.resolve v) ≠ none) (ho : ∀ o ∈ outputs os, '%' ∉ w.home o) :
    (w.run os).result = .ok (w.resolve v, w.resolve v ++ "/output.yaml".toList) := by
  rw [Ini.has_iff] at hv
  obtain ⟨b, h1, h2, h3, h4, h5, h6, -⟩ := run_faultless hl hf
  rw [h1]
  have htext : w.studyText b = .ok (some v) := by
    unfold studyText
    rw [h3, Option.getD_some, readIni_faultless h2 hf.confFine, hi, ok_bind, h5, hs]
    simp only [List.getLast?_nil, Option.map_none, ok_bind]
    rw [h6]
    cases hlo : (outputs os).getLast? with
    | none =>
      simp only [Option.map_none, ok_bind]
      exact get_plain hv hp
    | some o =>
      simp only [Option.map_some]
      have hset : i.set "output_path".toList (w.home o) = .ok { i with study := some ((i.study.getD []).set "output_path".toList (w.home o)) } := by
        simp only [Ini.set, beforeSet_plain (ho o (List.mem_of_getLast? hlo)), ok_bind]
      rw [hset, ok_bind]
      exact get_plain ((value_set_output hset).trans hv) hp
  unfold convertAt
  rw [htext, ok_bind]
  simp only
  rw [if_neg]
  unfold kindNow
  split_ifs
  · simp
  · exact hk

/-- **C73 fails for the current directory**: with the configuration file that comes with the code (`study_path` is empty) and a command that
names no study, the directory in which the program is run is converted. -/
theorem c73_current_directory {w : ConvWorld} (hl : w.Lawful) {os : List ConvOption} {conf log : Text} (hf : Faultless w os conf log) {i : Ini}
    (hi : w.ini (w.resolve (w.home conf)) = .ok i) (hs : studies os = []) (hv : i.Has "study_path".toList [])
    (hk : w.kind (w.resolve []) ≠ none) (ho : ∀ o ∈ outputs os, '%' ∉ w.home o) :
    (w.run os).result = .ok (w.resolve [], w.resolve [] ++ "/output.yaml".toList) :=
  c73_config_partial hl hf hi hs hv (by simp) hk ho

/-- **C73 fails for the output.** Whatever the options `-o` and the configuration file, the converted study is never written anywhere else
than into the folder of the study. -/
theorem c73_output_ignored (w : ConvWorld) (os : List ConvOption) (d f : Text) (h : (w.run os).result = .ok (d, f)) :
    f = d ++ "/output.yaml".toList := by
  unfold run at h
  split at h
  · cases h
  · simp only [convertAt, bind_ok_iff] at h
    obtain ⟨o, -, h⟩ := h
    cases o with
    | none => cases h
    | some v =>
      simp only at h
      split_ifs at h
      cases h
      rfl

/-! ## Folders with `%` -/

theorem removeEscapes_append {a : Text} (h : '%' ∉ a) (b : Text) : removeEscapes (a ++ b) = a ++ removeEscapes b := by
  induction a with
  | nil => rfl
  | cons c a ih =>
    have hc : c ≠ '%' := fun e => h (by simp [e])
    have ha : '%' ∉ a := fun e => h (List.mem_cons_of_mem _ e)
    rw [List.cons_append, removeEscapes.eq_2 _ _ (fun r e _ => hc e), ih ha, List.cons_append]

theorem removeRefs_append {a : Text} (h : '%' ∉ a) (b : Text) : removeRefs 0 (a ++ b) = a ++ removeRefs 0 b := by
  induction a with
  | nil => rfl
  | cons c a ih =>
    have hc : c ≠ '%' := fun e => h (by simp [e])
    have ha : '%' ∉ a := fun e => h (List.mem_cons_of_mem _ e)
    rw [List.cons_append]
    simp only [removeRefs, matchRef_head hc, ih ha]
    rfl

/-- a text with one `%`, which is not followed by a parenthesis -/
def StrayPercent (v : Text) : Prop := ∃ a b, v = a ++ '%' :: b ∧ '%' ∉ a ∧ '%' ∉ b ∧ b.head? ≠ some '('

theorem beforeSet_stray {v : Text} (h : StrayPercent v) : ∃ m, beforeSet v = .error (.valueError m) := by
  obtain ⟨a, b, rfl, ha, hb, hh⟩ := h
  refine ⟨_, if_pos ?_⟩
  rw [removeEscapes_append ha]
  have e1 : removeEscapes ('%' :: b) = '%' :: b := by
    rw [removeEscapes.eq_2, removeEscapes_plain hb]
    intro r _ e
    exact hb (by simp [e])
  rw [e1, removeRefs_append ha]
  have e2 : matchRef ('%' :: b) = none := by
    unfold matchRef
    split
    · rename_i e
      simp only [List.cons.injEq, true_and] at e
      rw [e] at hh
      exact absurd rfl hh
    · rfl
  simp [removeRefs, e2]

/-- **C73 fails for folders with `%`.** A study in a folder with a `%` in its name cannot be converted by naming it. -/
theorem c73_percent_refused {w : ConvWorld} (hl : w.Lawful) {os : List ConvOption} {conf log : Text} (hf : Faultless w os conf log) {i : Ini}
    (hi : w.ini (w.resolve (w.home conf)) = .ok i) {s : Text} (hs : (studies os).getLast? = some s) (hp : StrayPercent (w.home s)) :
    ∃ m, (w.run os).result = .error (.valueError m) := by
  obtain ⟨b, h1, h2, h3, h4, h5, h6, -⟩ := run_faultless hl hf
  obtain ⟨m, hm⟩ := beforeSet_stray hp
  refine ⟨m, ?_⟩
  rw [h1]
  simp only [convertAt, studyText]
  rw [h3, Option.getD_some, readIni_faultless h2 hf.confFine, hi, ok_bind, h5, hs]
  simp only [Option.map_some, Ini.set, hm]
  rfl

/-- **C73 fails for folders with `%%`.** A command that names a study in a folder with `%%` in its name converts another one, if there is one
in the folder of this name with a single `%`. -/
theorem c73_percent_other {w : ConvWorld} (hl : w.Lawful) {os : List ConvOption} {conf log : Text} (hf : Faultless w os conf log) {i : Ini}
    (hi : w.ini (w.resolve (w.home conf)) = .ok i) {s a b : Text} (hs : (studies os).getLast? = some s) (hp : w.home s = a ++ "%%".toList ++ b)
    (ha : '%' ∉ a) (hb : '%' ∉ b) (ho : outputs os = []) (hk : w.kind (w.resolve (a ++ "%".toList ++ b)) = some true) :
    (w.run os).result = .ok (w.resolve (a ++ "%".toList ++ b), w.resolve (a ++ "%".toList ++ b) ++ "/output.yaml".toList) := by
  obtain ⟨x, h1, h2, h3, h4, h5, h6, -⟩ := run_faultless hl hf
  have hp' : w.home s = a ++ '%' :: '%' :: b := by rw [hp]; simp
  have hset : beforeSet (w.home s) = .ok (w.home s) := by
    unfold beforeSet
    rw [hp', removeEscapes_append ha, removeEscapes.eq_1, removeEscapes_plain hb, removeRefs_plain (by simp [ha, hb]), if_neg (by simp [ha, hb])]
  rw [h1]
  have htext : w.studyText x = .ok (some (a ++ "%".toList ++ b)) := by
    unfold studyText
    rw [h3, Option.getD_some, readIni_faultless h2 hf.confFine, hi, ok_bind, h5, hs]
    simp only [Option.map_some, Ini.set, hset, ok_bind]
    rw [h6, ho]
    simp only [List.getLast?_nil, Option.map_none, ok_bind]
    refine c73_escape _ _ _ (Ini.has_iff.2 ?_)
    unfold Ini.value
    simp only [Option.getD_some, get?_set_self]
    have esc : ∀ (x : Text), '%' ∉ x → ∀ y, escapePercent (x ++ y) = x ++ escapePercent y := by
      intro x hx y
      induction x with
      | nil => rfl
      | cons c x ih =>
        have hc : c ≠ '%' := fun e => hx (by simp [e])
        rw [List.cons_append, escapePercent, if_neg hc, ih fun e => hx (List.mem_cons_of_mem _ e), List.cons_append]
    have hb' : escapePercent b = b := by simpa [escapePercent] using esc b hb []
    rw [hp', show a ++ "%".toList ++ b = a ++ '%' :: b by simp, esc a ha, escapePercent, if_pos rfl, hb']
  unfold convertAt
  rw [htext, ok_bind]
  simp only
  rw [if_neg]
  unfold kindNow
  rw [hk]
  split_ifs <;> simp

/-! ## The log file -/

/-- **C73, messages.** A command without faults: messages are written to the file that it names if its name ends with `.log`, else to the file
of this name with `.log` added.  A file of the name that is given is created if there is none. -/
theorem c73_log {w : ConvWorld} (hl : w.Lawful) {os : List ConvOption} {conf log : Text} (hf : Faultless w os conf log) :
    (".log".toList <:+ w.resolve (w.home log) → (w.run os).log = some (w.resolve (w.home log))) ∧
    (¬ ".log".toList <:+ w.resolve (w.home log) → (w.run os).log = some (w.resolve (w.home log) ++ ".log".toList)) ∧
    (w.kind (w.resolve (w.home log)) = none → w.resolve (w.home log) ∈ (w.run os).created) := by
  obtain ⟨b, h1, h2, h3, h4, h5, h6, h7⟩ := run_faultless hl hf
  rw [h1, h4]
  refine ⟨fun h => ?_, fun h => ?_, fun h => ?_⟩
  · simp only [Option.map_some, logName, if_pos h]
  · simp only [Option.map_some, logName, if_neg h]
  · exact (h7 _).2 ⟨.inl rfl, h⟩

theorem parse_created {w : ConvWorld} : ∀ (os : List ConvOption) (a : ConvArgs), ∀ p ∈ a.created, p ∈ (w.parseOptions os a).1 := by
  intro os
  induction os with
  | nil => intro a p hp; exact hp
  | cons o os ih =>
    intro a p hp
    cases o with
    | conf s =>
      simp only [parseOptions]
      cases w.fileArg a.created s with
      | error e => exact hp
      | ok q => exact ih _ p hp
    | study s =>
      simp only [parseOptions]
      cases w.dirArg a.created s with
      | error e => exact hp
      | ok q => exact ih _ p hp
    | output s =>
      simp only [parseOptions]
      cases w.dirArg a.created s with
      | error e => exact hp
      | ok q => exact ih _ p hp
    | logging s =>
      simp only [parseOptions]
      cases h : w.logArg a.created s with
      | error e => exact hp
      | ok q =>
        obtain ⟨q, c⟩ := q
        refine ih _ p ?_
        unfold logArg at h
        simp only at h
        split_ifs at h <;> cases h
        · exact List.mem_append_left _ hp
        · exact hp

/-- **C73 fails for refused commands**: the log file is created even when the rest of the command is refused. -/
theorem c73_refused_creates {w : ConvWorld} (hl : w.Lawful) {s : Text} (hk : w.kind (w.resolve (w.home s)) = none)
    (hp : w.hasParent (w.resolve (w.home s)) = true) (os : List ConvOption) : w.resolve (w.home s) ∈ (w.run (.logging s :: os)).created := by
  have harg : w.logArg [] s = .ok (w.resolve (w.home s), [w.resolve (w.home s)]) := by
    unfold logArg kindNow
    simp only [hl (w.home s), List.not_mem_nil, if_false, hk, hp]
    simp
  have h : w.resolve (w.home s) ∈ (w.parseOptions (.logging s :: os ++ w.defaultOptions (.logging s :: os)) {}).1 := by
    rw [List.cons_append]
    simp only [parseOptions, harg]
    exact parse_created _ _ _ (by simp)
  unfold run
  rcases hr : w.parseOptions (.logging s :: os ++ w.defaultOptions (.logging s :: os)) {} with ⟨c, e | a⟩
  · rw [hr] at h; exact h
  · rw [hr] at h; exact h

theorem parse_refused {w : ConvWorld} (hl : w.Lawful) {o : ConvOption} {all : List ConvOption} (hf : o.Faulty w all) :
    ∀ (os rest : List ConvOption) (a : ConvArgs), o ∈ os → (∀ s ∈ logs os, s ∈ logs all) →
      (∀ p ∈ a.created, w.kind p = none ∧ ∃ s ∈ logs all, p = w.resolve (w.home s)) →
      (w.parseOptions (os ++ rest) a).2 = .error (.exception "SystemExit") := by
  intro os
  induction os with
  | nil => intro rest a h; cases h
  | cons x os ih =>
    intro rest a ho hlogs ha
    rw [List.cons_append]
    have hlogs' : ∀ s ∈ logs os, s ∈ logs all := by
      intro s hs
      refine hlogs s ?_
      cases x <;> simp [logs] at hs ⊢
      all_goals first | exact hs | exact .inr hs
    rcases List.mem_cons.1 ho with rfl | ho'
    · have hnew : ∀ q, w.resolve q ∈ a.created → w.kind (w.resolve q) = none := fun q hq => (ha _ hq).1
      cases o with
      | conf s =>
        simp only [parseOptions, fileArg]
        rw [if_neg]
        unfold kindNow
        rcases hf with hk | ⟨hk, hne⟩
        · rw [if_neg (fun h => by rw [(ha _ h).1] at hk; cases hk), hk]; simp
        · rw [if_neg, hk]
          · simp
          · intro h
            obtain ⟨l, hl', e⟩ := (ha _ h).2
            exact hne l hl' e.symm
      | study s =>
        simp only [parseOptions, dirArg]
        rw [if_neg]
        unfold kindNow
        split_ifs
        · simp
        · exact hf
      | output s =>
        simp only [parseOptions, dirArg]
        rw [if_neg]
        unfold kindNow
        split_ifs
        · simp
        · exact hf
      | logging s =>
        have : w.logArg a.created s = .error (.exception "SystemExit") := by
          unfold logArg
          simp only
          rcases hf with hk | hp
          · rw [if_pos]
            unfold kindNow
            rw [hl, if_neg (fun h => by rw [(ha _ h).1] at hk; cases hk), hk]
          · split_ifs with h1 h2
            · rfl
            · rw [hp] at h2; simp at h2
            · rw [hp] at h2; simp at h2
            · rfl
        simp only [parseOptions, this]
    · cases x with
      | conf s =>
        simp only [parseOptions]
        cases h : w.fileArg a.created s with
        | error e => unfold fileArg at h; split_ifs at h; cases h; rfl
        | ok q => exact ih _ _ ho' hlogs' ha
      | study s =>
        simp only [parseOptions]
        cases h : w.dirArg a.created s with
        | error e => unfold dirArg at h; split_ifs at h; cases h; rfl
        | ok q => exact ih _ _ ho' hlogs' ha
      | output s =>
        simp only [parseOptions]
        cases h : w.dirArg a.created s with
        | error e => unfold dirArg at h; split_ifs at h; cases h; rfl
        | ok q => exact ih _ _ ho' hlogs' ha
      | logging s =>
        simp only [parseOptions]
        cases h : w.logArg a.created s with
        | error e =>
          unfold logArg at h
          simp only at h
          split_ifs at h <;> cases h <;> rfl
        | ok q =>
          obtain ⟨q, c⟩ := q
          refine ih _ _ ho' hlogs' ?_
          unfold logArg at h
          simp only at h
          split_ifs at h with h1 h2 h3 <;> cases h
          · intro p hp
            rcases List.mem_append.1 hp with hp | hp
            · exact ha p hp
            · rw [List.mem_singleton.1 hp]
              refine ⟨?_, s, hlogs s (by simp [logs]), rfl⟩
              unfold kindNow at h3
              rw [hl] at h3
              split_ifs at h3
              exact h3
          · exact ha

/-- **C73, refusal.** A command with an option that does not name what it should is refused, and nothing is converted. -/
theorem c73_refused {w : ConvWorld} (hl : w.Lawful) {os : List ConvOption} {o : ConvOption} (ho : o ∈ os) (hf : o.Faulty w os) :
    (w.run os).result = .error (.exception "SystemExit") ∧ (w.run os).log = none := by
  have h := parse_refused hl hf os (w.defaultOptions os) {} ho (fun s hs => hs) (by intro p hp; cases hp)
  unfold run
  rcases hr : w.parseOptions (os ++ w.defaultOptions os) {} with ⟨c, e | a⟩
  · rw [hr] at h
    simp only at h ⊢
    rw [Except.error.inj h]
    exact ⟨rfl, trivial⟩
  · rw [hr] at h
    cases h

/-! ## Cases -/

/-- what there is on a machine -/
def demoKind (p : Text) : Option Bool :=
  if p ∈ ["/work".toList, "/study".toList, "/out".toList, "/50%".toList, "/a%%b".toList, "/a%b".toList] then some true
  else if p = "data/config.ini".toList then some false else none

/-- A machine with three studies, a directory for outputs and a configuration file. -/
def demoWorld (study : String) : ConvWorld where
  home := id
  resolve := fun p => if p = [] then "/work".toList else p
  kind := demoKind
  hasParent := fun _ => true
  ini := fun _ => .ok { study := some [("study_path".toList, study.toList), ("output_path".toList, "/out".toList)] }
  loggerPath := "converter.log".toList

theorem demo_lawful (s : String) : (demoWorld s).Lawful := by
  intro p
  simp only [demoWorld]
  split_ifs with h1 h2
  · revert h2; decide
  · rfl
  · rfl

/-- `c73_study_partial` -/
example : ((demoWorld "/a%b").run [.output "/out".toList, .study "/study".toList]).result = .ok ("/study".toList, "/study/output.yaml".toList) := by
  refine (c73_study_partial (demo_lawful _) (conf := "data/config.ini".toList) (log := "converter.log".toList) ⟨?_, rfl, rfl, rfl, ?_⟩ rfl
    (s := "/study".toList) rfl (by decide) ?_).trans rfl
  · intro o ho
    fin_cases ho <;> rfl
  · exact ⟨by decide, rfl⟩
  · intro o ho
    fin_cases ho
    decide

/-- a command that only names a file for messages -/
theorem demo_faultless (s : String) : Faultless (demoWorld s) [.logging "messages".toList] "data/config.ini".toList "messages".toList where
  options := by
    intro o ho
    fin_cases ho
    exact ⟨(by decide : demoKind "messages".toList ≠ some true), rfl⟩
  confIs := rfl
  logIs := rfl
  confFine := (by decide : demoKind "data/config.ini".toList = some false)
  logFine := ⟨(by decide : demoKind "messages".toList ≠ some true), rfl⟩

/-- `c73_config_partial` -/
example : ((demoWorld "/study").run [.logging "messages".toList]).result = .ok ("/study".toList, "/study/output.yaml".toList) :=
  (c73_config_partial (demo_lawful _) (demo_faultless _) rfl rfl (v := "/study".toList) (Ini.has_iff.2 rfl) (by decide) (by decide) (by intro o ho; cases ho)).trans rfl

/-- `c73_current_directory` -/
example : ((demoWorld "").run [.logging "messages".toList]).result = .ok ("/work".toList, "/work/output.yaml".toList) :=
  (c73_current_directory (demo_lawful _) (demo_faultless _) rfl rfl (Ini.has_iff.2 rfl) (by decide) (by intro o ho; cases ho)).trans rfl

/-- `c73_output_ignored`: the command above names an output -/
example : ∃ d f, ((demoWorld "/a%b").run [.output "/out".toList, .study "/study".toList]).result = .ok (d, f) ∧ ¬ "/out".toList <+: f :=
  ⟨"/study".toList, "/study/output.yaml".toList, rfl, by decide⟩

/-- a command that names a study -/
theorem demo_faultless_study (s : String) {d : Text} (hd : d ∈ ["/50%".toList, "/a%%b".toList]) :
    Faultless (demoWorld s) [.study d] "data/config.ini".toList "converter.log".toList where
  options := by
    intro o ho
    rw [List.mem_singleton.1 ho]
    fin_cases hd <;> rfl
  confIs := rfl
  logIs := rfl
  confFine := (by decide : demoKind "data/config.ini".toList = some false)
  logFine := ⟨(by decide : demoKind "converter.log".toList ≠ some true), rfl⟩

/-- `c73_percent_refused` -/
example : ∃ m, ((demoWorld "").run [.study "/50%".toList]).result = .error (.valueError m) :=
  c73_percent_refused (demo_lawful _) (demo_faultless_study _ (by decide)) rfl (s := "/50%".toList) rfl
    ⟨"/50".toList, [], rfl, by decide, by decide, by decide⟩

/-- `c73_percent_other` -/
example : ((demoWorld "").run [.study "/a%%b".toList]).result = .ok ("/a%b".toList, "/a%b/output.yaml".toList) :=
  (c73_percent_other (demo_lawful _) (demo_faultless_study _ (by decide)) rfl (s := "/a%%b".toList) (a := "/a".toList) (b := "b".toList) rfl rfl
    (by decide) (by decide) rfl rfl).trans rfl

/-- `c73_escape`: the study in the folder `/50%`, in the configuration file -/
example : (Ini.get { study := some [("study_path".toList, "/50%%".toList)] } "study_path".toList) = .ok (some "/50%".toList) :=
  c73_escape _ _ _ (Ini.has_iff.2 rfl)

/-- `c73_log`: the file `messages` is created and stays empty -/
example : ((demoWorld "/study").run [.logging "messages".toList]).log = some "messages.log".toList ∧
    "messages".toList ∈ ((demoWorld "/study").run [.logging "messages".toList]).created :=
  let h := c73_log (demo_lawful "/study") (demo_faultless "/study")
  ⟨(h.2.1 (by decide)).trans rfl, h.2.2 (by decide)⟩

/-- `c73_refused_creates`: there is no directory `/nothing` -/
example : "messages".toList ∈ ((demoWorld "").run [.logging "messages".toList, .study "/nothing".toList]).created ∧
    ((demoWorld "").run [.logging "messages".toList, .study "/nothing".toList]).result = .error (.exception "SystemExit") :=
  ⟨c73_refused_creates (demo_lawful _) (s := "messages".toList) (by decide) rfl [.study "/nothing".toList], by decide +kernel⟩

/-- `c73_refused`: `data/config.ini` is a file -/
example : ((demoWorld "").run [.output "/out".toList, .study "data/config.ini".toList]).result = .error (.exception "SystemExit") :=
  (c73_refused (demo_lawful _) (o := .study "data/config.ini".toList) (by simp)
    (by decide : demoKind "data/config.ini".toList ≠ some true)).1

/-- `c73_reference` -/
example : Ini.get { defaults := [("root".toList, "/studies".toList)], study := some [("study_path".toList, "%(Root)s/a".toList)] }
    "study_path".toList = .ok (some "/studies/a".toList) :=
  c73_reference _ _ "Root".toList "/studies".toList "/a".toList (by decide) (by decide) (Ini.has_iff.2 rfl) (Ini.has_iff.2 rfl) (by decide) (by decide)

/-- without `study_path` in the configuration file, a command that names no study fails -/
example : (({ demoWorld "" with ini := fun _ => .ok {} }).run [.logging "messages".toList]).result = .error (.exception "TypeError") := by
  decide +kernel

end Verif.Props
