import Verif.Spec.OutputText
import Verif.Lemmas.Basic
import Mathlib.Data.List.Forall2

/-! Property C99: the text of output values tells all of them. -/

namespace Verif.Props
open Verif

theorem span_of {α : Type*} {p : α → Prop} {a b x y : List α} (ha : ∀ d ∈ a, p d) (hb : ∀ d ∈ b, p d) (hx : ∀ c r, x = c :: r → ¬ p c)
    (hy : ∀ c r, y = c :: r → ¬ p c) (h : a ++ x = b ++ y) : a = b ∧ x = y := by
  induction a generalizing b with
  | nil =>
    cases b with
    | nil => exact ⟨rfl, h⟩
    | cons d b => exact absurd (hb d (by simp)) (hx _ _ h)
  | cons c a ih =>
    cases b with
    | nil => exact absurd (ha c (by simp)) (hy _ _ h.symm)
    | cons d b =>
      simp only [List.cons_append, List.cons.injEq] at h
      obtain ⟨h1, h2⟩ := ih (fun d hd => ha d (by simp [hd])) (fun d hd => hb d (by simp [hd])) h.2
      exact ⟨by rw [h.1, h1], h2⟩

/-- up to the first `z` -/
theorem upTo {z : Char} {a b x y : List Char} (ha : z ∉ a) (hb : z ∉ b) (h : a ++ z :: x = b ++ z :: y) : a = b ∧ x = y := by
  obtain ⟨h1, h2⟩ := span_of (p := fun d => d ≠ z) (fun d hd e => ha (e ▸ hd)) (fun d hd e => hb (e ▸ hd))
    (fun c r e => by cases e; simp) (fun c r e => by cases e; simp) h
  exact ⟨h1, by simpa using h2⟩

/-! ### Lists -/

/-- texts of elements that can be read one after the other, whatever follows -/
def Separable {α : Type*} (f : α → List Char) (P : α → Prop) : Prop :=
  (∀ a, P a → ∃ c r, f a = c :: r ∧ c ≠ ']') ∧
  ∀ a b x y, P a → P b → (∀ c r, x = c :: r → c = ',' ∨ c = ']') → (∀ c r, y = c :: r → c = ',' ∨ c = ']') → f a ++ x = f b ++ y → a = b ∧ x = y

/-- the text of the elements after the first one, and of the end of a list -/
def tailText {α : Type*} (f : α → List Char) (l : List α) (r : List Char) : List Char := l.flatMap (fun a => ',' :: ' ' :: f a) ++ ']' :: r

theorem tailText_starts {α : Type*} (f : α → List Char) (l : List α) (r : List Char) :
    ∀ c r', tailText f l r = c :: r' → c = ',' ∨ c = ']' := by
  intro c r' h
  cases l with
  | nil =>
    simp only [tailText, List.flatMap_nil, List.nil_append, List.cons.injEq] at h
    exact .inr h.1.symm
  | cons a l =>
    simp only [tailText, List.flatMap_cons, List.cons_append, List.cons.injEq] at h
    exact .inl h.1.symm

theorem tailText_unique {α : Type*} {f : α → List Char} {P : α → Prop} (hf : Separable f P) (l m : List α) (r s : List Char)
    (hl : ∀ a ∈ l, P a) (hm : ∀ a ∈ m, P a) (h : tailText f l r = tailText f m s) : l = m ∧ r = s := by
  induction l generalizing m with
  | nil =>
    cases m with
    | nil => simpa [tailText] using h
    | cons b m => simp [tailText] at h
  | cons a l ih =>
    cases m with
    | nil => simp [tailText] at h
    | cons b m =>
      have e : f a ++ tailText f l r = f b ++ tailText f m s := by
        simpa [tailText] using h
      obtain ⟨rfl, h2⟩ := hf.2 a b _ _ (hl a (by simp)) (hm b (by simp)) (tailText_starts f l r) (tailText_starts f m s) e
      obtain ⟨rfl, rfl⟩ := ih m (fun a h => hl a (by simp [h])) (fun a h => hm a (by simp [h])) h2
      exact ⟨rfl, rfl⟩

/-- the text of all elements, and of the end of a list -/
def listText {α : Type*} (f : α → List Char) : List α → List Char → List Char
  | [], r => ']' :: r
  | a :: l, r => f a ++ tailText f l r

theorem listText_unique {α : Type*} {f : α → List Char} {P : α → Prop} (hf : Separable f P) (l m : List α) (r s : List Char)
    (hl : ∀ a ∈ l, P a) (hm : ∀ a ∈ m, P a) (h : listText f l r = listText f m s) : l = m ∧ r = s := by
  cases l with
  | nil =>
    cases m with
    | nil => simpa [listText] using h
    | cons b m =>
      obtain ⟨c, q, hc, hne⟩ := hf.1 b (hm b (by simp))
      simp only [listText, hc, List.cons_append, List.cons.injEq] at h
      exact absurd h.1.symm hne
  | cons a l =>
    cases m with
    | nil =>
      obtain ⟨c, q, hc, hne⟩ := hf.1 a (hl a (by simp))
      simp only [listText, hc, List.cons_append, List.cons.injEq] at h
      exact absurd h.1 hne
    | cons b m =>
      simp only [listText] at h
      obtain ⟨rfl, h2⟩ := hf.2 a b _ _ (hl a (by simp)) (hm b (by simp)) (tailText_starts f l r) (tailText_starts f m s) h
      obtain ⟨rfl, rfl⟩ := tailText_unique hf l m r s (fun a h => hl a (by simp [h])) (fun a h => hm a (by simp [h])) h2
      exact ⟨rfl, rfl⟩

theorem joinTexts_eq {α : Type*} (g : α → String) (l : List α) (r : List Char) :
    (joinTexts (l.map g)).toList ++ ']' :: r = listText (fun a => (g a).toList) l r := by
  cases l with
  | nil => rfl
  | cons a l =>
    induction l generalizing a with
    | nil => simp [joinTexts, listText, tailText]
    | cons b l ih =>
      have := ih b
      simp only [List.map_cons, listText] at this
      simp only [List.map_cons, joinTexts, String.toList_append, List.append_assoc, this, listText, tailText, List.flatMap_cons]
      rfl

theorem nums_separable {fmt : Num → String} (hf : FloatFormat fmt) : Separable (fun v => (fmt v).toList) (fun _ => True) := by
  constructor
  · intro a _
    cases h : (fmt a).toList with
    | nil => exact absurd (String.toList_inj.1 (h.trans (by rfl : [] = ("" : String).toList))) (hf.nonempty a)
    | cons c r =>
      refine ⟨c, r, h, fun e => ?_⟩
      have := hf.chars a c (by rw [h]; simp)
      rw [e] at this; simp at this
  · intro a b x y _ _ hx hy h
    have hp : ∀ a, ∀ d ∈ (fmt a).toList, d ≠ ',' ∧ d ≠ ']' := by
      intro a d hd
      have := hf.chars a d hd
      simp at this
      exact ⟨this.2.2.2.1, this.2.2.1⟩
    obtain ⟨h1, h2⟩ := span_of (p := fun d => d ≠ ',' ∧ d ≠ ']') (hp a) (hp b) (fun c r e => by rcases hx c r e with rfl | rfl <;> simp)
      (fun c r e => by rcases hy c r e with rfl | rfl <;> simp) h
    exact ⟨hf.injective _ _ (String.toList_inj.1 h1), h2⟩

theorem row_toList (fmt : Num → String) (l : List Num) (r : List Char) :
    ((OutItem.row l).text fmt).toList ++ r = '[' :: listText (fun v => (fmt v).toList) l r := by
  rw [← joinTexts_eq]
  simp [OutItem.text]

theorem list_toList (fmt : Num → String) (l : List OutItem) (r : List Char) :
    ((OutValue.list l).text fmt).toList ++ r = '[' :: listText (fun v => (OutItem.text fmt v).toList) l r := by
  rw [← joinTexts_eq]
  simp [OutValue.text]

theorem num_head {fmt : Num → String} (hf : FloatFormat fmt) (a : Num) : ∃ c r, (fmt a).toList = c :: r ∧ c ≠ '[' := by
  cases h : (fmt a).toList with
  | nil => exact absurd (String.toList_inj.1 (h.trans (by rfl : [] = ("" : String).toList))) (hf.nonempty a)
  | cons c r =>
    refine ⟨c, r, rfl, fun e => ?_⟩
    have := hf.chars a c (by rw [h]; simp)
    rw [e] at this; simp at this

theorem items_separable {fmt : Num → String} (hf : FloatFormat fmt) : Separable (fun v => (OutItem.text fmt v).toList) (fun _ => True) := by
  constructor
  · intro a _
    cases a with
    | num v => exact (nums_separable hf).1 v trivial
    | row l =>
      have := row_toList fmt l []
      rw [List.append_nil] at this
      exact ⟨_, _, this, by decide⟩
  · intro a b x y _ _ hx hy h
    cases a with
    | num v =>
      cases b with
      | num w =>
        obtain ⟨rfl, h2⟩ := (nums_separable hf).2 v w x y trivial trivial hx hy h
        exact ⟨rfl, h2⟩
      | row m =>
        dsimp only at h
        rw [row_toList] at h
        obtain ⟨c, r, hc, hne⟩ := num_head hf v
        simp only [OutItem.text, hc, List.cons_append, List.cons.injEq] at h
        exact absurd h.1 hne
    | row l =>
      cases b with
      | num w =>
        dsimp only at h
        rw [row_toList] at h
        obtain ⟨c, r, hc, hne⟩ := num_head hf w
        simp only [OutItem.text, hc, List.cons_append, List.cons.injEq] at h
        exact absurd h.1.symm hne
      | row m =>
        dsimp only at h
        rw [row_toList, row_toList, List.cons.injEq] at h
        obtain ⟨rfl, h2⟩ := listText_unique (nums_separable hf) l m x y (by simp) (by simp) h.2
        exact ⟨rfl, h2⟩

theorem value_unique {fmt : Num → String} (hf : FloatFormat fmt) {x y : OutValue} (h : x.text fmt = y.text fmt) : x = y := by
  have h := congrArg String.toList h
  cases x with
  | num v =>
    cases y with
    | num w => rw [hf.injective v w (String.toList_inj.1 h)]
    | list m =>
      rw [← List.append_nil ((OutValue.list m).text fmt).toList, list_toList] at h
      obtain ⟨c, r, hc, hne⟩ := num_head hf v
      simp only [OutValue.text, hc, List.cons.injEq] at h
      exact absurd h.1 hne
  | list l =>
    cases y with
    | num w =>
      rw [← List.append_nil ((OutValue.list l).text fmt).toList, list_toList] at h
      obtain ⟨c, r, hc, hne⟩ := num_head hf w
      simp only [OutValue.text, hc, List.cons.injEq] at h
      exact absurd h.1.symm hne
    | list m =>
      rw [← List.append_nil ((OutValue.list l).text fmt).toList, ← List.append_nil ((OutValue.list m).text fmt).toList, list_toList,
        list_toList, List.cons.injEq] at h
      rw [(listText_unique (items_separable hf) l m [] [] (by simp) (by simp) h.2).1]

/-! ### Characters of values -/

theorem joinTexts_chars {z : Char} (hz : z ≠ ',' ∧ z ≠ ' ') (l : List String) (h : ∀ s ∈ l, z ∉ s.toList) : z ∉ (joinTexts l).toList := by
  induction l with
  | nil => simp [joinTexts]
  | cons a l ih =>
    cases l with
    | nil => simpa [joinTexts] using h a (by simp)
    | cons b l =>
      have h1 := ih fun s hs => h s (by simp [hs])
      have h2 := h a (by simp)
      simp [joinTexts, h1, h2, hz.1, hz.2]

theorem fmt_chars {fmt : Num → String} (hf : FloatFormat fmt) {z : Char} (hz : z = '(' ∨ z = '\n') (v : Num) : z ∉ (fmt v).toList := by
  intro h
  have := hf.chars v z h
  rcases hz with rfl | rfl <;> simp at this

theorem item_chars {fmt : Num → String} (hf : FloatFormat fmt) {z : Char} (hz : z = '(' ∨ z = '\n') (i : OutItem) :
    z ∉ (i.text fmt).toList := by
  cases i with
  | num v => exact fmt_chars hf hz v
  | row l =>
    have := joinTexts_chars (z := z) (by rcases hz with rfl | rfl <;> decide) (l.map fmt) (by
      intro s hs
      obtain ⟨v, -, rfl⟩ := List.mem_map.1 hs
      exact fmt_chars hf hz v)
    have hb : z ≠ '[' ∧ z ≠ ']' := by rcases hz with rfl | rfl <;> decide
    simp [OutItem.text, this, hb.1, hb.2]

theorem value_chars {fmt : Num → String} (hf : FloatFormat fmt) {z : Char} (hz : z = '(' ∨ z = '\n') (x : OutValue) :
    z ∉ (x.text fmt).toList := by
  cases x with
  | num v => exact fmt_chars hf hz v
  | list l =>
    have := joinTexts_chars (z := z) (by rcases hz with rfl | rfl <;> decide) (l.map (OutItem.text fmt)) (by
      intro s hs
      obtain ⟨v, -, rfl⟩ := List.mem_map.1 hs
      exact item_chars hf hz v)
    have hb : z ≠ '[' ∧ z ≠ ']' := by rcases hz with rfl | rfl <;> decide
    simp [OutValue.text, this, hb.1, hb.2]

/-! ### Lines -/

/-- the line of a variable -/
def varLine (fmt : Num → String) (v : OutVar) (x : OutValue) : List Char :=
  ' ' :: ' ' :: (v.name.toList ++ (' ' :: ':' :: ' ' :: ((x.text fmt).toList ++ ' ' :: (ignoredText v.ignore).toList)))

/-- the line of a component -/
def compLine (k : OutComp) : List Char := k.id.toList ++ (' ' :: ':' :: ' ' :: (ignoredText k.ignore).toList)

theorem ignored_inj {a b : Bool} (h : (ignoredText a).toList = (ignoredText b).toList) : a = b := by
  cases a <;> cases b <;> first | rfl | (revert h; decide)

theorem name_split {n m x y : List Char} (hn : ':' ∉ n) (hm : ':' ∉ m) (h : n ++ (' ' :: ':' :: ' ' :: x) = m ++ (' ' :: ':' :: ' ' :: y)) :
    n = m ∧ x = y := by
  have h' : (n ++ [' ']) ++ ':' :: (' ' :: x) = (m ++ [' ']) ++ ':' :: (' ' :: y) := by simpa using h
  obtain ⟨h1, h2⟩ := upTo (by simp [hn]) (by simp [hm]) h'
  exact ⟨List.append_cancel_right h1, by simpa using h2⟩

theorem compLine_unique {k l : OutComp} (hk : ':' ∉ k.id.toList) (hl : ':' ∉ l.id.toList) (h : compLine k = compLine l) :
    k.id = l.id ∧ k.ignore = l.ignore := by
  obtain ⟨h1, h2⟩ := name_split hk hl h
  exact ⟨String.toList_inj.1 h1, ignored_inj h2⟩

theorem varLine_unique {fmt : Num → String} (hf : FloatFormat fmt) {v w : OutVar} {x y : OutValue} (hv : ':' ∉ v.name.toList)
    (hw : ':' ∉ w.name.toList) (h : varLine fmt v x = varLine fmt w y) : v.name = w.name ∧ v.ignore = w.ignore ∧ x = y := by
  simp only [varLine, List.cons.injEq, true_and] at h
  obtain ⟨h1, h2⟩ := name_split hv hw h
  have hx := value_chars hf (.inl rfl : '(' = '(' ∨ _) x
  have hy := value_chars hf (.inl rfl : '(' = '(' ∨ _) y
  have hi : v.ignore = w.ignore := by
    have hmem : ∀ (x : OutValue) (b : Bool), '(' ∈ (x.text fmt).toList ++ ' ' :: (ignoredText b).toList ↔ b = true := by
      intro x b
      have hx := value_chars hf (.inl rfl : '(' = '(' ∨ _) x
      cases b <;> simp [hx, ignoredText]
    have := hmem x v.ignore
    rw [h2, hmem y w.ignore] at this
    cases hv : v.ignore <;> cases hw : w.ignore <;> simp_all
  rw [hi] at h2
  exact ⟨String.toList_inj.1 h1, hi, value_unique hf (String.toList_inj.1 (List.append_cancel_right h2))⟩

/-- lines, each with its end -/
def linesText (ls : List (List Char)) : List Char := ls.flatMap (fun l => l ++ ['\n'])

theorem linesText_unique {ls ms : List (List Char)} (hl : ∀ l ∈ ls, '\n' ∉ l) (hm : ∀ l ∈ ms, '\n' ∉ l) (h : linesText ls = linesText ms) :
    ls = ms := by
  induction ls generalizing ms with
  | nil =>
    cases ms with
    | nil => rfl
    | cons m ms => simp [linesText] at h
  | cons l ls ih =>
    cases ms with
    | nil => simp [linesText] at h
    | cons m ms =>
      have h' : l ++ '\n' :: linesText ls = m ++ '\n' :: linesText ms := by simpa [linesText] using h
      obtain ⟨rfl, h2⟩ := upTo (hl l (by simp)) (hm m (by simp)) h'
      rw [ih (fun l h => hl l (by simp [h])) (fun l h => hm l (by simp [h])) h2]

/-- `ls` are the lines of the variables -/
def VarLines (fmt : Num → String) (vs : List OutVar) (ls : List (List Char)) : Prop :=
  List.Forall₂ (fun v l => ∃ x, v.read = .ok x ∧ l = varLine fmt v x) vs ls

/-- `ls` are the lines of the components, one after the other -/
inductive CompLines (fmt : Num → String) : List OutComp → List (List Char) → Prop
  | nil : CompLines fmt [] []
  | cons {k ks vl ls} : VarLines fmt k.variables_.values vl → CompLines fmt ks ls → CompLines fmt (k :: ks) (compLine k :: (vl ++ ls))

theorem addVars_lines (fmt : Num → String) (vs : List OutVar) (s t : String) (h : addVars fmt vs s = .ok t) :
    ∃ ls, VarLines fmt vs ls ∧ t.toList = s.toList ++ linesText ls := by
  induction vs generalizing s with
  | nil =>
    simp only [addVars, Except.ok.injEq] at h
    exact ⟨[], .nil, by simp [h, linesText]⟩
  | cons v vs ih =>
    simp only [addVars, OutVar.text, bind_ok_iff, Except.ok.injEq] at h
    obtain ⟨_, ⟨x, hx, rfl⟩, h⟩ := h
    obtain ⟨ls, h1, h2⟩ := ih _ h
    refine ⟨varLine fmt v x :: ls, .cons ⟨x, hx, rfl⟩ h1, ?_⟩
    rw [h2]
    simp [linesText, varLine]

theorem addComps_lines (fmt : Num → String) (ks : List OutComp) (s t : String) (h : addComps fmt ks s = .ok t) :
    ∃ ls, CompLines fmt ks ls ∧ t.toList = s.toList ++ linesText ls := by
  induction ks generalizing s with
  | nil =>
    simp only [addComps, Except.ok.injEq] at h
    exact ⟨[], .nil, by simp [h, linesText]⟩
  | cons k ks ih =>
    simp only [addComps, OutComp.text, bind_ok_iff] at h
    obtain ⟨x, hx, h⟩ := h
    obtain ⟨vl, h1, h2⟩ := addVars_lines fmt _ _ _ hx
    obtain ⟨ls, h3, h4⟩ := ih _ h
    refine ⟨_, .cons h1 h3, ?_⟩
    rw [h4, String.toList_append, h2]
    simp [linesText, compLine]

theorem varLines_newline {fmt : Num → String} (hf : FloatFormat fmt) {vs : List OutVar} {ls : List (List Char)} (h : VarLines fmt vs ls)
    (hv : ∀ v ∈ vs, '\n' ∉ v.name.toList) : ∀ l ∈ ls, '\n' ∉ l ∧ ∃ r, l = ' ' :: r := by
  induction h with
  | nil => simp
  | @cons v l vs ls hx _ ih =>
    obtain ⟨x, -, rfl⟩ := hx
    intro m hm
    rcases List.mem_cons.1 hm with rfl | hm
    · have h1 := hv v (by simp)
      have h2 := value_chars hf (.inr rfl : '\n' = '(' ∨ _) x
      refine ⟨?_, _, rfl⟩
      cases hi : v.ignore <;> simp [varLine, h1, h2, ignoredText, hi]
    · exact ih (fun v h => hv v (by simp [h])) m hm

theorem compLine_head {k : OutComp} (hk : OneWordName k.id) : '\n' ∉ compLine k ∧ ¬ ∃ r, compLine k = ' ' :: r := by
  obtain ⟨h1, h2, c, r, h3, h4⟩ := hk
  constructor
  · cases hi : k.ignore <;> simp [compLine, h1, ignoredText, hi]
  · rintro ⟨r', h⟩
    simp only [compLine, h3, List.cons_append, List.cons.injEq] at h
    exact h4 h.1

theorem compLines_newline {fmt : Num → String} (hf : FloatFormat fmt) {ks : List OutComp} {ls : List (List Char)} (h : CompLines fmt ks ls)
    (hk : ∀ k ∈ ks, OneWordName k.id ∧ ∀ v ∈ k.variables_.values, '\n' ∉ v.name.toList ∧ ':' ∉ v.name.toList) : ∀ l ∈ ls, '\n' ∉ l := by
  induction h with
  | nil => simp
  | @cons k ks vl ls h1 _ ih =>
    intro l hl
    obtain ⟨hk1, hk2⟩ := hk k (by simp)
    rcases List.mem_cons.1 hl with rfl | hl
    · exact (compLine_head hk1).1
    rcases List.mem_append.1 hl with hl | hl
    · exact (varLines_newline hf h1 (fun v h => (hk2 v h).1) l hl).1
    · exact ih (fun k h => hk k (by simp [h])) l hl

theorem varLines_same {fmt : Num → String} (hf : FloatFormat fmt) {vs ws : List OutVar} {ls : List (List Char)} (h : VarLines fmt vs ls)
    (h' : VarLines fmt ws ls) (hv : ∀ v ∈ vs, ':' ∉ v.name.toList) (hw : ∀ v ∈ ws, ':' ∉ v.name.toList) : List.Forall₂ SameVar vs ws := by
  induction h generalizing ws with
  | nil => cases h'; exact .nil
  | cons hx _ ih =>
    cases h' with
    | cons hy h' =>
      obtain ⟨x, hx, rfl⟩ := hx
      obtain ⟨y, hy, e⟩ := hy
      obtain ⟨h1, h2, rfl⟩ := varLine_unique hf (hv _ (by simp)) (hw _ (by simp)) e
      exact .cons ⟨h1, h2, x, hx, hy⟩ (ih h' (fun v h => hv v (by simp [h])) (fun v h => hw v (by simp [h])))

theorem compLines_start {fmt : Num → String} {ks : List OutComp} {ls : List (List Char)} (h : CompLines fmt ks ls)
    (hk : ∀ k ∈ ks, OneWordName k.id) : ∀ c r, ls = c :: r → ¬ ∃ r, c = ' ' :: r := by
  intro c r e
  cases h with
  | nil => cases e
  | cons h1 h2 =>
    cases e
    exact (compLine_head (hk _ (by simp))).2

theorem compLines_same {fmt : Num → String} (hf : FloatFormat fmt) {ks js : List OutComp} {ls : List (List Char)} (h : CompLines fmt ks ls)
    (h' : CompLines fmt js ls)
    (hk : ∀ k ∈ ks, OneWordName k.id ∧ ∀ v ∈ k.variables_.values, '\n' ∉ v.name.toList ∧ ':' ∉ v.name.toList)
    (hj : ∀ k ∈ js, OneWordName k.id ∧ ∀ v ∈ k.variables_.values, '\n' ∉ v.name.toList ∧ ':' ∉ v.name.toList) :
    List.Forall₂ SameComp ks js := by
  induction h generalizing js with
  | nil => cases h'; exact .nil
  | @cons k ks vl ls h1 h2 ih =>
    obtain ⟨hk1, hk2⟩ := hk k (by simp)
    generalize hm : compLine k :: (vl ++ ls) = m at h'
    cases h' with
    | nil => cases hm
    | @cons j js vl' ls' h1' h2' =>
      obtain ⟨hj1, hj2⟩ := hj j (by simp)
      rw [List.cons.injEq] at hm
      obtain ⟨e1, e2⟩ := compLine_unique hk1.2.1 hj1.2.1 hm.1
      obtain ⟨rfl, rfl⟩ := span_of (p := fun l : List Char => ∃ r, l = ' ' :: r)
        (fun l hl => (varLines_newline hf h1 (fun v h => (hk2 v h).1) l hl).2)
        (fun l hl => (varLines_newline hf h1' (fun v h => (hj2 v h).1) l hl).2)
        (compLines_start h2 fun k h => (hk k (by simp [h])).1) (compLines_start h2' fun k h => (hj k (by simp [h])).1) hm.2
      exact .cons ⟨e1, e2, varLines_same hf h1 h1' (fun v h => (hk2 v h).2) (fun v h => (hj2 v h).2)⟩
        (ih h2' (fun k h => hk k (by simp [h])) (fun k h => hj k (by simp [h])))

/-! ### The same contents have the same text -/

theorem addVars_of_same (fmt : Num → String) {vs ws : List OutVar} (h : List.Forall₂ SameVar vs ws) (s : String) :
    addVars fmt vs s = addVars fmt ws s := by
  induction h generalizing s with
  | nil => rfl
  | cons hx _ ih =>
    obtain ⟨x, h1, h2⟩ := hx.value
    simp only [addVars, OutVar.text, h1, h2, hx.name, hx.ignore]
    exact ih _

theorem addComps_of_same (fmt : Num → String) {ks js : List OutComp} (h : List.Forall₂ SameComp ks js) (s : String) :
    addComps fmt ks s = addComps fmt js s := by
  induction h generalizing s with
  | nil => rfl
  | cons hx _ ih =>
    simp only [addComps, OutComp.text, hx.id, hx.ignore, addVars_of_same fmt hx.variables_]
    congr 1
    funext x
    exact ih _

/-- **C99**: when both can be written, two output values with such names have the same text exactly when they have the same components, with
the same variables, values and marks, in the same order. -/
theorem c99_same_text_partial (fmt : Num → String) (hf : FloatFormat fmt) (o p : Output) (ho : o.Plain) (hp : p.Plain) (s t : String)
    (hs : o.text fmt = .ok s) (ht : p.text fmt = .ok t) : s = t ↔ SameOutput o p := by
  constructor
  · rintro rfl
    obtain ⟨ls, h1, h2⟩ := addComps_lines fmt _ _ _ hs
    obtain ⟨ms, h3, h4⟩ := addComps_lines fmt _ _ _ ht
    rw [h2] at h4
    have := linesText_unique (compLines_newline hf h1 ho) (compLines_newline hf h3 hp) (List.append_cancel_left h4)
    rw [← this] at h3
    exact compLines_same hf h1 h3 ho hp
  · intro h
    have : o.text fmt = p.text fmt := addComps_of_same fmt h _
    rw [hs, ht] at this
    exact Except.ok.inj this

/-- **C99**, acceptance: output values can be written exactly when all their variables can be read. -/
theorem c99_accepted (fmt : Num → String) (o : Output) :
    (∃ s, o.text fmt = .ok s) ↔ ∀ k ∈ o.components.values, ∀ v ∈ k.variables_.values, ∃ x, v.read = .ok x := by
  have hv : ∀ (vs : List OutVar) (s : String), (∃ t, addVars fmt vs s = .ok t) ↔ ∀ v ∈ vs, ∃ x, v.read = .ok x := by
    intro vs
    induction vs with
    | nil => intro s; simp [addVars]
    | cons v vs ih =>
      intro s
      simp only [addVars, OutVar.text, bind_ok_iff, Except.ok.injEq, List.forall_mem_cons]
      constructor
      · rintro ⟨t, _, ⟨x, hx, rfl⟩, h⟩
        exact ⟨⟨x, hx⟩, (ih _).1 ⟨t, h⟩⟩
      · rintro ⟨⟨x, hx⟩, h⟩
        obtain ⟨t, ht⟩ := (ih (s ++ "  " ++ (v.name ++ " : " ++ x.text fmt ++ " " ++ ignoredText v.ignore) ++ "\n")).2 h
        exact ⟨t, _, ⟨x, hx, rfl⟩, ht⟩
  have hk : ∀ (ks : List OutComp) (s : String), (∃ t, addComps fmt ks s = .ok t) ↔ ∀ k ∈ ks, ∀ v ∈ k.variables_.values, ∃ x, v.read = .ok x := by
    intro ks
    induction ks with
    | nil => intro s; simp [addComps]
    | cons k ks ih =>
      intro s
      simp only [addComps, OutComp.text, bind_ok_iff, List.forall_mem_cons]
      constructor
      · rintro ⟨t, x, hx, h⟩
        exact ⟨(hv _ _).1 ⟨x, hx⟩, (ih _).1 ⟨t, h⟩⟩
      · rintro ⟨h1, h2⟩
        obtain ⟨x, hx⟩ := (hv k.variables_.values (k.id ++ " : " ++ ignoredText k.ignore ++ "\n")).2 h1
        obtain ⟨t, ht⟩ := (ih (s ++ x)).2 h2
        exact ⟨t, x, hx, ht⟩
  exact hk _ _

end Verif.Props
