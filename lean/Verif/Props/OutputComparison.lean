import Verif.Spec.Output
import Verif.Lemmas.Equality
import Verif.Props.Data
import Verif.Props.Comparison

/-!
# C42: comparing output values
-/

namespace Verif

/-- close numbers: the same number (not NaN), or two finite numbers at most `abs` apart, or at most `rel` times the larger
magnitude -/
def NumClose (rel abs : ℚ) : Num → Num → Prop
  | .fin x, .fin y => x = y ∨ |x - y| ≤ max (rel * max |x| |y|) abs
  | .pinf, .pinf => True
  | .ninf, .ninf => True
  | _, _ => False

/-- close variables, both to be compared: same name, same size, close values at the same indices -/
structure VarClose (rel abs : ℚ) (a b : OutVar) : Prop where
  name : a.name = b.name
  size : a.size = b.size
  values : ∀ k, Option.Rel (NumClose rel abs) (Dict.get? a.value k) (Dict.get? b.value k)

/-- two dictionaries agree up to `close` except for ignored values: a key of one only must be ignored there, a common key
must be ignored in one of them or have close values -/
def AgreeUpTo {α} (ign : α → Bool) (close : α → α → Prop) (a b : Dict String α) : Prop :=
  ∀ k, match Dict.get? a k, Dict.get? b k with
    | none, none => True
    | some x, none => ign x = true
    | none, some y => ign y = true
    | some x, some y => ign x = true ∨ ign y = true ∨ close x y

structure CompClose (rel abs : ℚ) (a b : OutComp) : Prop where
  id : a.id = b.id
  variables_ : AgreeUpTo OutVar.ignore (VarClose rel abs) a.variables_ b.variables_

/-- close outputs -/
def OutputClose (rel abs : ℚ) (a b : Output) : Prop := AgreeUpTo OutComp.ignore (CompClose rel abs) a.components b.components

/-- keys occur once, as in Python dictionaries -/
structure Output.Ok (o : Output) : Prop where
  components : (Dict.keys o.components).Nodup
  variables_ : ∀ k c, (k, c) ∈ o.components → (Dict.keys c.variables_).Nodup
  values : ∀ k c, (k, c) ∈ o.components → ∀ n w, (n, w) ∈ c.variables_ → (Dict.keys w.value).Nodup

namespace Props

theorem isclose_iff (rel abs : ℚ) (hr : 0 ≤ rel) (a b : Num) : isclose abs rel a b = true ↔ NumClose rel abs a b := by
  unfold isclose
  cases a with
  | fin x =>
    cases b with
    | fin y =>
      simp only [Num.eqb, decide_eq_true_eq, Num.fin_inj]
      by_cases h : x = y
      · simp [h, NumClose]
      · simp only [h, if_false, Bool.or_eq_true, decide_eq_true_eq, NumClose, false_or, le_max_iff, mul_max_of_nonneg _ _ hr]
        tauto
    | pinf => simp [Num.eqb, NumClose]
    | ninf => simp [Num.eqb, NumClose]
    | nan => simp [Num.eqb, NumClose]
  | pinf => cases b <;> simp [Num.eqb, NumClose]
  | ninf => cases b <;> simp [Num.eqb, NumClose]
  | nan => cases b <;> simp [Num.eqb, NumClose]

theorem eqb_iff (a b : Num) : a.eqb b = true ↔ NumClose 0 0 a b := by
  cases a <;> cases b <;> simp [Num.eqb, NumClose, sub_eq_zero]

theorem dictEqb_iff {κ α} [DecidableEq κ] (eq : α → α → Bool) (rel : α → α → Prop) (a b : Dict κ α)
    (na : (Dict.keys a).Nodup) (nb : (Dict.keys b).Nodup) (h : ∀ v w, eq v w = true ↔ rel v w) :
    dictEqb eq a b = true ↔ ∀ k, Option.Rel rel (Dict.get? a k) (Dict.get? b k) := by
  have := (dictEqWith_iff (fun v w => .ok (eq v w)) rel a b na nb (fun k v _ w => ⟨⟨_, rfl⟩, by rw [Except.ok.injEq]; exact h v w⟩)).2
  refine Iff.trans ?_ this
  unfold dictEqb dictEqWith
  have hgo : ∀ l : List (κ × α), dictEqWith.go (fun v w => .ok (eq v w)) b l = .ok (l.all fun (k, v) => match Dict.get? b k with
    | none => false
    | some w => eq v w) := by
    intro l
    induction l with
    | nil => rfl
    | cons x l ih =>
      obtain ⟨k, v⟩ := x
      unfold dictEqWith.go
      simp only [List.all_cons]
      cases hk : Dict.get? b k with
      | none => rfl
      | some w =>
        simp only [ok_bind]
        cases he : eq v w
        · rfl
        · simpa using ih
  rw [hgo]
  by_cases hl : a.length = b.length
  · rw [if_neg (not_not.2 hl), Except.ok.injEq, Bool.and_eq_true, beq_iff_eq]
    exact ⟨fun h => h.2, fun h => ⟨hl, h⟩⟩
  · simp [hl]

theorem allR_ok {α} (f : α → R Bool) (P : α → Prop) (l : List α) (h : ∀ x ∈ l, ∃ b, f x = .ok b ∧ (b = true ↔ P x)) :
    ∃ b, allR f l = .ok b ∧ (b = true ↔ ∀ x ∈ l, P x) := by
  induction l with
  | nil => exact ⟨true, rfl, by simp⟩
  | cons x l ih =>
    obtain ⟨b, hb, hp⟩ := h x (by simp)
    obtain ⟨c, hc, hq⟩ := ih fun y hy => h y (List.mem_cons.2 (.inr hy))
    simp only [allR, hb, ok_bind]
    cases b
    · refine ⟨false, rfl, ?_⟩
      simp only [Bool.false_eq_true, false_iff] at hp ⊢
      exact fun hall => hp (hall x (by simp))
    · refine ⟨c, hc, ?_⟩
      rw [hq]
      have := hp.1 rfl
      constructor
      · intro hall y hy
        rcases List.mem_cons.1 hy with rfl | hy
        · exact this
        · exact hall y hy
      · exact fun hall y hy => hall y (List.mem_cons.2 (.inr hy))

/-- `all(isclose(...))` over two dictionaries with the same keys -/
theorem closeValues {κ} [DecidableEq κ] (rel abs : ℚ) (hr : 0 ≤ rel) (ha : 0 ≤ abs) (a b : Dict κ Num) (na : (Dict.keys a).Nodup)
    (nb : (Dict.keys b).Nodup) :
    ∃ r, (if !(dictEqb (fun _ _ => true) a b) then (.ok false : R Bool)
      else allR (fun (k, x) => do let y ← Dict.get b k; iscloseR rel abs x y) a) = .ok r ∧
      (r = true ↔ ∀ k, Option.Rel (NumClose rel abs) (Dict.get? a k) (Dict.get? b k)) := by
  have hk := dictEqb_iff (fun _ _ : Num => true) (fun _ _ => True) a b na nb (by simp)
  by_cases h : dictEqb (fun _ _ : Num => true) a b = true
  · rw [h]
    simp only [Bool.not_true, Bool.false_eq_true, if_false]
    have hrel := hk.1 h
    obtain ⟨r, h1, h2⟩ := allR_ok (fun p : κ × Num => do let y ← Dict.get b p.1; iscloseR rel abs p.2 y)
      (fun p => ∃ y, Dict.get? b p.1 = some y ∧ NumClose rel abs p.2 y) a (by
        rintro ⟨k, x⟩ hm
        have hx := Dict.get?_of_mem na hm
        have := hrel k
        rw [hx] at this
        cases hy : Dict.get? b k with
        | none => rw [hy] at this; cases this
        | some y =>
          refine ⟨isclose abs rel x y, ?_, ?_⟩
          · simp only [(get_ok_iff' b k y).2 hy, ok_bind]
            simp [iscloseR, hr, ha]
          · rw [isclose_iff rel abs hr]
            simp [hy])
    refine ⟨r, h1, h2.trans ⟨fun hall k => ?_, fun hall p hm => ?_⟩⟩
    · cases hx : Dict.get? a k with
      | some x =>
        obtain ⟨y, hy, hc⟩ := hall (k, x) (Dict.mem_of_get? hx)
        rw [hy]
        exact .some hc
      | none =>
        have := hrel k
        rw [hx] at this
        cases hy : Dict.get? b k with
        | none => exact .none
        | some y => rw [hy] at this; cases this
    · obtain ⟨k, x⟩ := p
      have hx := Dict.get?_of_mem na hm
      have := hall k
      rw [hx] at this
      cases hy : Dict.get? b k with
      | none => rw [hy] at this; cases this
      | some y => rw [hy] at this; cases this with | some h => exact ⟨y, rfl, h⟩
  · refine ⟨false, by simp [h], ?_⟩
    simp only [Bool.false_eq_true, false_iff]
    intro hall
    refine h (hk.2 fun k => ?_)
    have := hall k
    cases hx : Dict.get? a k <;> cases hy : Dict.get? b k <;> rw [hx, hy] at this
    · exact .none
    · cases this
    · cases this
    · exact .some trivial

theorem varEqb_iff (a b : OutVar) (na : (Dict.keys a.value).Nodup) (nb : (Dict.keys b.value).Nodup) :
    a.eqb b = true ↔ a.ignore = true ∨ b.ignore = true ∨ VarClose 0 0 a b := by
  unfold OutVar.eqb
  simp only [Bool.or_eq_true, Bool.and_eq_true, decide_eq_true_eq, dictEqb_iff Num.eqb (NumClose 0 0) a.value b.value na nb eqb_iff, or_assoc]
  refine or_congr Iff.rfl (or_congr Iff.rfl ⟨fun ⟨⟨h1, h2⟩, h3⟩ => ⟨h1, h2, h3⟩, fun ⟨h1, h2, h3⟩ => ⟨⟨h1, h2⟩, h3⟩⟩)

theorem varClose_iff (rel abs : ℚ) (hr : 0 ≤ rel) (ha : 0 ≤ abs) (a b : OutVar) (na : (Dict.keys a.value).Nodup)
    (nb : (Dict.keys b.value).Nodup) :
    ∃ r, a.isClose b rel abs = .ok r ∧ (r = true ↔ a.ignore = true ∨ b.ignore = true ∨ VarClose rel abs a b) := by
  unfold OutVar.isClose
  cases h1 : a.ignore
  · cases h2 : b.ignore
    · simp only [Bool.or_self, Bool.false_eq_true, if_false, false_or]
      by_cases hn : a.name = b.name
      · by_cases hs : a.size = b.size
        · rw [if_neg (not_not.2 hn), if_neg (not_not.2 hs)]
          obtain ⟨r, h3, h4⟩ := closeValues rel abs hr ha a.value b.value na nb
          exact ⟨r, h3, h4.trans ⟨fun h => ⟨hn, hs, h⟩, fun h => h.values⟩⟩
        · rw [if_neg (not_not.2 hn), if_pos hs]
          exact ⟨false, rfl, by simp only [Bool.false_eq_true, false_iff]; exact fun h => hs h.size⟩
      · rw [if_pos hn]
        exact ⟨false, rfl, by simp only [Bool.false_eq_true, false_iff]; exact fun h => hn h.name⟩
    · exact ⟨true, by simp, by simp⟩
  · exact ⟨true, by simp, by simp⟩

theorem mappingsClose_iff {α} (ign : α → Bool) (eq : α → α → R Bool) (close : α → α → ℚ → ℚ → R Bool) (rel abs : ℚ)
    (lhs rhs : Dict String α) (nl : (Dict.keys lhs).Nodup) (nr : (Dict.keys rhs).Nodup) (P : α → α → Prop)
    (h : ∀ k x, (k, x) ∈ lhs → ∀ y, (k, y) ∈ rhs →
      ∃ r, (if rel = abs ∧ abs = 0 then eq x y else close x y rel abs) = .ok r ∧ (r = true ↔ ign x = true ∨ ign y = true ∨ P x y)) :
    ∃ r, mappingsClose ign eq close lhs rhs rel abs = .ok r ∧ (r = true ↔ AgreeUpTo ign P lhs rhs) := by
  unfold mappingsClose
  have hany : ∀ (a b : Dict String α), (a.any (fun (k, x) => !Dict.contains b k && !ign x)) = true ↔
      ∃ k x, (k, x) ∈ a ∧ Dict.get? b k = none ∧ ign x = false := by
    intro a b
    simp only [List.any_eq_true, Prod.exists, Bool.and_eq_true, Bool.not_eq_true', Dict.contains_false_iff]
  by_cases h1 : (lhs.any (fun (k, x) => !Dict.contains rhs k && !ign x)) = true
  · rw [if_pos h1]
    obtain ⟨k, x, hm, hn, hi⟩ := (hany _ _).1 h1
    refine ⟨false, rfl, ?_⟩
    simp only [Bool.false_eq_true, false_iff]
    intro hall
    have := hall k
    rw [Dict.get?_of_mem nl hm, hn] at this
    simp only [hi, Bool.false_eq_true] at this
  rw [if_neg h1]
  by_cases h2 : (rhs.any (fun (k, x) => !Dict.contains lhs k && !ign x)) = true
  · rw [if_pos h2]
    obtain ⟨k, x, hm, hn, hi⟩ := (hany _ _).1 h2
    refine ⟨false, rfl, ?_⟩
    simp only [Bool.false_eq_true, false_iff]
    intro hall
    have := hall k
    rw [Dict.get?_of_mem nr hm, hn] at this
    simp only [hi, Bool.false_eq_true] at this
  · rw [if_neg h2]
    rw [hany] at h1 h2
    push Not at h1 h2
    obtain ⟨r, e1, e2⟩ := allR_ok (fun p : String × α => match Dict.get? rhs p.1 with
      | none => (.ok true : R Bool)
      | some b => if rel = abs ∧ abs = 0 then eq p.2 b else close p.2 b rel abs)
      (fun p => ∀ y, Dict.get? rhs p.1 = some y → ign p.2 = true ∨ ign y = true ∨ P p.2 y) lhs (by
        rintro ⟨k, x⟩ hm
        cases hy : Dict.get? rhs k with
        | none => exact ⟨true, by simp [hy], by simp [hy]⟩
        | some y =>
          obtain ⟨r, e1, e2⟩ := h k x hm y (Dict.mem_of_get? hy)
          refine ⟨r, by simp only [hy]; exact e1, e2.trans ?_⟩
          simp [hy])
    refine ⟨r, e1, e2.trans ⟨fun hall k => ?_, fun hall p hm y hy => ?_⟩⟩
    · cases hx : Dict.get? lhs k with
      | none =>
        cases hy : Dict.get? rhs k with
        | none => trivial
        | some y =>
          have := h2 k y (Dict.mem_of_get? hy) hx
          simpa using this
      | some x =>
        cases hy : Dict.get? rhs k with
        | none =>
          have := h1 k x (Dict.mem_of_get? hx) hy
          simpa using this
        | some y => exact hall (k, x) (Dict.mem_of_get? hx) y hy
    · have := hall p.1
      rw [Dict.get?_of_mem nl (show (p.1, p.2) ∈ lhs from hm), hy] at this
      exact this

/-- **C42, meaning**: with tolerances that are not negative, comparing outputs never fails, `is_close` holds exactly for
close outputs, and `==` is `is_close` without tolerance. -/
theorem c42_meaning (a b : Output) (ha : a.Ok) (hb : b.Ok) (rel abs : ℚ) (hr : 0 ≤ rel) (hab : 0 ≤ abs) :
    (∃ r, a.isClose b rel abs = .ok r ∧ (r = true ↔ OutputClose rel abs a b)) ∧
    (∃ r, a.eqb b = .ok r ∧ (r = true ↔ OutputClose 0 0 a b)) ∧ a.eqb b = a.isClose b 0 0 := by
  have comp : ∀ k x, (k, x) ∈ a.components → ∀ y, (k, y) ∈ b.components → ∀ rel abs : ℚ, 0 ≤ rel → 0 ≤ abs →
      ∃ r, x.isClose y rel abs = .ok r ∧ (r = true ↔ x.ignore = true ∨ y.ignore = true ∨ CompClose rel abs x y) := by
    intro k x hx y hy rel abs hr hab
    unfold OutComp.isClose
    cases h1 : x.ignore
    · cases h2 : y.ignore
      · simp only [Bool.or_self, Bool.false_eq_true, if_false, false_or]
        by_cases hid : x.id = y.id
        · rw [if_neg (not_not.2 hid)]
          obtain ⟨r, e1, e2⟩ := mappingsClose_iff OutVar.ignore (fun x y => .ok (x.eqb y)) OutVar.isClose rel abs x.variables_ y.variables_
            (ha.variables_ k x hx) (hb.variables_ k y hy) (VarClose rel abs) (by
              intro n v hv w hw
              have nv := ha.values k x hx n v hv
              have nw := hb.values k y hy n w hw
              split_ifs with hz
              · obtain ⟨rfl, rfl⟩ := hz
                exact ⟨_, rfl, varEqb_iff v w nv nw⟩
              · exact varClose_iff rel abs hr hab v w nv nw)
          exact ⟨r, e1, e2.trans ⟨fun h => ⟨hid, h⟩, fun h => h.variables_⟩⟩
        · rw [if_pos hid]
          exact ⟨false, rfl, by simp only [Bool.false_eq_true, false_iff]; exact fun h => hid h.id⟩
      · exact ⟨true, by simp, by simp⟩
    · exact ⟨true, by simp, by simp⟩
  have main : ∀ rel abs : ℚ, 0 ≤ rel → 0 ≤ abs → ∃ r, a.isClose b rel abs = .ok r ∧ (r = true ↔ OutputClose rel abs a b) := by
    intro rel abs hr hab
    refine mappingsClose_iff OutComp.ignore OutComp.eqb OutComp.isClose rel abs a.components b.components ha.components hb.components
      (CompClose rel abs) fun k x hx y hy => ?_
    split_ifs with hz
    · obtain ⟨rfl, rfl⟩ := hz
      exact comp k x hx y hy 0 0 le_rfl le_rfl
    · exact comp k x hx y hy rel abs hr hab
  exact ⟨main rel abs hr hab, main 0 0 le_rfl le_rfl, rfl⟩

theorem numClose_symm {rel abs : ℚ} {a b : Num} (h : NumClose rel abs a b) : NumClose rel abs b a := by
  cases a <;> cases b <;> simp only [NumClose] at h ⊢
  rw [eq_comm, abs_sub_comm, max_comm (|_|)]
  exact h

theorem optRel_symm {α} {r : α → α → Prop} (hr : ∀ {x y}, r x y → r y x) {a b : Option α} (h : Option.Rel r a b) : Option.Rel r b a := by
  cases h with
  | none => exact .none
  | some h => exact .some (hr h)

theorem varClose_symm {rel abs : ℚ} {a b : OutVar} (h : VarClose rel abs a b) : VarClose rel abs b a :=
  ⟨h.name.symm, h.size.symm, fun k => optRel_symm numClose_symm (h.values k)⟩

theorem agree_symm {α} {ign : α → Bool} {p : α → α → Prop} (hp : ∀ {x y}, p x y → p y x) {a b : Dict String α}
    (h : AgreeUpTo ign p a b) : AgreeUpTo ign p b a := by
  intro k
  have := h k
  cases hx : Dict.get? a k <;> cases hy : Dict.get? b k <;> rw [hx, hy] at this
  · trivial
  · exact this
  · exact this
  · rcases this with h | h | h
    · exact .inr (.inl h)
    · exact .inl h
    · exact .inr (.inr (hp h))

theorem outputClose_symm {rel abs : ℚ} {a b : Output} (h : OutputClose rel abs a b) : OutputClose rel abs b a :=
  agree_symm (fun h => ⟨h.id.symm, agree_symm varClose_symm h.variables_⟩) h

/-- no compared value is NaN -/
def Output.NoNaN (o : Output) : Prop := ∀ k c, (k, c) ∈ o.components → ∀ n w, (n, w) ∈ c.variables_ → ∀ i, Dict.get? w.value i ≠ some .nan

theorem numClose_refl {rel abs : ℚ} {a : Num} (h : a ≠ .nan) : NumClose rel abs a a := by
  cases a <;> simp_all [NumClose]

theorem agree_refl {α} {ign : α → Bool} {p : α → α → Prop} {a : Dict String α} (hp : ∀ k x, (k, x) ∈ a → p x x) : AgreeUpTo ign p a a := by
  intro k
  cases hx : Dict.get? a k with
  | none => trivial
  | some x => exact .inr (.inr (hp k x (Dict.mem_of_get? hx)))

theorem outputClose_refl {rel abs : ℚ} {a : Output} (h : Output.NoNaN a) : OutputClose rel abs a a := by
  refine agree_refl fun k c hc => ⟨rfl, agree_refl fun n w hw => ⟨rfl, rfl, fun i => ?_⟩⟩
  cases hx : Dict.get? w.value i with
  | none => exact .none
  | some x => exact .some (numClose_refl fun hn => h k c hc n w hw i (hn ▸ hx))

theorem numClose_mono {r1 a1 r2 a2 : ℚ} (hr : r1 ≤ r2) (ha : a1 ≤ a2) {a b : Num} (h : NumClose r1 a1 a b) : NumClose r2 a2 a b := by
  cases a <;> cases b <;> simp only [NumClose] at h ⊢
  rename_i x y
  rcases h with h | h
  · exact .inl h
  · refine .inr (h.trans (max_le_max ?_ ha))
    exact mul_le_mul_of_nonneg_right hr (le_max_of_le_left (abs_nonneg x))

theorem agree_mono {α} {ign : α → Bool} {p q : α → α → Prop} (hp : ∀ {x y}, p x y → q x y) {a b : Dict String α}
    (h : AgreeUpTo ign p a b) : AgreeUpTo ign q a b := by
  intro k
  have := h k
  cases hx : Dict.get? a k <;> cases hy : Dict.get? b k <;> rw [hx, hy] at this
  · trivial
  · exact this
  · exact this
  · exact this.imp id (Or.imp id hp)

theorem outputClose_mono {r1 a1 r2 a2 : ℚ} (hr : r1 ≤ r2) (ha : a1 ≤ a2) {a b : Output} (h : OutputClose r1 a1 a b) :
    OutputClose r2 a2 a b := by
  refine agree_mono (fun h => ⟨h.id, agree_mono (fun h => ⟨h.name, h.size, fun k => ?_⟩) h.variables_⟩) h
  have := h.values k
  cases hx : Dict.get? _ k <;> cases hy : Dict.get? _ k <;> rw [hx, hy] at this
  · exact .none
  · cases this
  · cases this
  · cases this with | some h => exact .some (numClose_mono hr ha h)

/-- **C42, laws**: the comparisons are symmetric; an output without NaN equals itself and is close to itself; equal outputs
are close, and larger tolerances accept more. -/
theorem c42_laws (a b : Output) (ha : a.Ok) (hb : b.Ok) (rel abs : ℚ) (hr : 0 ≤ rel) (hab : 0 ≤ abs) :
    a.isClose b rel abs = b.isClose a rel abs ∧ a.eqb b = b.eqb a ∧
    (Output.NoNaN a → a.isClose a rel abs = .ok true ∧ a.eqb a = .ok true) ∧
    (a.eqb b = .ok true → a.isClose b rel abs = .ok true) ∧
    ∀ rel' abs', rel ≤ rel' → abs ≤ abs' → a.isClose b rel abs = .ok true → a.isClose b rel' abs' = .ok true := by
  have cong : ∀ {x y : R Bool} {p q : Prop}, (∃ r, x = .ok r ∧ (r = true ↔ p)) → (∃ r, y = .ok r ∧ (r = true ↔ q)) → (p ↔ q) → x = y := by
    rintro x y p q ⟨r, rfl, h1⟩ ⟨s, rfl, h2⟩ h
    rw [← h1, ← h2] at h
    rw [Bool.eq_iff_iff.2 h]
  have tr : ∀ {x : R Bool} {p : Prop}, (∃ r, x = .ok r ∧ (r = true ↔ p)) → (x = .ok true ↔ p) := by
    rintro x p ⟨r, rfl, h⟩
    rw [Except.ok.injEq]
    exact h
  obtain ⟨h1, h2, -⟩ := c42_meaning a b ha hb rel abs hr hab
  obtain ⟨g1, g2, -⟩ := c42_meaning b a hb ha rel abs hr hab
  obtain ⟨r1, r2, -⟩ := c42_meaning a a ha ha rel abs hr hab
  refine ⟨cong h1 g1 ⟨outputClose_symm, outputClose_symm⟩, cong h2 g2 ⟨outputClose_symm, outputClose_symm⟩, fun hn => ?_, fun h => ?_, ?_⟩
  · exact ⟨(tr r1).2 (outputClose_refl hn), (tr r2).2 (outputClose_refl hn)⟩
  · exact (tr h1).2 (outputClose_mono hr hab ((tr h2).1 h))
  · intro rel' abs' hle1 hle2 h
    exact (tr (c42_meaning a b ha hb rel' abs' (hr.trans hle1) (hab.trans hle2)).1).2 (outputClose_mono hle1 hle2 ((tr h1).1 h))

/-- `a'` is `a` except for the content of ignored values -/
def SameExceptIgnored {α} (ign : α → Bool) (same : α → α → Prop) (a a' : Dict String α) : Prop :=
  ∀ k, match Dict.get? a k, Dict.get? a' k with
    | none, none => True
    | some x, some y => (ign x = true ∧ ign y = true) ∨ (ign x = ign y ∧ same x y)
    | _, _ => False

/-- the outputs differ by the content of ignored components and of ignored variables only -/
def SameUpToIgnored (a a' : Output) : Prop :=
  SameExceptIgnored OutComp.ignore (fun x y => x.id = y.id ∧ SameExceptIgnored OutVar.ignore Eq x.variables_ y.variables_)
    a.components a'.components

theorem agree_transfer {α} {ign : α → Bool} {p : α → α → Prop} {same : α → α → Prop} (hs : ∀ {x x' y}, same x x' → p x y → p x' y)
    {a a' b : Dict String α} (h : SameExceptIgnored ign same a a') (hab : AgreeUpTo ign p a b) : AgreeUpTo ign p a' b := by
  intro k
  have h1 := h k
  have h2 := hab k
  cases hx : Dict.get? a k <;> cases hx' : Dict.get? a' k <;> rw [hx, hx'] at h1
  · rw [hx] at h2; exact h2
  · exact h1.elim
  · exact h1.elim
  · rw [hx] at h2
    cases hy : Dict.get? b k <;> rw [hy] at h2
    · rcases h1 with h1 | h1
      · exact h1.2
      · exact h1.1.symm.trans h2
    · rcases h1 with h1 | h1
      · exact .inl h1.2
      · rcases h2 with h2 | h2 | h2
        · exact .inl (h1.1 ▸ h2)
        · exact .inr (.inl h2)
        · exact .inr (.inr (hs h1.2 h2))

theorem sameExcept_symm {α} {ign : α → Bool} {same : α → α → Prop} (hs : ∀ {x y}, same x y → same y x) {a a' : Dict String α}
    (h : SameExceptIgnored ign same a a') : SameExceptIgnored ign same a' a := by
  intro k
  have h1 := h k
  cases hx : Dict.get? a k <;> cases hx' : Dict.get? a' k <;> rw [hx, hx'] at h1
  · trivial
  · exact h1.elim
  · exact h1.elim
  · exact h1.imp And.symm fun h => ⟨h.1.symm, hs h.2⟩

/-- **C42, ignored values**: changing the content of ignored components and of ignored variables does not change the
result of any comparison. -/
theorem c42_ignored (a a' b : Output) (ha : a.Ok) (ha' : a'.Ok) (hb : b.Ok) (h : SameUpToIgnored a a') (rel abs : ℚ) (hr : 0 ≤ rel)
    (hab : 0 ≤ abs) : a.isClose b rel abs = a'.isClose b rel abs ∧ a.eqb b = a'.eqb b := by
  have cong : ∀ {x y : R Bool} {p q : Prop}, (∃ r, x = .ok r ∧ (r = true ↔ p)) → (∃ r, y = .ok r ∧ (r = true ↔ q)) → (p ↔ q) → x = y := by
    rintro x y p q ⟨r, rfl, h1⟩ ⟨s, rfl, h2⟩ h
    rw [← h1, ← h2] at h
    rw [Bool.eq_iff_iff.2 h]
  obtain ⟨h1, h2, -⟩ := c42_meaning a b ha hb rel abs hr hab
  obtain ⟨g1, g2, -⟩ := c42_meaning a' b ha' hb rel abs hr hab
  have key : ∀ {a a' : Output}, SameUpToIgnored a a' → ∀ rel abs, OutputClose rel abs a b → OutputClose rel abs a' b := by
    intro a a' h rel abs hc
    refine agree_transfer (fun hs hcc => ⟨hs.1 ▸ hcc.id, agree_transfer (fun hs hcc => hs ▸ hcc) hs.2 hcc.variables_⟩) h hc
  have hsym : SameUpToIgnored a' a :=
    sameExcept_symm (fun h => ⟨h.1.symm, sameExcept_symm Eq.symm h.2⟩) h
  exact ⟨cong h1 g1 ⟨key h rel abs, key hsym rel abs⟩, cong h2 g2 ⟨key h 0 0, key hsym 0 0⟩⟩

/-- **C42**, Benders solutions: with tolerances that are not negative the comparison never fails; it holds exactly when the
overall costs are close and the candidates are the same with close values; `==` is the comparison without tolerance. -/
theorem c42_benders (a b : BendersSolution) (na : (Dict.keys a.candidates).Nodup) (nb : (Dict.keys b.candidates).Nodup)
    (rel abs : ℚ) (hr : 0 ≤ rel) (hab : 0 ≤ abs) :
    (∃ r, a.isClose b rel abs = .ok r ∧ (r = true ↔ NumClose rel abs a.overallCost b.overallCost ∧
      ∀ k, Option.Rel (NumClose rel abs) (Dict.get? a.candidates k) (Dict.get? b.candidates k))) ∧
    (a.eqb b = true ↔ NumClose 0 0 a.overallCost b.overallCost ∧
      ∀ k, Option.Rel (NumClose 0 0) (Dict.get? a.candidates k) (Dict.get? b.candidates k)) := by
  constructor
  · obtain ⟨r, h1, h2⟩ := closeValues rel abs hr hab a.candidates b.candidates na nb
    have hc := isclose_iff rel abs hr a.overallCost b.overallCost
    unfold BendersSolution.isClose
    have : iscloseR rel abs a.overallCost b.overallCost = .ok (isclose abs rel a.overallCost b.overallCost) := by
      simp [iscloseR, hr, hab]
    rw [this, ok_bind]
    cases hb : isclose abs rel a.overallCost b.overallCost
    · refine ⟨false, rfl, ?_⟩
      rw [hb] at hc
      simp only [Bool.false_eq_true, false_iff] at hc ⊢
      exact fun h => hc h.1
    · rw [hb] at hc
      refine ⟨r, by simpa using h1, ?_⟩
      rw [h2]
      exact ⟨fun h => ⟨hc.1 rfl, h⟩, fun h => h.2⟩
  · unfold BendersSolution.eqb
    rw [Bool.and_eq_true, eqb_iff, dictEqb_iff Num.eqb (NumClose 0 0) _ _ na nb eqb_iff]

/-- Equality is not transitive: an output whose variable is ignored equals outputs that differ. -/
theorem c42_not_transitive : ∃ a b c : Output, a.eqb b = .ok true ∧ b.eqb c = .ok true ∧ a.eqb c = .ok false :=
  let out (x : Num) (i : Bool) : Output := ⟨[("c", ⟨"c", [("x", ⟨"x", [((0, 0), x)], (1, 1), i⟩)], false⟩)]⟩
  ⟨out 1 false, out 2 true, out 3 false, by decide +kernel, by decide +kernel, by decide +kernel⟩

/-- A negative tolerance raises. -/
theorem c42_negative_tolerance : ∃ (a : Output) (m : String), a.isClose a (-1) 0 = .error (.valueError m) :=
  ⟨⟨[("c", ⟨"c", [("x", ⟨"x", [((0, 0), 1)], (1, 1), false⟩)], false⟩)]⟩, "tolerances must be non-negative", by decide +kernel⟩

/-- an output with two scenarios and two timesteps meets the hypotheses -/
example : let o : Output := ⟨[("c", ⟨"c", [("x", ⟨"x", [((0, 0), 1), ((1, 0), 2), ((0, 1), 3), ((1, 1), 4)], (2, 2), false⟩)], false⟩)]⟩
    o.Ok ∧ Output.NoNaN o ∧ o.eqb o = .ok true := by
  refine ⟨⟨by decide, ?_, ?_⟩, ?_, by decide +kernel⟩
  · intro k c h
    simp only [List.mem_singleton, Prod.mk.injEq] at h
    obtain ⟨rfl, rfl⟩ := h
    decide
  · intro k c h n w hw
    simp only [List.mem_singleton, Prod.mk.injEq] at h
    obtain ⟨rfl, rfl⟩ := h
    simp only [List.mem_singleton, Prod.mk.injEq] at hw
    obtain ⟨rfl, rfl⟩ := hw
    decide
  · intro k c h n w hw i hi
    simp only [List.mem_singleton, Prod.mk.injEq] at h
    obtain ⟨rfl, rfl⟩ := h
    simp only [List.mem_singleton, Prod.mk.injEq] at hw
    obtain ⟨rfl, rfl⟩ := hw
    have := Dict.mem_of_get? hi
    simp at this

end Props
end Verif
