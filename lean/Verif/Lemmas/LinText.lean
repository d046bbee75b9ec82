import Verif.Spec.LinText
import Std.Data.String.ToNat
import Std.Data.String.ToInt

/-! Lemmas about texts of linear expressions (C98). -/

namespace Verif

theorem span_unique {p : Char → Prop} {a b x y : List Char} (ha : ∀ d ∈ a, p d) (hb : ∀ d ∈ b, p d) (hx : ∀ c r, x = c :: r → ¬ p c)
    (hy : ∀ c r, y = c :: r → ¬ p c) (h : a ++ x = b ++ y) : a = b ∧ x = y := by
  induction a generalizing b with
  | nil =>
    cases b with
    | nil => exact ⟨rfl, h⟩
    | cons d b => exact absurd (hb d (by simp)) (hx _ _ h)
  | cons c a ih =>
    cases b with
    | nil => exact absurd (ha c (by simp)) (hy _ _ h.symm)
    | cons d b =>
      simp only [List.cons_append, List.cons.injEq] at h
      obtain ⟨h1, h2⟩ := ih (fun d hd => ha d (by simp [hd])) (fun d hd => hb d (by simp [hd])) h.2
      exact ⟨by rw [h.1, h1], h2⟩

theorem until_unique {z : Char} {a b x y : List Char} (ha : z ∉ a) (hb : z ∉ b) (h : a ++ z :: x = b ++ z :: y) : a = b ∧ x = y := by
  obtain ⟨h1, h2⟩ := span_unique (p := fun d => d ≠ z) (fun d hd e => ha (e ▸ hd)) (fun d hd e => hb (e ▸ hd))
    (fun c r e => by cases e; simp) (fun c r e => by cases e; simp) h
  exact ⟨h1, by simpa using h2⟩

/-- what may follow a number -/
def Stops (r : List Char) : Prop :=
  ∀ x r', r = x :: r' → x.isDigit = false ∧ x ≠ '.' ∧ ∀ z r'', x = 'e' → r' = z :: r'' → z ≠ '+' ∧ z ≠ '-'

/-- an exponent, or nothing -/
def Exponent (x : List Char) : Prop := x = [] ∨ ∃ z es, x = 'e' :: z :: es ∧ (z = '+' ∨ z = '-') ∧ Digits es

/-- decimals, or nothing -/
def Decimals (x : List Char) : Prop := x = [] ∨ ∃ fs, x = '.' :: fs ∧ Digits fs

theorem SignedNumber.parts {n : List Char} (h : SignedNumber n) :
    ∃ s ds f e, (s = '+' ∨ s = '-') ∧ Digits ds ∧ Decimals f ∧ Exponent e ∧ n = s :: (ds ++ (f ++ e)) := by
  cases h with
  | whole hs hd => exact ⟨_, _, [], [], hs, hd, .inl rfl, .inl rfl, by simp⟩
  | decimal hs hd hf => exact ⟨_, _, _, [], hs, hd, .inr ⟨_, rfl, hf⟩, .inl rfl, by simp⟩
  | wholePower hs hz hd he => exact ⟨_, _, [], _, hs, hd, .inl rfl, .inr ⟨_, _, rfl, hz, he⟩, by simp⟩
  | power hs hz hd hf he => exact ⟨_, _, _, _, hs, hd, .inr ⟨_, rfl, hf⟩, .inr ⟨_, _, rfl, hz, he⟩, by simp⟩

theorem exponent_unique {e e' r r' : List Char} (he : Exponent e) (he' : Exponent e') (hr : Stops r) (hr' : Stops r') (h : e ++ r = e' ++ r') :
    e = e' ∧ r = r' := by
  rcases he with rfl | ⟨z, es, rfl, hz, hd⟩ <;> rcases he' with rfl | ⟨z', es', rfl, hz', hd'⟩
  · exact ⟨rfl, h⟩
  · obtain ⟨h1, h2⟩ := (hr _ _ h).2.2 _ _ rfl rfl
    rcases hz' with rfl | rfl
    · exact absurd rfl h1
    · exact absurd rfl h2
  · obtain ⟨h1, h2⟩ := (hr' _ _ h.symm).2.2 _ _ rfl rfl
    rcases hz with rfl | rfl
    · exact absurd rfl h1
    · exact absurd rfl h2
  · simp only [List.cons_append, List.cons.injEq, true_and] at h
    obtain ⟨h1, h2⟩ := span_unique (p := fun d => d.isDigit = true) hd.2 hd'.2 (fun c r e => by simp [(hr c r e).1])
      (fun c r e => by simp [(hr' c r e).1]) h.2
    exact ⟨by rw [h.1, h1], h2⟩

theorem exponent_stops {e r : List Char} (he : Exponent e) (hr : Stops r) (x : Char) (y : List Char) (h : e ++ r = x :: y) :
    x.isDigit = false ∧ x ≠ '.' := by
  rcases he with rfl | ⟨z, es, rfl, hz, hd⟩
  · exact ⟨(hr _ _ h).1, (hr _ _ h).2.1⟩
  · simp only [List.cons_append, List.cons.injEq] at h
    rw [← h.1]; decide

theorem decimals_unique {f f' e e' r r' : List Char} (hf : Decimals f) (hf' : Decimals f') (he : Exponent e) (he' : Exponent e')
    (hr : Stops r) (hr' : Stops r') (h : f ++ (e ++ r) = f' ++ (e' ++ r')) : f = f' ∧ e = e' ∧ r = r' := by
  rcases hf with rfl | ⟨fs, rfl, hd⟩ <;> rcases hf' with rfl | ⟨fs', rfl, hd'⟩
  · exact ⟨rfl, exponent_unique he he' hr hr' h⟩
  · exact absurd rfl (exponent_stops he hr _ _ h).2
  · exact absurd rfl (exponent_stops he' hr' _ _ h.symm).2
  · simp only [List.cons_append, List.cons.injEq, true_and] at h
    obtain ⟨h1, h2⟩ := span_unique (p := fun d => d.isDigit = true) hd.2 hd'.2 (fun c r e => by simp [(exponent_stops he hr c r e).1])
      (fun c r e => by simp [(exponent_stops he' hr' c r e).1]) h
    exact ⟨by rw [h1], exponent_unique he he' hr hr' h2⟩

theorem decimals_stops {f e r : List Char} (hf : Decimals f) (he : Exponent e) (hr : Stops r) (x : Char) (y : List Char)
    (h : f ++ (e ++ r) = x :: y) : x.isDigit = false := by
  rcases hf with rfl | ⟨fs, rfl, hd⟩
  · exact (exponent_stops he hr x y h).1
  · simp only [List.cons_append, List.cons.injEq] at h
    rw [← h.1]; decide

theorem number_unique {n n' r r' : List Char} (hn : SignedNumber n) (hn' : SignedNumber n') (hr : Stops r) (hr' : Stops r')
    (h : n ++ r = n' ++ r') : n = n' ∧ r = r' := by
  obtain ⟨s, ds, f, e, hs, hd, hf, he, rfl⟩ := hn.parts
  obtain ⟨s', ds', f', e', hs', hd', hf', he', rfl⟩ := hn'.parts
  simp only [List.cons_append, List.append_assoc, List.cons.injEq] at h
  obtain ⟨h1, h2⟩ := span_unique (p := fun d => d.isDigit = true) hd.2 hd'.2 (fun c r e => by simp [decimals_stops hf he hr c r e])
    (fun c r e => by simp [decimals_stops hf' he' hr' c r e]) h.2
  obtain ⟨h3, h4, h5⟩ := decimals_unique hf hf' he he' hr hr' h2
  exact ⟨by rw [h.1, h1, h3, h4], h5⟩

theorem sign_not_number {s : Char} {n r r' : List Char} (hn : SignedNumber n) (hr : Stops r) (h : s :: r = n ++ r') : False := by
  obtain ⟨s', ds, f, e, hs, hd, hf, he, rfl⟩ := hn.parts
  simp only [List.cons_append, List.append_assoc, List.cons.injEq] at h
  cases ds with
  | nil => exact hd.1 rfl
  | cons d ds =>
    have := (hr _ _ h.2).1
    rw [hd.2 d (by simp)] at this
    cases this

/-! ### Numbers near others -/

theorem isCloseAbs_iff (a b : ℚ) : isCloseAbs (.fin a) (.fin b) = true ↔ near a b := by
  unfold isCloseAbs near EPS
  have h1 : (Num.fin a - Num.fin b : Num) = .fin (a - b) := by
    show Num.sub _ _ = _
    simp [Num.sub, Num.add, Num.neg, sub_eq_add_neg]
  rw [h1]
  simp [Num.abs, Num.lt, Num.le, Num.eqb, lt_iff_le_and_ne]

theorem isOne_iff (a : ℚ) : isOne (.fin a) = true ↔ near a 1 := isCloseAbs_iff a 1
theorem isZero_near (a : ℚ) : isZero (.fin a) = true ↔ near a 0 := isCloseAbs_iff a 0
theorem isMinusOne_iff (a : ℚ) : isMinusOne (.fin a) = true ↔ near a (-1) := isCloseAbs_iff a (-1)

theorem near_one_minus {a : ℚ} (h : near a 1) (h' : near a (-1)) : False := by
  unfold near at h h'
  rw [abs_lt] at h h'
  norm_num at h h'
  linarith [h.1, h'.2]

/-! ### Indices -/

theorem nat_text (n : Nat) : (toString (n : Int)).toList = Nat.toDigits 10 n := by
  show n.repr.toList = _
  rw [Nat.toList_repr]

theorem int_chars (n : Int) : ∀ d ∈ (toString n).toList, d.isDigit = true ∨ d = '-' := by
  intro d hd
  cases n with
  | ofNat n =>
    have : d ∈ Nat.toDigits 10 n := by rw [← nat_text]; exact hd
    exact .inl (Nat.isDigit_of_mem_toDigits (by decide) (by decide) this)
  | negSucc n =>
    have e : (toString (Int.negSucc n)).toList = '-' :: Nat.toDigits 10 (n + 1) := by
      show ("-" ++ (n + 1).repr).toList = _
      rw [String.toList_append, Nat.toList_repr]; rfl
    rw [e] at hd
    rcases List.mem_cons.1 hd with rfl | hd
    · exact .inr rfl
    · exact .inl (Nat.isDigit_of_mem_toDigits (by decide) (by decide) hd)

theorem strIndex_no (i : Option Int) {z : Char} (hz : z = ',' ∨ z = ']') : z ∉ (strIndex i).toList := by
  intro h
  cases i with
  | none => rcases hz with rfl | rfl <;> revert h <;> decide
  | some n =>
    rcases int_chars n z h with h | h <;> rcases hz with rfl | rfl <;> revert h <;> decide

theorem strIndex_inj {i j : Option Int} (h : strIndex i = strIndex j) : i = j := by
  have none_ne : ∀ n : Int, "None" ≠ toString n := by
    intro n h
    have := int_chars n 'N' (by rw [← h]; decide)
    revert this; decide
  cases i <;> cases j
  · rfl
  · exact absurd h (none_ne _)
  · exact absurd h.symm (none_ne _)
  · exact congrArg some (Int.repr_injective h)

end Verif
