import Verif.Spec.Grammar
import Mathlib.Tactic.IntervalCases

/-!
# The lexer finds the tokens of a text
-/

namespace Verif

theorem char_le (a c : Char) : (decide (a ≤ c)) = decide (a.toNat ≤ c.toNat) := rfl

theorem char_eq_of_toNat {a c : Char} (h : c.toNat = a.toNat) : c = a := by
  apply Char.ext
  apply UInt32.toNat_inj.1
  exact h

theorem isDigit_iff (c : Char) : Tok.isDigit c ↔ isDigitC c = true := by
  unfold Tok.isDigit isDigitC
  rw [char_le, char_le]
  constructor
  · intro h
    have : ∀ c ∈ "0123456789".toList, (decide ('0'.toNat ≤ c.toNat) && decide (c.toNat ≤ '9'.toNat)) = true := by decide
    exact this c h
  · intro h
    simp only [Bool.and_eq_true, decide_eq_true_eq] at h
    obtain ⟨h1, h2⟩ := h
    have h1 : 48 ≤ c.toNat := h1
    have h2 : c.toNat ≤ 57 := h2
    have : ∀ n, 48 ≤ n → n ≤ 57 → Char.ofNat n ∈ "0123456789".toList := by decide
    have := this _ h1 h2
    rwa [Char.ofNat_toNat] at this

theorem isLetter_iff (c : Char) : Tok.isLetter c ↔ isCharC c = true := by
  unfold Tok.isLetter isCharC
  rw [char_le, char_le, char_le, char_le]
  constructor
  · intro h
    have : ∀ c ∈ "abcdefghijklmnopqrstuvwxyzABCDEFGHIJKLMNOPQRSTUVWXYZ_".toList,
      ((decide ('a'.toNat ≤ c.toNat) && decide (c.toNat ≤ 'z'.toNat)) || (decide ('A'.toNat ≤ c.toNat) && decide (c.toNat ≤ 'Z'.toNat)) || c == '_') = true := by decide
    exact this c h
  · intro h
    simp only [Bool.and_eq_true, Bool.or_eq_true, decide_eq_true_eq, beq_iff_eq] at h
    rcases h with (⟨h1, h2⟩ | ⟨h1, h2⟩) | rfl
    · have h1 : 97 ≤ c.toNat := h1
      have h2 : c.toNat ≤ 122 := h2
      have : ∀ n, n ≤ 25 → Char.ofNat (97 + n) ∈ "abcdefghijklmnopqrstuvwxyzABCDEFGHIJKLMNOPQRSTUVWXYZ_".toList := by decide
      have := this (c.toNat - 97) (by omega)
      rwa [show 97 + (c.toNat - 97) = c.toNat by omega, Char.ofNat_toNat] at this
    · have h1 : 65 ≤ c.toNat := h1
      have h2 : c.toNat ≤ 90 := h2
      have : ∀ n, n ≤ 25 → Char.ofNat (65 + n) ∈ "abcdefghijklmnopqrstuvwxyzABCDEFGHIJKLMNOPQRSTUVWXYZ_".toList := by decide
      have := this (c.toNat - 65) (by omega)
      rwa [show 65 + (c.toNat - 65) = c.toNat by omega, Char.ofNat_toNat] at this
    · decide

theorem isWord_iff (c : Char) : (Tok.isLetter c ∨ Tok.isDigit c) ↔ isWordC c = true := by
  rw [isLetter_iff, isDigit_iff, isWordC, Bool.or_eq_true]

theorem takeWhile_run {p : Char → Bool} {xs cs : List Char} (h : ∀ c ∈ xs, p c = true) (h' : ∀ c r, cs = c :: r → p c = false) :
    (xs ++ cs).takeWhile p = xs ∧ (xs ++ cs).dropWhile p = cs := by
  induction xs with
  | nil =>
    cases cs with
    | nil => simp
    | cons c r => simp [h' c r rfl]
  | cons x xs ih =>
    obtain ⟨h1, h2⟩ := ih fun c hc => h c (by simp [hc])
    simp [h x (by simp), h1, h2]

theorem digit_not_ws {c : Char} (h : isDigitC c = true) : isWsC c = false := by
  have : ∀ c ∈ "0123456789".toList, isWsC c = false := by decide
  exact this c ((isDigit_iff c).2 h)
theorem letter_not {c : Char} (h : isCharC c = true) : isWsC c = false ∧ isDigitC c = false := by
  have : ∀ c ∈ "abcdefghijklmnopqrstuvwxyzABCDEFGHIJKLMNOPQRSTUVWXYZ_".toList, isWsC c = false ∧ isDigitC c = false := by decide
  exact this c ((isLetter_iff c).2 h)

theorem lexOne_digits {c : Char} {ds cs : List Char} (hc : isDigitC c = true) (hd : ∀ d ∈ ds, isDigitC d = true)
    (h1 : ∀ x r, cs = x :: r → isDigitC x = false) (h2 : ∀ x r, cs = '.' :: x :: r → isDigitC x = false) :
    lexOne c (ds ++ cs) = (some (.num (c :: ds) []), cs) := by
  obtain ⟨t, d⟩ := takeWhile_run hd h1
  unfold lexOne
  rw [if_neg (by simp [digit_not_ws hc]), if_pos hc]
  simp only [t, d]
  split
  · rename_i x r
    rw [if_neg (by simp [h2 x r rfl])]
  · rfl

theorem lexOne_decimal {c f : Char} {ds fs cs : List Char} (hc : isDigitC c = true) (hd : ∀ d ∈ ds, isDigitC d = true)
    (hf : isDigitC f = true) (hfs : ∀ d ∈ fs, isDigitC d = true) (h1 : ∀ x r, cs = x :: r → isDigitC x = false) :
    lexOne c (ds ++ '.' :: f :: (fs ++ cs)) = (some (.num (c :: ds) (f :: fs)), cs) := by
  obtain ⟨t, d⟩ := takeWhile_run (cs := '.' :: f :: (fs ++ cs)) hd (by rintro x r ⟨rfl, rfl⟩; decide)
  obtain ⟨t', d'⟩ := takeWhile_run hfs h1
  unfold lexOne
  rw [if_neg (by simp [digit_not_ws hc]), if_pos hc]
  simp only [t, d]
  rw [if_pos hf, t', d']

theorem lexOne_word {c : Char} {ds cs : List Char} (hc : isCharC c = true) (hd : ∀ d ∈ ds, isWordC d = true)
    (h1 : ∀ x r, cs = x :: r → isWordC x = false) : lexOne c (ds ++ cs) = (some (wordTok (c :: ds)), cs) := by
  obtain ⟨t, d⟩ := takeWhile_run hd h1
  unfold lexOne
  rw [if_neg (by simp [(letter_not hc).1]), if_neg (by simp [(letter_not hc).2]), if_pos hc, t, d]

theorem wordTok_id {n : String} (h : n ∉ keywords) : wordTok n.toList = .id n := by
  have hk : ∀ k ∈ keywords, n.toList ≠ k.toList := by
    intro k hk he
    rw [String.toList_inj.1 he] at h
    exact h hk
  unfold wordTok
  rw [if_neg (show n.toList ≠ ['s', 'u', 'm'] from hk "sum" (by simp [keywords])), if_neg (hk "sum_connections" (by simp [keywords])), if_neg (show n.toList ≠ ['t'] from hk "t" (by simp [keywords]))]
  simp

theorem not_cont_word {cs : List Char} (h : ¬ (∃ c r, cs = c :: r ∧ (Tok.isLetter c ∨ Tok.isDigit c))) :
    ∀ x r, cs = x :: r → isWordC x = false := by
  intro x r hx
  by_contra hw
  exact h ⟨x, r, hx, (isWord_iff x).2 (by simpa using hw)⟩

/-- the lexer reads the first token -/
theorem lexOne_token {t : Tok} {cs : List Char} (hv : t.Valid) (hc : ¬ t.Continues cs) :
    ∃ c r, t.text ++ cs = c :: r ∧ lexOne c r = (some t, cs) := by
  cases t with
  | num ip fp =>
    obtain ⟨h0, h1, h2⟩ := hv
    obtain ⟨c, ds, rfl⟩ : ∃ c ds, ip = c :: ds := by
      cases ip with
      | nil => exact absurd rfl h0
      | cons c ds => exact ⟨c, ds, rfl⟩
    have hcd := (isDigit_iff c).1 (h1 c (by simp))
    have hds : ∀ d ∈ ds, isDigitC d = true := fun d hd => (isDigit_iff d).1 (h1 d (by simp [hd]))
    cases fp with
    | nil =>
      simp only [Tok.Continues, not_or] at hc
      refine ⟨c, ds ++ cs, rfl, lexOne_digits hcd hds (fun x r hx => ?_) (fun x r hx => ?_)⟩
      · by_contra hw
        exact hc.1 ⟨x, r, hx, (isDigit_iff x).2 (by simpa using hw)⟩
      · by_contra hw
        exact hc.2 ⟨x, r, hx, (isDigit_iff x).2 (by simpa using hw)⟩
    | cons f fs =>
      simp only [Tok.Continues] at hc
      refine ⟨c, ds ++ '.' :: f :: (fs ++ cs), by show ((c :: ds) ++ '.' :: f :: fs) ++ cs = _; simp, lexOne_decimal hcd hds ((isDigit_iff f).1 (h2 f (by simp)))
        (fun d hd => (isDigit_iff d).1 (h2 d (by simp [hd]))) (fun x r hx => ?_)⟩
      by_contra hw
      exact hc ⟨x, r, hx, (isDigit_iff x).2 (by simpa using hw)⟩
  | id n =>
    obtain ⟨hk, c, ds, hn, hl, hds⟩ := hv
    refine ⟨c, ds ++ cs, by show n.toList ++ cs = _; rw [hn]; rfl, ?_⟩
    rw [lexOne_word ((isLetter_iff c).1 hl) (fun d hd => (isWord_iff d).1 (hds d hd)) (not_cont_word hc), ← hn, wordTok_id hk]
  | time => exact ⟨'t', [] ++ cs, rfl, lexOne_word rfl (by simp) (not_cont_word hc)⟩
  | sum => exact ⟨'s', ['u', 'm'] ++ cs, rfl, lexOne_word rfl (by decide) (not_cont_word hc)⟩
  | sumConnections =>
    exact ⟨'s', "um_connections".toList ++ cs, rfl, lexOne_word rfl (by decide) (not_cont_word hc)⟩
  | dot =>
    refine ⟨'.', cs, rfl, ?_⟩
    unfold lexOne
    rw [if_neg (by decide), if_neg (by decide), if_neg (by decide)]
    simp only
    split
    · exact absurd ⟨_, rfl⟩ hc
    · rfl
  | cmp c => cases c <;> exact ⟨_, _, rfl, rfl⟩
  | _ => exact ⟨_, _, rfl, rfl⟩

theorem lexAux_spells {cs ts} (h : Spells cs ts) : ∀ n, cs.length ≤ n → lexAux n cs = ts := by
  induction h with
  | nil => intro n _; cases n <;> rfl
  | @space c cs ts hc _ ih =>
    intro n hn
    cases n with
    | zero => simp at hn
    | succ n =>
      have : lexOne c cs = (none, cs) := by
        unfold lexOne
        rw [if_pos]
        have : ∀ c ∈ [' ', '\t', '\r', '\n'], isWsC c = true := by decide
        exact this c hc
      simp only [lexAux, this]
      exact ih n (by simpa using hn)
  | @token t cs ts hv hc _ ih =>
    intro n hn
    obtain ⟨c, r, he, hl⟩ := lexOne_token hv hc
    rw [he] at hn ⊢
    have hlen := congrArg List.length he
    simp only [List.length_append, List.length_cons] at hlen hn
    cases n with
    | zero => omega
    | succ n =>
      simp only [lexAux, hl]
      refine congrArg _ (ih n ?_)
      have : 1 ≤ t.text.length := by
        cases t with
        | num ip fp =>
          cases ip with
          | nil => exact absurd rfl hv.1
          | cons c ds =>
            cases fp with
            | nil => exact Nat.le_add_left 1 _
            | cons f fs => exact Nat.le_add_left 1 _
        | id m =>
          obtain ⟨-, c, ds, hm, -⟩ := hv
          show 1 ≤ m.toList.length
          rw [hm]
          exact Nat.le_add_left 1 _
        | cmp c => cases c <;> decide
        | _ => decide
      omega

theorem lex_spells {text : String} {ts} (h : Spells text.toList ts) : lex text = ts :=
  lexAux_spells h _ le_rfl

end Verif
