import Verif.Props.OutputText
import Std.Data.String.ToNat
import Std.Data.String.ToInt

/-! C99: where it fails, and a concrete case. -/

namespace Verif.Props
open Verif

/-- With an end of line inside an identifier, one component and two components have the same text. -/
theorem c99_lines_violated (fmt : Num → String) : ∃ (o p : Output) (s : String), o.text fmt = .ok s ∧ p.text fmt = .ok s ∧
    o.components.length ≠ p.components.length :=
  ⟨⟨[("a : \nb", ⟨"a : \nb", [], false⟩)]⟩, ⟨[("a", ⟨"a", [], false⟩), ("b", ⟨"b", [], false⟩)]⟩, "\na : \nb : \n", rfl, rfl, by decide⟩

/-! ### A format of floats, and a text -/

/-- whole numbers as digits, others as a fraction (Python writes them as decimals), then infinities and `nan` -/
def fractionFormat : Num → String
  | .fin q => if q.den = 1 then toString q.num ++ ".0" else toString q.num ++ "/" ++ toString q.den
  | .pinf => "inf"
  | .ninf => "-inf"
  | .nan => "nan"

/-- a thermal plant and a store, with a value for each scenario, for each timestep of a scenario, and one that is ignored -/
def plantOutput : Output :=
  ⟨[("plant", ⟨"plant", [("p", ⟨"p", [((0, 0), 1), ((1, 0), 2)], (1, 2), false⟩), ("cost", ⟨"cost", [((0, 0), 5)], (1, 1), true⟩)], false⟩),
    ("store", ⟨"store", [("level", ⟨"level", [((0, 0), 3), ((0, 1), 4)], (2, 1), false⟩)], false⟩)]⟩

theorem plantOutput_text : plantOutput.text fractionFormat =
    .ok "\nplant : \n  p : [[1.0, 2.0]] \n  cost : 5.0 (ignored)\nstore : \n  level : [3.0, 4.0] \n" := by decide +kernel

theorem plantOutput_plain : plantOutput.Plain := by
  unfold Output.Plain plantOutput OneWordName
  intro k hk
  simp only [Dict.values, List.map_cons, List.map_nil, List.mem_cons, List.not_mem_nil, or_false] at hk
  rcases hk with rfl | rfl
  · exact ⟨⟨by decide, by decide, 'p', "lant".toList, by decide, by decide⟩, by decide⟩
  · exact ⟨⟨by decide, by decide, 's', "tore".toList, by decide, by decide⟩, by decide⟩

theorem intText_chars (n : Int) : ∀ d ∈ (toString n).toList, d.isDigit = true ∨ d = '-' := by
  intro d hd
  cases n with
  | ofNat n =>
    have e : (toString (Int.ofNat n)).toList = Nat.toDigits 10 n := by
      show n.repr.toList = _
      rw [Nat.toList_repr]
    rw [e] at hd
    exact .inl (Nat.isDigit_of_mem_toDigits (by decide) (by decide) hd)
  | negSucc n =>
    have e : (toString (Int.negSucc n)).toList = '-' :: Nat.toDigits 10 (n + 1) := by
      show ("-" ++ (n + 1).repr).toList = _
      rw [String.toList_append, Nat.toList_repr]; rfl
    rw [e] at hd
    rcases List.mem_cons.1 hd with rfl | hd
    · exact .inr rfl
    · exact .inl (Nat.isDigit_of_mem_toDigits (by decide) (by decide) hd)

theorem intText_no (n : Int) {z : Char} (hz : z.isDigit = false) (hm : z ≠ '-') : z ∉ (toString n).toList := fun h =>
  (intText_chars n z h).elim (fun h => by rw [hz] at h; cases h) hm

theorem natText_no (n : Nat) {z : Char} (hz : z.isDigit = false) (hm : z ≠ '-') : z ∉ (toString n).toList := intText_no (n : Int) hz hm

theorem fractionFormat_ok : FloatFormat fractionFormat := by
  have hw : ∀ n : Int, '.' ∈ (toString n ++ ".0").toList := fun n => by simp
  have hfr : ∀ (n : Int) (d : Nat), '.' ∉ (toString n ++ "/" ++ toString d).toList := fun n d => by
    have h1 := intText_no n (z := '.') (by decide) (by decide)
    have h2 := natText_no d (z := '.') (by decide) (by decide)
    simp only [String.toList_append, List.mem_append, h1, h2, or_false, false_or]
    decide
  have hlet : ∀ q : ℚ, 'n' ∉ (fractionFormat (.fin q)).toList := by
    intro q
    have h1 := intText_no q.num (z := 'n') (by decide) (by decide)
    have h2 := natText_no q.den (z := 'n') (by decide) (by decide)
    unfold fractionFormat
    simp only
    split
    · simp only [String.toList_append, List.mem_append, h1, false_or]
      decide
    · simp only [String.toList_append, List.mem_append, h1, h2, or_false, false_or]
      decide
  constructor
  · intro a b h
    cases a with
    | fin p =>
      cases b with
      | fin q =>
        have hsame : p = q := by
          unfold fractionFormat at h
          simp only at h
          split at h <;> split at h
          · rename_i h1 h2
            have : toString p.num = toString q.num := by
              apply String.toList_inj.1
              have := congrArg String.toList h
              simpa using this
            exact Rat.ext (Int.repr_injective this) (by rw [h1, h2])
          · exact absurd (h ▸ hw p.num) (hfr q.num q.den)
          · exact absurd (h ▸ hw q.num) (hfr p.num p.den)
          · have h := congrArg String.toList h
            have h' : (toString p.num).toList ++ '/' :: (toString p.den).toList = (toString q.num).toList ++ '/' :: (toString q.den).toList := by
              simpa using h
            obtain ⟨h1, h2⟩ := upTo (intText_no _ (by decide) (by decide)) (intText_no _ (by decide) (by decide)) h'
            have h3 : toString (p.den : Int) = toString (q.den : Int) := String.toList_inj.1 h2
            exact Rat.ext (Int.repr_injective (String.toList_inj.1 h1)) (by exact_mod_cast Int.repr_injective h3)
        rw [hsame]
      | _ => exact absurd (by rw [h]; decide) (hlet p)
    | _ =>
      cases b with
      | fin q => exact absurd (by rw [← h]; decide) (hlet q)
      | _ => first | rfl | (revert h; decide)
  · intro a
    cases a with
    | fin q =>
      intro h
      unfold fractionFormat at h
      simp only at h
      have h := congrArg String.toList h
      split at h <;> simp at h
    | _ => decide
  · intro a c hc
    cases a with
    | fin q =>
      have hc' : c.isDigit = true ∨ c = '-' ∨ c = '.' ∨ c = '/' := by
        unfold fractionFormat at hc
        simp only at hc
        split at hc
        · rw [String.toList_append, List.mem_append] at hc
          rcases hc with hc | hc
          · rcases intText_chars _ _ hc with h | h <;> simp [h]
          · have : c = '.' ∨ c = '0' := by simpa using hc
            rcases this with rfl | rfl <;> decide
        · rw [String.toList_append, String.toList_append, List.mem_append, List.mem_append] at hc
          rcases hc with (hc | hc) | hc
          · rcases intText_chars _ _ hc with h | h <;> simp [h]
          · have : c = '/' := by simpa using hc
            simp [this]
          · rcases intText_chars (q.den : Int) _ hc with h | h <;> simp [h]
      intro hm
      simp only [List.mem_cons, List.not_mem_nil, or_false] at hm
      rcases hm with rfl | rfl | rfl | rfl | rfl | rfl | rfl <;> revert hc' <;> decide
    | _ => revert c; decide

/-- what has this text has the same contents -/
example (p : Output) (hp : p.Plain)
    (h : p.text fractionFormat = .ok "\nplant : \n  p : [[1.0, 2.0]] \n  cost : 5.0 (ignored)\nstore : \n  level : [3.0, 4.0] \n") :
    SameOutput plantOutput p :=
  (c99_same_text_partial fractionFormat fractionFormat_ok plantOutput p plantOutput_plain hp _ _ plantOutput_text h).1 rfl

example : ∃ s, plantOutput.text fractionFormat = .ok s := ⟨_, plantOutput_text⟩

/-- values that are missing cannot be written -/
example : ¬ ∃ s, (⟨[("k", ⟨"k", [("v", ⟨"v", [((1, 1), 2)], (2, 2), false⟩)], false⟩)]⟩ : Output).text fractionFormat = .ok s := by
  rw [c99_accepted]
  intro h
  obtain ⟨x, hx⟩ := h ⟨"k", [("v", ⟨"v", [((1, 1), 2)], (2, 2), false⟩)], false⟩ (by simp [Dict.values])
    ⟨"v", [((1, 1), 2)], (2, 2), false⟩ (by simp [Dict.values])
  have : (OutVar.read ⟨"v", [((1, 1), 2)], (2, 2), false⟩).isOk = false := by decide +kernel
  rw [hx] at this
  cases this

end Verif.Props
