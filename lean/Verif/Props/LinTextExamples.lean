import Verif.Props.LinText

/-! C98: where it fails, and concrete cases. -/

namespace Verif.Props
open Verif

/-- The code writes a coefficient and the identifier of a component without separation: `3 · x.v` and `1 · 3x.v` have the same text. -/
theorem c98_digit_names_violated (fmt : Num → String) (h3 : fmt (.fin 3) = "+3") :
    ∃ e g : LinExpr, e.repr fmt = g.repr fmt ∧ e.terms.values.map Term.key ≠ g.terms.values.map Term.key ∧
      (∀ t ∈ e.terms.values ++ g.terms.values, '.' ∉ t.key.component.toList ∧ '[' ∉ t.key.var.toList) := by
  refine ⟨.ofList [⟨.fin 3, "x", "v", some 0, some 0⟩] 0, .ofList [⟨.fin 1, "3x", "v", some 0, some 0⟩] 0, ?_, ?_, ?_⟩
  · have h1 : isOne (.fin 3) = false := by decide +kernel
    have h2 : isMinusOne (.fin 3) = false := by decide +kernel
    have h4 : isOne (.fin 1) = true := by decide +kernel
    have e1 : LinExpr.ofList [⟨.fin 3, "x", "v", some 0, some 0⟩] 0 = ⟨[(⟨"x", "v", some 0, some 0⟩, ⟨.fin 3, "x", "v", some 0, some 0⟩)], 0⟩ := by
      decide +kernel
    have e2 : LinExpr.ofList [⟨.fin 1, "3x", "v", some 0, some 0⟩] 0 = ⟨[(⟨"3x", "v", some 0, some 0⟩, ⟨.fin 1, "3x", "v", some 0, some 0⟩)], 0⟩ := by
      decide +kernel
    have z : isZero 0 = true := by decide +kernel
    rw [e1, e2]
    simp only [LinExpr.repr, LinExpr.allZero, LinExpr.strForConstant, z, Dict.values, List.map_cons, List.map_nil, List.foldl_cons, List.foldl_nil,
      Term.repr, strForCoeff, h1, h2, h3, h4, if_true, if_false, Bool.false_eq_true]
    decide +kernel
  · decide +kernel
  · decide +kernel

/-- With points inside names, variable `c` of component `a.b` and variable `b.c` of component `a` have the same text. -/
theorem c98_points_violated (fmt : Num → String) :
    ∃ e g : LinExpr, e.repr fmt = g.repr fmt ∧ e.terms.values.map Term.key ≠ g.terms.values.map Term.key := by
  refine ⟨.ofList [⟨.fin 1, "a.b", "c", some 0, some 0⟩] 0, .ofList [⟨.fin 1, "a", "b.c", some 0, some 0⟩] 0, ?_, ?_⟩
  · have h4 : isOne (.fin 1) = true := by decide +kernel
    have e1 : LinExpr.ofList [⟨.fin 1, "a.b", "c", some 0, some 0⟩] 0 = ⟨[(⟨"a.b", "c", some 0, some 0⟩, ⟨.fin 1, "a.b", "c", some 0, some 0⟩)], 0⟩ := by
      decide +kernel
    have e2 : LinExpr.ofList [⟨.fin 1, "a", "b.c", some 0, some 0⟩] 0 = ⟨[(⟨"a", "b.c", some 0, some 0⟩, ⟨.fin 1, "a", "b.c", some 0, some 0⟩)], 0⟩ := by
      decide +kernel
    have z : isZero 0 = true := by decide +kernel
    rw [e1, e2]
    simp only [LinExpr.repr, LinExpr.allZero, LinExpr.strForConstant, z, Dict.values, List.map_cons, List.map_nil, List.foldl_cons, List.foldl_nil,
      Term.repr, strForCoeff, h4, if_true]
    decide +kernel
  · decide +kernel

/-! ### A format, and texts -/

/-- whole numbers without decimals, tenths with one decimal, other numbers with six -/
def sampleFormat : Num → String
  | .fin q =>
    let n := |q|.floor.toNat
    let m := (|q| * 10 ^ 6).floor.toNat
    String.ofList ((if q < 0 then '-' else '+') :: Nat.toDigits 10 n ++
      (if q.den = 1 then [] else '.' :: (if (q * 10).den = 1 then [Nat.digitChar (m / 100000 % 10)]
        else [100000, 10000, 1000, 100, 10, 1].map fun k => Nat.digitChar (m / k % 10))))
  | _ => "+inf"

theorem digitChar_digit (m : Nat) : (Nat.digitChar (m % 10)).isDigit = true := by
  have h : m % 10 < 10 := Nat.mod_lt _ (by decide)
  have : ∀ d < 10, (Nat.digitChar d).isDigit = true := by decide
  exact this _ h

theorem sampleFormat_ok : NumberFormat sampleFormat := by
  intro q
  unfold sampleFormat
  simp only [String.toList_ofList]
  have hs : (if q < 0 then '-' else '+') = '+' ∨ (if q < 0 then '-' else '+') = '-' := by split <;> simp
  have hd : Digits (Nat.toDigits 10 |q|.floor.toNat) :=
    ⟨Nat.toDigits_ne_nil, fun d hd => Nat.isDigit_of_mem_toDigits (by decide) (by decide) hd⟩
  generalize (if q < 0 then '-' else '+') = z at hs ⊢
  split
  · rw [List.append_nil]; exact .whole hs hd
  · refine .decimal hs hd ?_
    split
    · exact ⟨by simp, fun d hd => by rw [List.mem_singleton.1 hd]; exact digitChar_digit _⟩
    · refine ⟨by simp, fun d hd => ?_⟩
      obtain ⟨k, -, rfl⟩ := List.mem_map.1 hd
      exact digitChar_digit _

/-- the texts of the unit tests -/
example : Term.repr sampleFormat ⟨.fin (-5 / 2), "c", "x", some 10, some 15⟩ = "-2.5c.x[10,15]" := by decide +kernel
example : (LinExpr.ofList [⟨.fin (37 / 10), "c", "x", some 0, some 0⟩] 1).repr sampleFormat = "+3.7c.x[0,0]+1" := by decide +kernel
example : (LinExpr.ofList [⟨0, "c", "x", some 0, some 0⟩] 0).repr sampleFormat = "0" := by decide +kernel

/-- an expression with two terms and a constant -/
def sampleSum : LinExpr := .ofList [⟨.fin (37 / 10), "c", "x", some 0, some 0⟩, ⟨.fin (-1), "store", "level", none, some 1⟩] (.fin (1 / 2))

theorem sampleSum_terms : sampleSum.terms.values =
    [⟨.fin (37 / 10), "c", "x", some 0, some 0⟩, ⟨.fin (-1), "store", "level", none, some 1⟩] := by decide +kernel

theorem readable_store : ReadableComponent "store" := by
  refine ⟨by decide, 's', "tore".toList, by decide, by decide, ?_⟩
  intro z r h
  exact absurd h (by decide)

theorem readable_c : ReadableComponent "c" := by
  refine ⟨by decide, 'c', [], by decide, by decide, ?_⟩
  intro z r h
  exact absurd h (by decide)

theorem sampleSum_readable : Readable sampleSum := by
  constructor
  · intro t ht
    rw [sampleSum_terms] at ht
    simp only [List.mem_cons, List.not_mem_nil, or_false] at ht
    rcases ht with rfl | rfl
    · exact ⟨_, rfl, readable_c, by decide⟩
    · exact ⟨_, rfl, readable_store, by decide⟩
  · exact ⟨1 / 2, rfl⟩

example : sampleSum.repr sampleFormat = "+3.7c.x[0,0]-store.level[None,1]+0.5" := by decide +kernel

/-- what has the same text as this expression has the same terms -/
example (g : LinExpr) (hg : Readable g) (h : sampleSum.repr sampleFormat = g.repr sampleFormat) :
    List.Forall₂ (fun t u : Term => t.key = u.key) sampleSum.terms.values g.terms.values :=
  ((c98_same_text_partial sampleFormat sampleFormat_ok _ g sampleSum_readable hg).1 h).1.imp fun _ _ h => h.1

example : ∃ texts, SaidTerms sampleFormat sampleSum.terms.values texts ∧
    sampleSum.repr sampleFormat = String.join texts ++ sampleFormat (.fin (1 / 2)) := by
  have hn : ¬ near (1 / 2) 0 := by unfold near; norm_num
  obtain ⟨-, h⟩ := c98_layout sampleFormat sampleSum
    (fun t ht => by obtain ⟨q, hq⟩ := sampleSum_readable.terms t ht; exact ⟨q, hq.coefficient⟩) (1 / 2) rfl
  obtain ⟨texts, h1, -, h2⟩ := h fun h => hn h.2
  exact ⟨texts, h1, h2 hn⟩

end Verif.Props
