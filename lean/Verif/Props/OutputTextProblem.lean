import Verif.Props.OutputText
import Verif.Props.Output

/-! C99: the output values of a problem can always be written. -/

namespace Verif.Props
open Verif Verif.OptCtx

/-- no key occurs twice -/
def WellKeyed (o : Output) : Prop := o.components.keys.Nodup ∧ ∀ c k, (c, k) ∈ o.components → k.variables_.keys.Nodup

theorem wellKeyed_modify {o : Output} (h : WellKeyed o) (c v : String) (f : OutVar → OutVar) : WellKeyed (o.modifyVar c v f) := by
  have hk : WellKeyed (o.component c).1 ∧ (o.component c).2.variables_.keys.Nodup := by
    unfold Output.component
    cases hg : o.components.get? c with
    | none =>
      refine ⟨⟨Dict.nodup_set h.1 _ _, ?_⟩, by simp [Dict.keys]⟩
      intro c' k hm
      rcases Dict.mem_set hm with ⟨-, rfl⟩ | hm
      · simp [Dict.keys]
      · exact h.2 c' k hm
    | some k => exact ⟨h, h.2 c k (Dict.mem_of_get? hg)⟩
  have hv : ((o.component c).2.var v).1.variables_.keys.Nodup := by
    unfold OutComp.var
    cases (o.component c).2.variables_.get? v with
    | none => exact Dict.nodup_set hk.2 _ _
    | some w => exact hk.2
  unfold Output.modifyVar
  refine ⟨Dict.nodup_set hk.1.1 _ _, ?_⟩
  intro c' k hm
  rcases Dict.mem_set hm with ⟨-, rfl⟩ | hm
  · exact Dict.nodup_set hv _ _
  · exact hk.1.2 c' k hm

theorem wellKeyed_ofColumns (cols : Dict TermKey Nat) (sol : Nat → Num) : WellKeyed (Output.ofColumns cols sol) := by
  unfold Output.ofColumns
  have : ∀ (l : List (TermKey × Nat)) (o : Output), WellKeyed o →
      WellKeyed (l.foldl (fun o (k, i) => o.modifyVar k.component k.var fun w => w.setAt k.time k.scenario (sol i)) o) := by
    intro l
    induction l with
    | nil => exact fun o h => h
    | cons p l ih => exact fun o h => ih _ (wellKeyed_modify h _ _ _)
  exact this cols {} ⟨by simp [Dict.keys], by simp⟩

/-- **C99**, problems: whatever the solution, the output values of a problem that was built can be written. -/
theorem c99_problem (x : OptCtx) (hn : x.NetworkOk) (st : OptState) (h : x.buildProblem = .ok st) (sol : Nat → Num) (hT : 0 < x.T)
    (hS : 0 < x.scenarios) (fmt : Num → String) : ∃ s, (Output.ofColumns st.columns sol).text fmt = .ok s := by
  rw [c99_accepted]
  intro k hk v hv
  obtain ⟨⟨c, k'⟩, hck, rfl⟩ := List.mem_map.1 hk
  obtain ⟨⟨n, v'⟩, hvn, rfl⟩ := List.mem_map.1 hv
  have hw := wellKeyed_ofColumns st.columns sol
  have hlook : (Output.ofColumns st.columns sol).lookup c n = some v' := by
    unfold Output.lookup
    rw [Dict.get?_of_mem hw.1 hck]
    simp only [Option.bind_some]
    exact Dict.get?_of_mem (hw.2 c k' hck) hvn
  obtain ⟨h1, h2⟩ := c41_problem x hn st h sol (fun k => (st.columns.get? k).elim 0 sol) (fun k i e => by rw [e]; rfl) hT hS
  obtain ⟨d, hd, rfl, w, hw', rfl⟩ := h2 c n (by rw [hlook]; simp)
  have h3 := h1 d hd w hw'
  rw [(c41_read _ _ _).1 _ hlook] at h3
  exact ⟨_, (Prod.ext_iff.1 h3).2⟩

/-- the study of `ProblemExamples` meets the hypotheses -/
example : ∃ s, (Output.ofColumns built0.columns fun i => .fin i).text (fun _ => "1.0") = .ok s :=
  c99_problem study0 study0_networkOk built0 study0_builds _ (by decide) (by decide) _

end Verif.Props
