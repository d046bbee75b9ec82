import Verif.Lemmas.Rows
import Verif.Lemmas.Degree
import Verif.Props.Data
import Verif.Props.Components
import Verif.Props.Pipeline

/-! Values of bounds, amounts and expressions, as read by the construction of the problem, are their mathematical values. -/

namespace Verif
open Expr OptCtx

mutual
/-- data that can be read without a timestep have the same value at every timestep -/
theorem getValue_time_mono (d : Data) (s : Option Int) (node : String) (v : Num) (h : d.getValue none s node = .ok v)
    (t : Option Int) : d.getValue t s node = .ok v := by
  match d with
  | .const _ => exact h
  | .timeSeries _ => cases h
  | .scenarioSeries _ _ => exact h
  | .timeScenarioSeries _ _ => cases h
  | .tree ds => exact getTree_time_mono ds s node v h t
theorem getTree_time_mono (ds : List (String × Data)) (s : Option Int) (node : String) (v : Num)
    (h : Data.getTree ds none s node = .ok v) (t : Option Int) : Data.getTree ds t s node = .ok v := by
  match ds with
  | [] => cases h
  | (k, d) :: ds =>
    simp only [Data.getTree] at h ⊢
    split_ifs at h ⊢
    · exact getValue_time_mono d s "" v h t
    · exact getTree_time_mono ds s node v h t
end

mutual
/-- data that can be read without a scenario have the same value in every scenario -/
theorem getValue_scenario_mono (d : Data) (t : Option Int) (node : String) (v : Num) (h : d.getValue t none node = .ok v)
    (s : Option Int) : d.getValue t s node = .ok v := by
  match d with
  | .const _ => exact h
  | .timeSeries _ => exact h
  | .scenarioSeries _ _ => cases h
  | .timeScenarioSeries _ _ =>
    cases t <;> cases h
  | .tree ds => exact getTree_scenario_mono ds t node v h s
theorem getTree_scenario_mono (ds : List (String × Data)) (t : Option Int) (node : String) (v : Num)
    (h : Data.getTree ds t none node = .ok v) (s : Option Int) : Data.getTree ds t s node = .ok v := by
  match ds with
  | [] => cases h
  | (k, d) :: ds =>
    simp only [Data.getTree] at h ⊢
    split_ifs at h ⊢
    · exact getValue_scenario_mono d t "" v h s
    · exact getTree_scenario_mono ds t node v h s
end

theorem getData_ok {db : DataBase} {c n : String} {d : Data} (h : db.getData c n = .ok d) : Dict.get? db (c, n) = some d := by
  unfold DataBase.getData at h
  exact (Props.get_ok_iff' _ _ _).1 h

theorem absoluteTimestep_ok {x : OptCtx} {t a : Option Int} (h : x.absoluteTimestep t = .ok a) : a = t.map x.blockTime := by
  cases t with
  | none => cases h; rfl
  | some t =>
    simp only [OptCtx.absoluteTimestep, bind_ok_iff, Except.ok.injEq] at h
    obtain ⟨u, hu, b, hb, rfl⟩ := h
    obtain ⟨_, hT, rfl⟩ := actualTimestep_ok hu
    have h0 : 0 ≤ t % (x.T : Int) := Int.emod_nonneg _ (by exact_mod_cast hT)
    unfold pyIndex at hb
    simp only [not_lt.2 h0, if_false] at hb
    split at hb
    · next hv =>
      cases hb
      simp [OptCtx.blockTime, List.getD, hv]
    · cases hb

/-- a parameter read at `(t?, s?)`, where a missing index stands for any index -/
theorem parameterValue_reading {x : OptCtx} (hx : x.DataOk) {t? s? : Option Int} {c n : String} {v : Num}
    (h : x.parameterValue t? s? c n = .ok v) (t s : Int) (ht : t? = none ∨ t? = some t) (hs : s? = none ∨ s? = some s) :
    v = .fin (x.dataValue c n (atT (x.parIdx c n) t) (atS (x.parIdx c n) s)) := by
  unfold OptCtx.parameterValue at h
  simp only [bind_ok_iff] at h
  obtain ⟨d, hd, a, ha, h⟩ := h
  have hd := getData_ok hd
  obtain rfl := absoluteTimestep_ok ha
  have h1 : d.getValue ((atT (x.parIdx c n) t).map x.blockTime) (s?) x.treeNode = .ok v := by
    by_cases hi : (x.parIdx c n).time = true
    · rcases ht with rfl | rfl
      · exact getValue_time_mono d _ _ _ h _
      · simpa [atT, hi] using h
    · have : d.needsTime = false := by
        cases hn : d.needsTime with
        | false => rfl
        | true =>
          exfalso
          apply hi
          unfold OptCtx.parIdx
          cases hk : x.network.getComponent c with
          | error e => rfl
          | ok k =>
            dsimp only
            cases hp : k.model.parameters.get? n with
            | none => rfl
            | some p => exact hx.time c n k p d hk hp hd hn
      rw [(Props.c24_ignores d).1 this _ (t?.map x.blockTime)]
      exact h
  have h2 : d.getValue ((atT (x.parIdx c n) t).map x.blockTime) (atS (x.parIdx c n) s) x.treeNode = .ok v := by
    by_cases hi : (x.parIdx c n).scenario = true
    · rcases hs with rfl | rfl
      · exact getValue_scenario_mono d _ _ _ h1 _
      · simpa [atS, hi] using h1
    · have : d.needsScenario = false := by
        cases hn : d.needsScenario with
        | false => rfl
        | true =>
          exfalso
          apply hi
          unfold OptCtx.parIdx
          cases hk : x.network.getComponent c with
          | error e => rfl
          | ok k =>
            dsimp only
            cases hp : k.model.parameters.get? n with
            | none => rfl
            | some p => exact hx.scenario c n k p d hk hp hd hn
      rw [(Props.c24_ignores d).2 this _ _ s?]
      exact h1
  obtain ⟨q, rfl⟩ := (Num.isFin_iff v).1 (hx.finite c n d hd _ _ _ h2)
  simp [OptCtx.dataValue, hd, h2, Num.toQ]

/-- a parameter read by the linearization -/
theorem parameterValue_getter {x : OptCtx} (hx : x.DataOk) {t s : Option Int} {c n : String} {v : Num}
    (h : x.parameterValue t s c n = .ok v) : v = .fin (x.dataValue c n t s) := by
  unfold OptCtx.parameterValue at h
  simp only [bind_ok_iff] at h
  obtain ⟨d, hd, a, ha, h⟩ := h
  have hd := getData_ok hd
  obtain rfl := absoluteTimestep_ok ha
  obtain ⟨q, rfl⟩ := (Num.isFin_iff v).1 (hx.finite c n d hd _ _ _ h)
  simp [OptCtx.dataValue, hd, h, Num.toQ]

/-- evaluation with a provider that only knows the parameters of components -/
theorem evaluate_mden {p : ValueProvider} {M : MCtx} {t s : Int} (hv : ∀ n v, p.var n ≠ .ok v) (hp : ∀ n v, p.par n ≠ .ok v)
    (hcv : ∀ c n v, p.cvar c n ≠ .ok v)
    (hcp : ∀ c n v, p.cpar c n = .ok v → v = .fin (mden M (cpar c n) t s)) (e : Expr) (hf : FinLits e) (v : Num)
    (h : evaluate p e = .ok v) : v = .fin (mden M e t s) := by
  have sub : ∀ {e y : Expr}, FinLits e → (∀ z ∈ y.subs, z ∈ e.subs) → FinLits y := fun h hs v hv => h v (hs _ hv)
  induction e using Expr.ind generalizing v with
  | lit w =>
    obtain ⟨q, rfl⟩ := hf w (mem_subs_self _)
    cases h; rfl
  | var n => exact absurd h (hv n v)
  | par n => exact absurd h (hp n v)
  | cvar c n => exact absurd h (hcv c n v)
  | cpar c n => exact hcp c n v h
  | pvar c n ti si => cases h
  | ppar c n ti si => cases h
  | portField q f => cases h
  | neg e ih =>
    simp only [evaluate, bind_ok_iff, Except.ok.injEq] at h
    obtain ⟨a, ha, rfl⟩ := h
    rw [ih (sub hf (by simp +contextual [subs])) a ha]
    rfl
  | add es ih =>
    rw [evaluate_add, bind_ok_iff] at h
    obtain ⟨vs, hvs, h⟩ := h
    have hne : vs ≠ [] := by rintro rfl; cases h
    rw [foldAdd_sum vs hne] at h
    cases h
    have : List.Forall₂ (fun e v => v = .fin (mden M e t s)) es vs := by
      refine forall₂_and_mem (appendAll_ok_iff.1 hvs) fun e he v hev => ?_
      exact ih e he (finLits_add hf e he) v hev
    rw [mden_add]
    clear hvs ih hf hne
    induction this with
    | nil => rfl
    | cons h1 _ ih2 => rw [List.sum_cons, ih2, h1]; rfl
  | mul l r ihl ihr =>
    simp only [evaluate, bind_ok_iff, Except.ok.injEq] at h
    obtain ⟨a, ha, b, hb, rfl⟩ := h
    rw [ihl (sub hf (by simp +contextual [subs])) a ha, ihr (sub hf (by simp +contextual [subs])) b hb]
    rfl
  | div l r ihl ihr =>
    simp only [evaluate, bind_ok_iff] at h
    obtain ⟨a, ha, b, hb, h⟩ := h
    rw [ihl (sub hf (by simp +contextual [subs])) a ha, ihr (sub hf (by simp +contextual [subs])) b hb] at h
    simp only [Num.div] at h
    split_ifs at h
    cases h
    rfl
  | cmp l r c _ _ => cases h
  | shift e k _ _ => cases h
  | evalT e k _ _ => cases h
  | tsum e a b _ _ _ => cases h
  | allsum e _ => cases h
  | scen e o _ => cases h
  | agg e a _ => cases h

theorem expressionValue_mden {x : OptCtx} (hx : x.DataOk) (var : String → String → Option Int → Option Int → ℚ) (comp : String) (ports) (e : Expr)
    (hf : FinLits e) {t? s? : Option Int} {v : Num} (h : x.expressionValue e t? s? = .ok v) (t s : Int)
    (ht : t? = none ∨ t? = some t) (hs : s? = none ∨ s? = some s) : v = .fin (mden ⟨x.unwrapped var, comp, ports⟩ e t s) :=
  evaluate_mden (p := x.valueProvider t? s?) (M := ⟨x.unwrapped var, comp, ports⟩) (t := t) (s := s) (fun _ _ h => by cases h) (fun _ _ h => by cases h) (fun _ _ _ h => by cases h)
    (fun _ _ _ h => parameterValue_reading hx h t s ht hs) e hf v h

theorem floatToInt_ok {v : Num} {n : Int} (h : floatToInt v = .ok n) : v = .fin n := by
  unfold floatToInt at h
  split at h
  · split_ifs at h with hd
    cases h
    rename_i q
    rw [Rat.den_eq_one_iff] at hd
    rw [hd]
  · cases h

theorem evaluateTimeBound_mden {x : OptCtx} (hx : x.DataOk) (var : String → String → Option Int → Option Int → ℚ) (comp : String) (ports) (e : Expr)
    (hf : FinLits e) {n : Int} (h : x.evaluateTimeBound e = .ok n) (t s : Int) :
    mden ⟨x.unwrapped var, comp, ports⟩ e t s = n := by
  unfold OptCtx.evaluateTimeBound at h
  rw [bind_ok_iff] at h
  obtain ⟨v, hv, h⟩ := h
  have := evaluate_mden (p := x.constantProvider) (M := ⟨x.unwrapped var, comp, ports⟩) (t := t) (s := s)
    (fun _ _ h => by cases h) (fun _ _ h => by cases h) (fun _ _ _ h => by cases h)
    (fun c n v h => ?_) e hf v hv
  · rw [this] at h
    have := floatToInt_ok h
    simpa using this
  · simp only [OptCtx.constantProvider, bind_ok_iff] at h
    obtain ⟨i, _, h⟩ := h
    split_ifs at h
    exact parameterValue_reading hx h t s (.inl rfl) (.inl rfl)

end Verif
