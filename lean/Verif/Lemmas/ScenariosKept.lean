import Verif.Lemmas.ScenariosAny
import Verif.Lemmas.FewKeys

/-! # What is kept of several scenarios and of each of them alone -/

namespace Verif
open Verif.Expr Verif.OptCtx Verif.Props

/-- the value of an expression that does not depend on the scenario is the same in all scenarios -/
theorem mden_depends_scenario {M : MCtx} {d : SymbolDep}
    (hv : ∀ n, (d.var n).scenario = false → ∀ t s s', mden M (.var n) t s = mden M (.var n) t s')
    (hp : ∀ n, (d.par n).scenario = false → ∀ t s s', mden M (.par n) t s = mden M (.par n) t s')
    (hports : ∀ p f, (d.port p f).scenario = false → ∀ v ∈ M.ports p f, ∀ t s s', v t s = v t s')
    (e : Expr) : (∀ y ∈ e.subs, y.hasComponent = false) → (depends d e).scenario = false → ∀ t s s', mden M e t s = mden M e t s' := by
  induction e using Expr.ind with
  | lit v => intro _ _ t s s'; cases v <;> simp [mden]
  | var n => intro _ h; exact hv n h
  | par n => intro _ h; exact hp n h
  | portField p f =>
    intro _ h t s s'
    have := hports p f h
    simp only [mden]
    generalize M.ports p f = l at this
    rcases l with _ | ⟨a, _ | ⟨b, l⟩⟩
    · rfl
    · exact this a (by simp) t s s'
    · rfl
  | agg e a _ =>
    intro _ h t s s'
    cases e with
    | portField p f =>
      simp only [mden]
      congr 1
      exact List.map_congr_left fun v hv => hports p f h v hv t s s'
    | _ => simp [mden]
  | cmp l r c _ _ => intro _ _ t s s'; simp [mden]
  | cvar c n => intro h; exact absurd (h _ (mem_subs_self _)) (by simp [hasComponent])
  | cpar c n => intro h; exact absurd (h _ (mem_subs_self _)) (by simp [hasComponent])
  | pvar c n ti si => intro h; exact absurd (h _ (mem_subs_self _)) (by simp [hasComponent])
  | ppar c n ti si => intro h; exact absurd (h _ (mem_subs_self _)) (by simp [hasComponent])
  | add es ih =>
    intro h h2 t s s'
    rw [mden_add, mden_add]
    congr 1
    refine List.map_congr_left fun x hx => ih x hx (fun y hy => h y (mem_subs_add.2 (.inr ⟨x, hx, hy⟩))) ?_ t s s'
    rw [depends_add] at h2
    simp only [Idx.all, List.any_map, List.any_eq_false] at h2
    simpa using h2 x hx
  | neg e ih => intro h h2 t s s'; simp only [mden, ih (fun y hy => h y (by simp [subs, hy])) h2 t s s']
  | mul l r ihl ihr =>
    intro h h2 t s s'
    simp only [depends, Idx.both, Bool.or_eq_false_iff] at h2
    simp only [mden, ihl (fun y hy => h y (by simp [subs, hy])) h2.1 t s s', ihr (fun y hy => h y (by simp [subs, hy])) h2.2 t s s']
  | div l r ihl ihr =>
    intro h h2 t s s'
    simp only [depends, Idx.both, Bool.or_eq_false_iff] at h2
    simp only [mden, ihl (fun y hy => h y (by simp [subs, hy])) h2.1 t s s', ihr (fun y hy => h y (by simp [subs, hy])) h2.2 t s s']
  | shift e k ih _ =>
    intro h h2 t s s'
    simp only [mden]
    exact ih (fun y hy => h y (by simp [subs, hy])) h2 _ s s'
  | evalT e k ih _ =>
    intro h h2 t s s'
    simp only [mden]
    exact ih (fun y hy => h y (by simp [subs, hy])) h2 _ s s'
  | tsum e a b ih _ _ =>
    intro h h2 t s s'
    simp only [mden]
    exact Finset.sum_congr rfl fun k _ => ih (fun y hy => h y (by simp [subs, hy])) h2 _ s s'
  | allsum e ih =>
    intro h h2 t s s'
    simp only [mden]
    exact Finset.sum_congr rfl fun k _ => ih (fun y hy => h y (by simp [subs, hy])) h2 _ s s'
  | scen e o _ => intro _ _ t s s'; simp only [mden]

namespace OptCtx
variable {x x' : OptCtx} {k : Nat}

/-- the value of an expression of a component that does not depend on the scenario is the same in all scenarios -/
theorem dependence_scenario (hn : x.NetworkOk) (W : String → String → Option Int → Option Int → ℚ) {c : Component} {e : Expr}
    (he : ∀ y ∈ e.subs, y.hasComponent = false) (h : (x.dependence c e).scenario = false) (t s s' : Int) :
    mden (x.readAs (x.unwrapped W) c) e t s = mden (x.readAs (x.unwrapped W) c) e t s' := by
  have sym : ∀ (id : String) (P : String → String → List (Int → Int → ℚ)) (Q : String → String → Idx),
      (∀ n, ((x.symbols id Q).var n).scenario = false → ∀ t s s', mden (componentCtx (x.unwrapped W) id P) (.var n) t s = mden (componentCtx (x.unwrapped W) id P) (.var n) t s') ∧
      ∀ n, ((x.symbols id Q).par n).scenario = false → ∀ t s s', mden (componentCtx (x.unwrapped W) id P) (.par n) t s = mden (componentCtx (x.unwrapped W) id P) (.par n) t s' := by
    intro id P Q
    constructor
    · intro n h t s s'
      have h' : (x.varIdx id n).scenario = false := h
      show W _ _ _ (atS (x.varIdx id n) s) = W _ _ _ (atS (x.varIdx id n) s')
      simp [atS, h']
    · intro n h t s s'
      have h' : (x.parIdx id n).scenario = false := h
      show x.dataValue _ _ _ (atS (x.parIdx id n) s) = x.dataValue _ _ _ (atS (x.parIdx id n) s')
      simp [atS, h']
  refine mden_depends_scenario (sym _ _ _).1 (sym _ _ _).2 ?_ e he h t s s'
  intro p f hp v hv t s s'
  obtain ⟨k, hk, rfl, hf, hend⟩ := attached_value hv
  have hd : (x.fieldDepends k f).scenario = false := by
    have hp' : (x.portDepends c.id p f).scenario = false := hp
    unfold OptCtx.portDepends Idx.all at hp'
    simp only [List.any_eq_false, List.mem_flatMap] at hp'
    have := hp' (x.fieldDepends k f) ⟨k, hk, ?_⟩
    · simpa using this
    · unfold OptCtx.bringsDep
      rw [if_pos hf]
      rcases hend with hend | hend <;> simp [hend]
  have side : ∀ (q : PortRef) d, (q = k.port1 ∨ q = k.port2) → q.fieldDef f = some d →
      (depends (x.symbols q.component.id fun _ _ => ⟨false, false⟩) d).scenario = false →
      mden (componentCtx (x.unwrapped W) q.component.id noPorts) d t s = mden (componentCtx (x.unwrapped W) q.component.id noPorts) d t s' := by
    intro q d hq hd hdep
    exact mden_depends_scenario (sym _ _ _).1 (sym _ _ _).2 (fun _ _ _ _ hv => by cases hv) d
      (fun y hy => ((hn.clean k hk q f d hq hd).1 y hy).2.2) hdep t s s'
  unfold OptCtx.fieldDepends at hd
  unfold PortsConnection.value
  cases z1 : k.port1.fieldDef f with
  | some d => rw [z1] at hd; exact side _ _ (.inl rfl) z1 hd
  | none =>
    rw [z1] at hd
    cases z2 : k.port2.fieldDef f with
    | some d => rw [z2] at hd; exact side _ _ (.inr rfl) z2 hd
    | none => rfl

/-- an index that variables may have in scenario `k` -/
def Visible (A : Bool → Prop) (k : Nat) (s : Option Int) : Prop := ∃ b, A b ∧ s = scenIf b k

theorem scenIf_inj {b b' : Bool} {s s' : Int} : scenIf b s = scenIf b' s → scenIf b s' = scenIf b' s' := by
  cases b <;> cases b' <;> simp [scenIf]

theorem oneKey_hidden {A : Bool → Prop} {κ : TermKey} (h : ¬ Visible A k κ.scenario) (c v : String) (t : Option Int) {b : Bool} (hb : A b) :
    oneKey κ c v t (scenIf b k) = 0 := by
  unfold oneKey
  rw [if_neg]
  rintro rfl
  exact h ⟨b, hb, rfl⟩

theorem seen_zero {A : Bool → Prop} : SeenVar A k (fun _ _ _ _ => 0) (fun _ _ _ _ => 0) := fun _ _ _ _ _ => rfl

theorem seen_one {A : Bool → Prop} (c v : String) (t : Option Int) (b : Bool) :
    SeenVar A k (oneKey ⟨c, v, t, scenIf b k⟩) (oneKey ⟨c, v, t, scenIf b 0⟩) := by
  intro c' v' t' b' _
  cases b <;> cases b' <;> simp [oneKey, scenIf]

/-- a sum over instances, when only instances of one scenario count -/
theorem sum_seen {A : Bool → Prop} {a a' σ σ' : TermKey → ℚ} {T : Nat} (h0 : ∀ y : TermKey, ¬ Visible A k y.scenario → a y = 0)
    (h0' : ∀ y : TermKey, ¬ Visible A 0 y.scenario → a' y = 0)
    (he : ∀ c v t b, A b → a' ⟨c, v, t, scenIf b 0⟩ = a ⟨c, v, t, scenIf b k⟩) (ha : SeenIn A k σ σ') :
    ∑ᶠ y : TermKey, a' y * σ' { y with time := y.time.map (· % (T : Int)) } =
      ∑ᶠ y : TermKey, a y * σ { y with time := y.time.map (· % (T : Int)) } := by
  let S : Set TermKey := {y | Visible A k y.scenario}
  let S' : Set TermKey := {y | Visible A 0 y.scenario}
  have r' : ∑ᶠ y : TermKey, a' y * σ' { y with time := y.time.map (· % (T : Int)) } =
      ∑ᶠ y ∈ S', a' y * σ' { y with time := y.time.map (· % (T : Int)) } := by
    rw [← finsum_mem_univ]
    refine finsum_mem_inter_support_eq' _ _ _ fun y hy => ⟨fun _ => ?_, fun _ => trivial⟩
    by_contra hn
    exact hy (by dsimp only; rw [h0' y hn, zero_mul])
  have r : ∑ᶠ y : TermKey, a y * σ { y with time := y.time.map (· % (T : Int)) } =
      ∑ᶠ y ∈ S, a y * σ { y with time := y.time.map (· % (T : Int)) } := by
    rw [← finsum_mem_univ]
    refine finsum_mem_inter_support_eq' _ _ _ fun y hy => ⟨fun _ => ?_, fun _ => trivial⟩
    by_contra hn
    exact hy (by dsimp only; rw [h0 y hn, zero_mul])
  rw [r', r]
  have lift : ∀ b, Option.map (fun _ : Int => (k : Int)) (scenIf b ((0 : Nat) : Int)) = scenIf b k := fun b => by cases b <;> rfl
  refine finsum_mem_eq_of_bijOn (fun y : TermKey => { y with scenario := y.scenario.map fun _ => (k : Int) }) ⟨?_, ?_, ?_⟩ ?_
  · rintro ⟨c, v, t, s⟩ ⟨b, hb, rfl⟩
    exact ⟨b, hb, lift b⟩
  · rintro ⟨c, v, t, s⟩ ⟨b, hb, rfl⟩ ⟨c', v', t', s'⟩ ⟨b', hb', rfl⟩ q
    obtain ⟨rfl, rfl, rfl, q4⟩ := TermKey.mk.inj q
    dsimp only at q4
    rw [lift, lift] at q4
    rw [scenIf_inj q4]
  · rintro ⟨c, v, t, s⟩ ⟨b, hb, rfl⟩
    exact ⟨⟨c, v, t, scenIf b ((0 : Nat) : Int)⟩, ⟨b, hb, rfl⟩, by dsimp only; rw [lift]⟩
  · rintro ⟨c, v, t, s⟩ ⟨b, hb, rfl⟩
    dsimp only
    rw [lift]
    have e1 := he c v t b hb
    have e2 := ha c v (t.map (· % (T : Int))) b hb
    exact congrArg₂ (· * ·) e1 e2

/-- what is kept of an expression about one scenario -/
theorem InScenario.kept {A : Bool → Prop} {σ σ' : TermKey → ℚ} (h : x.InScenario k x') (hn : x.NetworkOk) (hcl : x.Closed) (hu : x.Separate)
    (hA : x.VarsAre A) (ha : SeenIn A k σ σ') {c : Component} (hc : c ∈ x.network.allComponents) {e : Expr}
    (hv : ∀ n, .var n ∈ e.subs → A (x.varIdx c.id n).scenario) (he : ∀ y ∈ e.subs, y.hasComponent = false) (hi : x.PerScenario c.id e) (t : Int) :
    x'.keptValue σ' c e t 0 = x.keptValue σ c e t k := by
  have read := fun {W W'} (hm : SeenVar A k W W') => h.readVar hn hcl hu hA hm hc hv he hi t
  have hfix : x'.fixedPart c e t 0 = x.fixedPart c e t k := read seen_zero
  unfold OptCtx.keptValue
  rw [hfix, h.T_eq]
  congr 1
  refine sum_seen (A := A) (a := fun y => keep (x.coefficient c e t k y)) (a' := fun y => keep (x'.coefficient c e t 0 y))
    (fun y hy => ?_) (fun y hy => ?_) (fun c' v t' b hb => ?_) ha
  · have : x.coefficient c e t k y = 0 := by
      unfold OptCtx.coefficient
      rw [sub_eq_zero, ← hfix]
      refine (read (W := oneKey y) (W' := fun _ _ _ _ => 0) fun c v t b hb => ?_).symm
      rw [oneKey_hidden hy _ _ _ hb]
    rw [this, keep_zero]
  · have : x'.coefficient c e t 0 y = 0 := by
      unfold OptCtx.coefficient
      rw [sub_eq_zero, hfix]
      refine read (W := fun _ _ _ _ => 0) (W' := oneKey y) fun c v t b hb => ?_
      exact oneKey_hidden hy _ _ _ hb
    rw [this, keep_zero]
  · unfold OptCtx.coefficient
    rw [hfix]
    congr 2
    exact read (seen_one c' v t' b)

/-- What is kept of an expectation is the average of what is kept in each scenario alone, when no coefficient is tiny: in the average of the
scenarios, coefficients are divided by the number of scenarios. -/
theorem Expected.kept {A : Bool → Prop} {xs : Nat → OptCtx} {σ : TermKey → ℚ} {σs : Nat → TermKey → ℚ}
    (hS : 0 < x.scenarios) (h : ∀ k < x.scenarios, x.InScenario k (xs k)) (hn : x.NetworkOk) (hcl : x.Closed) (hu : x.Separate) (hA : x.VarsAre A)
    (ha : ∀ k < x.scenarios, SeenIn A k σ (σs k)) {c : Component} (hc : c ∈ x.network.allComponents) {e : Expr} (hex : x.Expected c.id e)
    (hv : ∀ n, .var n ∈ e.subs → A (x.varIdx c.id n).scenario) (he : ∀ y ∈ e.subs, y.hasComponent = false)
    (hbig : ∀ κ, keep (x.coefficient c e 0 0 κ) = x.coefficient c e 0 0 κ)
    (hbigs : ∀ k < x.scenarios, ∀ κ, keep ((xs k).coefficient c e 0 0 κ) = (xs k).coefficient c e 0 0 κ) :
    x.keptValue σ c e 0 0 = average x.scenarios fun k => (xs k).keptValue (σs k) c e 0 0 := by
  classical
  have read := fun (W : String → String → Option Int → Option Int → ℚ) (Ws : Nat → String → String → Option Int → Option Int → ℚ)
    (hm : ∀ k < x.scenarios, SeenVar A k W (Ws k)) => hex.valueVar hS h hn hcl hu hA hm hc hv he 0
  have hfix : x.fixedPart c e 0 0 = average x.scenarios fun k => (xs k).fixedPart c e 0 0 := read _ _ fun _ _ => seen_zero
  -- only values in the only scenario count
  have only : ∀ k < x.scenarios, ∀ W' W'' : String → String → Option Int → Option Int → ℚ,
      (∀ c v t b, A b → W'' c v t (scenIf b 0) = W' c v t (scenIf b 0)) →
      mden ((xs k).readAs ((xs k).unwrapped W'') c) e 0 0 = mden ((xs k).readAs ((xs k).unwrapped W') c) e 0 0 := by
    intro k hk W' W'' hW
    let W : String → String → Option Int → Option Int → ℚ := fun c v t s =>
      match s with
      | none => W' c v t none
      | some j => if j = (k : Int) then W' c v t (some 0) else 0
    let other : String → String → Option Int → Option Int → ℚ := fun c v t s =>
      match s with
      | none => W' c v t none
      | some _ => 0
    have mom : ∀ z : String → String → Option Int → Option Int → ℚ, (∀ c v t b, A b → z c v t (scenIf b 0) = W' c v t (scenIf b 0)) →
        ∀ j < x.scenarios, SeenVar A j W (if j = k then z else other) := by
      intro z hz j _ c v t b hb
      by_cases q : j = k
      · subst q
        rw [if_pos rfl, hz _ _ _ _ hb]
        cases b <;> simp [W, scenIf]
      · have : ¬ (j : Int) = k := by exact_mod_cast q
        rw [if_neg q]
        cases b <;> simp [W, other, scenIf, this]
    have e1 := read W _ (mom W' fun _ _ _ _ _ => rfl)
    have e2 := read W _ (mom W'' hW)
    have hS : (0 : ℚ) < x.scenarios := by exact_mod_cast (by omega : 0 < x.scenarios)
    rw [e1] at e2
    unfold average at e2
    rw [div_left_inj' hS.ne', ← Finset.add_sum_erase _ _ (Finset.mem_range.2 hk), ← Finset.add_sum_erase _ _ (Finset.mem_range.2 hk)] at e2
    have e3 : ∀ z : String → String → Option Int → Option Int → ℚ, ∑ j ∈ (Finset.range x.scenarios).erase k,
        mden ((xs j).readAs ((xs j).unwrapped (if j = k then z else other)) c) e 0 0 =
        ∑ j ∈ (Finset.range x.scenarios).erase k, mden ((xs j).readAs ((xs j).unwrapped other) c) e 0 0 := fun z =>
      Finset.sum_congr rfl fun j hj => by rw [if_neg (Finset.ne_of_mem_erase hj)]
    rw [e3, e3] at e2
    simp only [if_true] at e2
    exact (add_right_cancel e2).symm
  have out : ∀ k < x.scenarios, ∀ y : TermKey, ¬ Visible A 0 y.scenario → (xs k).coefficient c e 0 0 y = 0 := by
    intro k hk y hy
    unfold OptCtx.coefficient
    rw [sub_eq_zero]
    exact only k hk (fun _ _ _ _ => 0) (oneKey y) fun c v t b hb => oneKey_hidden hy c v t hb
  let drop : TermKey → TermKey := fun κ => { κ with scenario := κ.scenario.map fun _ => 0 }
  let part : Nat → TermKey → ℚ := fun k κ => if Visible A k κ.scenario then (xs k).coefficient c e 0 0 (drop κ) else 0
  have split : ∀ κ, x.coefficient c e 0 0 κ = (∑ k ∈ Finset.range x.scenarios, part k κ) / (x.scenarios : ℚ) := by
    intro κ
    have e1 := read (oneKey κ) (fun k => if Visible A k κ.scenario then oneKey (drop κ) else fun _ _ _ _ => 0) fun k hk => by
      by_cases hz : Visible A k κ.scenario
      · rw [if_pos hz]
        obtain ⟨b, hb, eb⟩ := hz
        have h1 : κ = ⟨κ.component, κ.var, κ.time, scenIf b k⟩ := by rw [← eb]
        have h2 : drop κ = ⟨κ.component, κ.var, κ.time, scenIf b 0⟩ := by
          show TermKey.mk _ _ _ (κ.scenario.map _) = _
          rw [eb]
          cases b <;> rfl
        rw [h2]
        conv => arg 3; rw [h1]
        exact seen_one _ _ _ _
      · rw [if_neg hz]
        intro c v t b hb
        exact (oneKey_hidden hz c v t hb).symm
    unfold OptCtx.coefficient
    rw [hfix]
    refine (congrArg (· - _) e1).trans ?_
    unfold average
    rw [← sub_div, ← Finset.sum_sub_distrib]
    congr 1
    refine Finset.sum_congr rfl fun k _ => ?_
    simp only [part]
    by_cases hz : Visible A k κ.scenario
    · rw [if_pos hz, if_pos hz]
      rfl
    · rw [if_neg hz, if_neg hz]
      exact sub_self _
  have sums : ∀ k < x.scenarios, ∑ᶠ κ : TermKey, (xs k).coefficient c e 0 0 κ * σs k { κ with time := κ.time.map (· % (x.T : Int)) } =
      ∑ᶠ κ : TermKey, part k κ * σ { κ with time := κ.time.map (· % (x.T : Int)) } := by
    intro k hk
    refine sum_seen (A := A) (fun y hy => ?_) (out k hk) (fun c' v t b hb => ?_) (ha k hk)
    · exact if_neg hy
    · have : Visible A k (TermKey.mk c' v t (scenIf b k)).scenario := ⟨b, hb, rfl⟩
      simp only [part, if_pos this, drop]
      cases b <;> rfl
  have fin : ∀ k < x.scenarios, (Function.support fun κ : TermKey => part k κ * σ { κ with time := κ.time.map (· % (x.T : Int)) }).Finite := by
    intro k hk
    have f1 := coefficient_finite (xs k) c e 0 0
    refine (f1.image fun κ => ({ κ with scenario := κ.scenario.map fun _ => (k : Int) } : TermKey)).subset fun κ hκ => ?_
    have hp : part k κ ≠ 0 := left_ne_zero_of_mul hκ
    simp only [part] at hp
    by_cases hz : Visible A k κ.scenario
    · rw [if_pos hz] at hp
      refine ⟨drop κ, hp, ?_⟩
      obtain ⟨b, hb, eb⟩ := hz
      obtain ⟨c', v, t, s⟩ := κ
      dsimp only at eb
      subst eb
      cases b <;> rfl
    · rw [if_neg hz] at hp
      exact absurd rfl hp
  unfold OptCtx.keptValue
  simp only [hbig]
  have e1 : (average x.scenarios fun k => (xs k).fixedPart c e 0 0 + ∑ᶠ κ : TermKey, keep ((xs k).coefficient c e 0 0 κ) * σs k { κ with time := κ.time.map (· % ((xs k).T : Int)) }) =
      average x.scenarios fun k => (xs k).fixedPart c e 0 0 + ∑ᶠ κ : TermKey, part k κ * σ { κ with time := κ.time.map (· % (x.T : Int)) } := by
    unfold average
    congr 1
    refine Finset.sum_congr rfl fun k hk => ?_
    have hk := Finset.mem_range.1 hk
    dsimp only
    rw [(h k hk).T_eq, ← sums k hk]
    simp only [hbigs k hk]
  rw [e1, hfix]
  unfold average
  rw [Finset.sum_add_distrib, add_div]
  congr 1
  rw [← finsum_sum_comm _ _ fun k hk => fin k (Finset.mem_range.1 hk)]
  rw [div_eq_inv_mul, ← smul_eq_mul, smul_finsum]
  refine finsum_congr fun κ => ?_
  rw [split κ, ← Finset.sum_mul, smul_eq_mul]
  ring

end OptCtx
end Verif
