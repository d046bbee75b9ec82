import Verif.Spec.BetweenAny
import Verif.Lemmas.UnitsAny

/-! # Values of expressions at weighted means of variables and amounts -/

namespace Verif
open Verif.Expr Verif.OptCtx Verif.Shipped Verif.Props

/-- When variables and amounts are the means of those of three readings, with weights whose sum is 1, and other parameters are the same, then values are
the means too. -/
theorem mixed_value {M M1 M2 M3 : MCtx} {P : Int → Prop} {a : String → Prop} {w1 w2 w3 : ℚ} (hw : w1 + w2 + w3 = 1) (h0 : P 0)
    (hP : ∀ w : Nat, w < M.D.S → P w) (hT1 : M1.D.T = M.D.T) (hS1 : M1.D.S = M.D.S) (hT2 : M2.D.T = M.D.T) (hS2 : M2.D.S = M.D.S)
    (hT3 : M3.D.T = M.D.T) (hS3 : M3.D.S = M.D.S)
    (hvar : ∀ n t s, P s → mden M (.var n) t s = w1 * mden M1 (.var n) t s + w2 * mden M2 (.var n) t s + w3 * mden M3 (.var n) t s)
    (hpar : ∀ n t s, P s → mden M (.par n) t s = w1 * mden M1 (.par n) t s + w2 * mden M2 (.par n) t s + w3 * mden M3 (.par n) t s)
    (hp1 : ∀ n, ¬ a n → ∀ t s, P s → mden M1 (.par n) t s = mden M (.par n) t s)
    (hp2 : ∀ n, ¬ a n → ∀ t s, P s → mden M2 (.par n) t s = mden M (.par n) t s)
    (hp3 : ∀ n, ¬ a n → ∀ t s, P s → mden M3 (.par n) t s = mden M (.par n) t s)
    {ι : Type} (L : String → String → List ι) (V V1 V2 V3 : String → ι → Int → Int → ℚ) (hV : ∀ p f, M.ports p f = (L p f).map (V f))
    (hV1 : ∀ p f, M1.ports p f = (L p f).map (V1 f)) (hV2 : ∀ p f, M2.ports p f = (L p f).map (V2 f))
    (hV3 : ∀ p f, M3.ports p f = (L p f).map (V3 f))
    (hport : ∀ p f, ∀ i ∈ L p f, ∀ t s, P s → V f i t s = w1 * V1 f i t s + w2 * V2 f i t s + w3 * V3 f i t s) {e : Expr}
    (h : e.Mixed a) : (∀ y ∈ e.subs, y.hasComponent = false) → ∀ t s, P s →
      mden M e t s = w1 * mden M1 e t s + w2 * mden M2 e t s + w3 * mden M3 e t s := by
  have given1 : ∀ {e : Expr}, e.Given a → (∀ y ∈ e.subs, y.hasComponent = false) → ∀ t s, P s → mden M1 e t s = mden M e t s :=
    fun {e} hf he => mden_used h0 hP hT1 hS1 e (fun n hn => absurd hn (hf.1.1 n)) (fun n hn => hp1 n (hf.2 n hn))
      (fun p f hn => absurd hn (hf.1.2 p f)) he
  have given2 : ∀ {e : Expr}, e.Given a → (∀ y ∈ e.subs, y.hasComponent = false) → ∀ t s, P s → mden M2 e t s = mden M e t s :=
    fun {e} hf he => mden_used h0 hP hT2 hS2 e (fun n hn => absurd hn (hf.1.1 n)) (fun n hn => hp2 n (hf.2 n hn))
      (fun p f hn => absurd hn (hf.1.2 p f)) he
  have given3 : ∀ {e : Expr}, e.Given a → (∀ y ∈ e.subs, y.hasComponent = false) → ∀ t s, P s → mden M3 e t s = mden M e t s :=
    fun {e} hf he => mden_used h0 hP hT3 hS3 e (fun n hn => absurd hn (hf.1.1 n)) (fun n hn => hp3 n (hf.2 n hn))
      (fun p f hn => absurd hn (hf.1.2 p f)) he
  have same : ∀ q : ℚ, q = w1 * q + w2 * q + w3 * q := fun q => by rw [← add_mul, ← add_mul, hw, one_mul]
  induction h with
  | number v =>
    intro _ t s _
    cases v with
    | fin q => simp only [mden]; exact same q
    | pinf => simp [mden]
    | ninf => simp [mden]
    | nan => simp [mden]
  | unknown n => exact fun _ t s hs => hvar n t s hs
  | parameter n => exact fun _ t s hs => hpar n t s hs
  | port p f =>
    intro _ t s hs
    simp only [mden, hV, hV1, hV2, hV3]
    have hp := hport p f
    generalize L p f = l at hp
    rcases l with _ | ⟨i, _ | ⟨j, l⟩⟩
    · simp
    · exact hp i (by simp) t s hs
    · simp
  | total p f g =>
    intro _ t s hs
    simp only [mden, hV, hV1, hV2, hV3, List.map_map]
    have hp := hport p f
    generalize L p f = l at hp
    induction l with
    | nil => simp
    | cons i l ih =>
      have := ih fun i hi => hp i (List.mem_cons_of_mem _ hi)
      simp only [List.map_cons, List.sum_cons, Function.comp_apply] at this ⊢
      rw [this, hp i (List.mem_cons_self ..) t s hs]
      ring
  | neg _ ih =>
    intro he t s hs
    simp only [mden, ih (fun y hy => he y (by simp [subs, hy])) t s hs]
    ring
  | @add es hes ih =>
    intro he t s hs
    rw [mden_add, mden_add, mden_add, mden_add]
    have ihs : ∀ e ∈ es, mden M e t s = w1 * mden M1 e t s + w2 * mden M2 e t s + w3 * mden M3 e t s :=
      fun x hx => ih x hx (fun y hy => he y (mem_subs_add.2 (.inr ⟨x, hx, hy⟩))) t s hs
    clear hes he ih
    induction es with
    | nil => simp
    | cons x l ihl =>
      have := ihl fun e he => ihs e (List.mem_cons_of_mem _ he)
      simp only [List.map_cons, List.sum_cons] at this ⊢
      rw [this, ihs x (List.mem_cons_self ..)]
      ring
  | @mul l r hl hr hf ihl ihr =>
    intro he t s hs
    have el : ∀ y ∈ l.subs, y.hasComponent = false := fun y hy => he y (by simp [subs, hy])
    have er : ∀ y ∈ r.subs, y.hasComponent = false := fun y hy => he y (by simp [subs, hy])
    simp only [mden]
    rcases hf with hf | hf
    · rw [given1 hf el t s hs, given2 hf el t s hs, given3 hf el t s hs, ihr er t s hs]; ring
    · rw [given1 hf er t s hs, given2 hf er t s hs, given3 hf er t s hs, ihl el t s hs]; ring
  | @div l r hl hf ihl =>
    intro he t s hs
    have el : ∀ y ∈ l.subs, y.hasComponent = false := fun y hy => he y (by simp [subs, hy])
    have er : ∀ y ∈ r.subs, y.hasComponent = false := fun y hy => he y (by simp [subs, hy])
    simp only [mden]
    rw [given1 hf er t s hs, given2 hf er t s hs, given3 hf er t s hs, ihl el t s hs]; ring
  | @shift e n _ hf ih =>
    intro he t s hs
    have en : ∀ y ∈ n.subs, y.hasComponent = false := fun y hy => he y (by simp [subs, hy])
    simp only [mden, given1 hf en 0 0 h0, given2 hf en 0 0 h0, given3 hf en 0 0 h0]
    exact ih (fun y hy => he y (by simp [subs, hy])) _ s hs
  | @evalT e n _ hf ih =>
    intro he t s hs
    have en : ∀ y ∈ n.subs, y.hasComponent = false := fun y hy => he y (by simp [subs, hy])
    simp only [mden, given1 hf en 0 0 h0, given2 hf en 0 0 h0, given3 hf en 0 0 h0]
    exact ih (fun y hy => he y (by simp [subs, hy])) _ s hs
  | @tsum e m n _ hm hf ih =>
    intro he t s hs
    have en : ∀ y ∈ n.subs, y.hasComponent = false := fun y hy => he y (by simp [subs, hy])
    have em : ∀ y ∈ m.subs, y.hasComponent = false := fun y hy => he y (by simp [subs, hy])
    simp only [mden, given1 hf en 0 0 h0, given2 hf en 0 0 h0, given3 hf en 0 0 h0, given1 hm em 0 0 h0, given2 hm em 0 0 h0, given3 hm em 0 0 h0,
      ih (fun y hy => he y (by simp [subs, hy])) _ s hs, Finset.mul_sum, Finset.sum_add_distrib]
  | allsum _ ih =>
    intro he t s hs
    simp only [mden, hT1, hT2, hT3, ih (fun y hy => he y (by simp [subs, hy])) _ s hs, Finset.mul_sum, Finset.sum_add_distrib]
  | @scen e o _ ih =>
    intro he t s hs
    simp only [mden, hS1, hS2, hS3]
    rw [Finset.sum_congr rfl fun (v : Nat) hv => ih (fun y hy => he y (by simp [subs, hy])) t v (hP v (Finset.mem_range.1 hv))]
    simp only [← Finset.mul_sum, Finset.sum_add_distrib]
    ring

namespace OptCtx
variable {a : String → String → Prop} {w1 w2 w3 : ℚ} {z x1 x2 x3 : OptCtx}

/-- values in a problem whose variables and amounts are means of those of three problems -/
theorem mixed_readAs (hw : w1 + w2 + w3 = 1) (o1 : z.OtherAmounts a x1) (o2 : z.OtherAmounts a x2) (o3 : z.OtherAmounts a x3)
    (hpar : ∀ c ∈ z.network.allComponents, ∀ n, ∀ t s : Int, 0 ≤ s → s < z.scenarios → z.parameterAt c.id n t s =
      w1 * x1.parameterAt c.id n t s + w2 * x2.parameterAt c.id n t s + w3 * x3.parameterAt c.id n t s) (hS : 0 < z.scenarios)
    (hc : z.Additive a) (hn : z.NetworkOk) (hcl : z.Closed)
    (var v1 v2 v3 : String → String → Option Int → Option Int → ℚ)
    (hv : ∀ c n t s, var c n t s = w1 * v1 c n t s + w2 * v2 c n t s + w3 * v3 c n t s) {c : Component}
    (hm : c ∈ z.network.allComponents) {e : Expr} (he : e.Mixed (a c.id)) (hown : ∀ y ∈ e.subs, y.hasComponent = false) (t s : Int)
    (hs : 0 ≤ s ∧ s < (z.scenarios : Int)) :
    mden (z.readAs (z.unwrapped var) c) e t s = w1 * mden (x1.readAs (x1.unwrapped v1) c) e t s +
      w2 * mden (x2.readAs (x2.unwrapped v2) c) e t s + w3 * mden (x3.readAs (x3.unwrapped v3) c) e t s := by
  have one : ∀ {c : Component}, c ∈ z.network.allComponents → ∀ {e : Expr}, e.Mixed (a c.id) → (∀ y ∈ e.subs, y.hasComponent = false) →
      ∀ {Q Q1 Q2 Q3 : String → String → List (Int → Int → ℚ)} (L : String → String → List PortsConnection)
      (V V1 V2 V3 : String → PortsConnection → Int → Int → ℚ), (∀ p f, Q p f = (L p f).map (V f)) → (∀ p f, Q1 p f = (L p f).map (V1 f)) →
      (∀ p f, Q2 p f = (L p f).map (V2 f)) → (∀ p f, Q3 p f = (L p f).map (V3 f)) →
      (∀ p f, ∀ i ∈ L p f, ∀ t s, (0 ≤ s ∧ s < (z.scenarios : Int)) → V f i t s = w1 * V1 f i t s + w2 * V2 f i t s + w3 * V3 f i t s) →
      ∀ t s, (0 ≤ s ∧ s < (z.scenarios : Int)) →
      mden (componentCtx (z.unwrapped var) c.id Q) e t s = w1 * mden (componentCtx (x1.unwrapped v1) c.id Q1) e t s +
        w2 * mden (componentCtx (x2.unwrapped v2) c.id Q2) e t s + w3 * mden (componentCtx (x3.unwrapped v3) c.id Q3) e t s := by
    intro c hm e he hown Q Q1 Q2 Q3 L V V1 V2 V3 h h1 h2 h3 h4 t s hs
    refine mixed_value (M := componentCtx (z.unwrapped var) c.id Q) (M1 := componentCtx (x1.unwrapped v1) c.id Q1)
      (M2 := componentCtx (x2.unwrapped v2) c.id Q2) (M3 := componentCtx (x3.unwrapped v3) c.id Q3)
      (P := fun s => 0 ≤ s ∧ s < (z.scenarios : Int)) hw ⟨le_rfl, by exact_mod_cast hS⟩
      (fun w hw => ⟨by positivity, by exact_mod_cast hw⟩) o1.length o1.scenarios o2.length o2.scenarios o3.length o3.scenarios
      (fun n t s _ => ?_) (fun n t s hs => hpar c hm n t s hs.1 hs.2) (fun n hn t s hs => o1.data c hm n hn t s hs.1 hs.2)
      (fun n hn t s hs => o2.data c hm n hn t s hs.1 hs.2) (fun n hn t s hs => o3.data c hm n hn t s hs.1 hs.2)
      L V V1 V2 V3 h h1 h2 h3 h4 he hown t s hs
    show var c.id n (atT (z.varIdx c.id n) t) (atS (z.varIdx c.id n) s) =
      w1 * v1 c.id n (atT (x1.varIdx c.id n) t) (atS (x1.varIdx c.id n) s) + w2 * v2 c.id n (atT (x2.varIdx c.id n) t) (atS (x2.varIdx c.id n) s) +
        w3 * v3 c.id n (atT (x3.varIdx c.id n) t) (atS (x3.varIdx c.id n) s)
    rw [looser_varIdx o1.network, looser_varIdx o2.network, looser_varIdx o3.network, hv]
  refine one hm he hown (broughtBy z.network.connections c.id) (fun f j => j.value (z.unwrapped var) f) (fun f j => j.value (x1.unwrapped v1) f)
    (fun f j => j.value (x2.unwrapped v2) f) (fun f j => j.value (x3.unwrapped v3) f) (fun p f => attached_map _ _ _ _ _) (fun p f => ?_)
    (fun p f => ?_) (fun p f => ?_) (fun p f j hj t s hs => ?_) t s hs
  · rw [← attached_map, o1.network]
  · rw [← attached_map, o2.network]
  · rw [← attached_map, o3.network]
  · unfold broughtBy at hj
    obtain ⟨i, hi, hj⟩ := List.mem_flatMap.1 hj
    obtain rfl : j = i := by
      split_ifs at hj <;> simpa using hj
    have side : ∀ (q : PortRef) d, (q = j.port1 ∨ q = j.port2) → q.fieldDef f = some d → q.component ∈ z.network.allComponents →
        mden (componentCtx (z.unwrapped var) q.component.id noPorts) d t s = w1 * mden (componentCtx (x1.unwrapped v1) q.component.id noPorts) d t s +
          w2 * mden (componentCtx (x2.unwrapped v2) q.component.id noPorts) d t s +
            w3 * mden (componentCtx (x3.unwrapped v3) q.component.id noPorts) d t s := fun q d hq hd hm =>
      one hm (hc.ports j hi q f d hq hd) (fun z hz => ((hn.clean j hi q f d hq hd).1 z hz).2.2) (fun _ _ => [])
        (fun _ _ _ _ => 0) (fun _ _ _ _ => 0) (fun _ _ _ _ => 0) (fun _ _ _ _ => 0) (fun _ _ => rfl) (fun _ _ => rfl) (fun _ _ => rfl) (fun _ _ => rfl)
        (fun _ _ _ hi => by cases hi) t s hs
    unfold PortsConnection.value
    cases z1 : j.port1.fieldDef f with
    | some d => exact side _ _ (.inl rfl) z1 (hcl j hi).1
    | none =>
      cases z2 : j.port2.fieldDef f with
      | some d => exact side _ _ (.inr rfl) z2 (hcl j hi).2
      | none => simp

end OptCtx
end Verif
