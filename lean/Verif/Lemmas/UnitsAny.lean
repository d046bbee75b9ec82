import Verif.Spec.UnitsAny
import Verif.Props.RepricedAny

/-! # Values of quantities when the system is larger -/

namespace Verif
open Verif.Expr Verif.OptCtx Verif.Shipped Verif.Props

/-- In `M'` parameters are those of `M` times powers of `k`, and variables lie `a` of the way from `M0` to `M`, times powers of `k`: so do
values of quantities. -/
theorem inUnits_value {M M' M0 : MCtx} {P : Int → Prop} {u : Units} {k a : ℚ} (hk : k ≠ 0) (h0 : P 0) (hw : ∀ w : Nat, w < M.D.S → P w)
    (hT : M'.D.T = M.D.T) (hS : M'.D.S = M.D.S) (hT0 : M0.D.T = M.D.T) (hS0 : M0.D.S = M.D.S)
    (hvar : ∀ n t s, P s → mden M' (.var n) t s = k ^ u.var n * (a * mden M (.var n) t s + (1 - a) * mden M0 (.var n) t s))
    (hpar : ∀ n t s, P s → mden M' (.par n) t s = k ^ u.par n * mden M (.par n) t s)
    (hpar0 : ∀ n t s, P s → mden M0 (.par n) t s = mden M (.par n) t s)
    {ι : Type} (L : String → String → List ι) (V V' V0 : String → ι → Int → Int → ℚ) (hV : ∀ p f, M.ports p f = (L p f).map (V f))
    (hV' : ∀ p f, M'.ports p f = (L p f).map (V' f)) (hV0 : ∀ p f, M0.ports p f = (L p f).map (V0 f))
    (hport : ∀ p f, ∀ i ∈ L p f, ∀ t s, P s → V' f i t s = k ^ u.port p f * (a * V f i t s + (1 - a) * V0 f i t s)) {e : Expr} {z : ℤ}
    (h : e.InUnits u z) : (∀ y ∈ e.subs, y.hasComponent = false) → ∀ t s, P s →
      mden M' e t s = k ^ z * (a * mden M e t s + (1 - a) * mden M0 e t s) := by
  have fixed : ∀ {e : Expr}, e.Fixed → (∀ y ∈ e.subs, y.hasComponent = false) → ∀ t s, P s → mden M0 e t s = mden M e t s :=
    fun {e} hf he => mden_used h0 hw hT0 hS0 e (fun n hn => absurd hn (hf.1 n)) (fun n _ => hpar0 n) (fun p f hn => absurd hn (hf.2 p f)) he
  induction h with
  | zero w => intro _ t s _; show (0 : ℚ) = k ^ w * (a * 0 + (1 - a) * 0); ring
  | @infinite v w hv =>
    intro _ t s _
    cases v with
    | fin q => simp [Num.isFin] at hv
    | pinf => simp [mden]
    | ninf => simp [mden]
    | nan => simp [mden]
  | number v =>
    intro _ t s _
    cases v with
    | fin q => simp only [mden, zpow_zero]; ring
    | pinf => simp [mden]
    | ninf => simp [mden]
    | nan => simp [mden]
  | unknown n => exact fun _ t s hs => hvar n t s hs
  | parameter n => intro _ t s hs; rw [hpar n t s hs, hpar0 n t s hs]; ring
  | port p f =>
    intro _ t s hs
    simp only [mden, hV, hV', hV0]
    have hp := hport p f
    generalize L p f = l at hp
    rcases l with _ | ⟨i, _ | ⟨j, l⟩⟩
    · simp
    · exact hp i (by simp) t s hs
    · simp
  | total p f g =>
    intro _ t s hs
    simp only [mden, hV, hV', hV0, List.map_map]
    have hp := hport p f
    generalize L p f = l at hp
    induction l with
    | nil => simp
    | cons i l ih =>
      have := ih fun i hi => hp i (List.mem_cons_of_mem _ hi)
      simp only [List.map_cons, List.sum_cons, Function.comp_apply] at this ⊢
      rw [this, hp i (List.mem_cons_self ..) t s hs]
      ring
  | neg _ ih =>
    intro he t s hs
    simp only [mden, ih (fun y hy => he y (by simp [subs, hy])) t s hs]
    ring
  | @add es w hes ih =>
    intro he t s hs
    rw [mden_add, mden_add, mden_add]
    have ihs : ∀ e ∈ es, mden M' e t s = k ^ w * (a * mden M e t s + (1 - a) * mden M0 e t s) :=
      fun x hx => ih x hx (fun y hy => he y (mem_subs_add.2 (.inr ⟨x, hx, hy⟩))) t s hs
    clear hes he ih
    induction es with
    | nil => simp
    | cons x l ihl =>
      have := ihl fun e he => ihs e (List.mem_cons_of_mem _ he)
      simp only [List.map_cons, List.sum_cons] at this ⊢
      rw [this, ihs x (List.mem_cons_self ..)]
      ring
  | @mul l r w w' hl hr hf ihl ihr =>
    intro he t s hs
    have el : ∀ y ∈ l.subs, y.hasComponent = false := fun y hy => he y (by simp [subs, hy])
    have er : ∀ y ∈ r.subs, y.hasComponent = false := fun y hy => he y (by simp [subs, hy])
    simp only [mden, ihl el t s hs, ihr er t s hs, zpow_add₀ hk]
    rcases hf with hf | hf
    · rw [fixed hf el t s hs]; ring
    · rw [fixed hf er t s hs]; ring
  | @div l r w w' hl hr hf ihl ihr =>
    intro he t s hs
    have el : ∀ y ∈ l.subs, y.hasComponent = false := fun y hy => he y (by simp [subs, hy])
    have er : ∀ y ∈ r.subs, y.hasComponent = false := fun y hy => he y (by simp [subs, hy])
    simp only [mden, ihl el t s hs, ihr er t s hs, zpow_sub₀ hk]
    rw [fixed hf er t s hs]
    have : a * mden M r t s + (1 - a) * mden M r t s = mden M r t s := by ring
    rw [this, mul_div_mul_comm]
    ring
  | @shift e n w _ _ hf ih ihn =>
    intro he t s hs
    have en : ∀ y ∈ n.subs, y.hasComponent = false := fun y hy => he y (by simp [subs, hy])
    have a1 := ihn en 0 0 h0
    have a2 := fixed hf en 0 0 h0
    have a3 : mden M' n 0 0 = mden M n 0 0 := by rw [a1, a2]; simp; ring
    simp only [mden, a2, a3]
    exact ih (fun y hy => he y (by simp [subs, hy])) _ s hs
  | @evalT e n w _ _ hf ih ihn =>
    intro he t s hs
    have en : ∀ y ∈ n.subs, y.hasComponent = false := fun y hy => he y (by simp [subs, hy])
    have a1 := ihn en 0 0 h0
    have a2 := fixed hf en 0 0 h0
    have a3 : mden M' n 0 0 = mden M n 0 0 := by rw [a1, a2]; simp; ring
    simp only [mden, a2, a3]
    exact ih (fun y hy => he y (by simp [subs, hy])) _ s hs
  | @tsum e n m w _ _ hf _ hf' ih ihn ihm =>
    intro he t s hs
    have en : ∀ y ∈ n.subs, y.hasComponent = false := fun y hy => he y (by simp [subs, hy])
    have em : ∀ y ∈ m.subs, y.hasComponent = false := fun y hy => he y (by simp [subs, hy])
    have a2 := fixed hf en 0 0 h0
    have b2 := fixed hf' em 0 0 h0
    have a3 : mden M' n 0 0 = mden M n 0 0 := by rw [ihn en 0 0 h0, a2]; simp; ring
    have b3 : mden M' m 0 0 = mden M m 0 0 := by rw [ihm em 0 0 h0, b2]; simp; ring
    simp only [mden, a2, a3, b2, b3, ih (fun y hy => he y (by simp [subs, hy])) _ s hs, ← Finset.mul_sum, Finset.sum_add_distrib]
  | allsum _ ih =>
    intro he t s hs
    simp only [mden, hT, hT0, ih (fun y hy => he y (by simp [subs, hy])) _ s hs, ← Finset.mul_sum, Finset.sum_add_distrib]
  | @scen e o w _ ih =>
    intro he t s hs
    simp only [mden, hS, hS0]
    rw [Finset.sum_congr rfl fun (v : Nat) hv => ih (fun y hy => he y (by simp [subs, hy])) t v (hw v (Finset.mem_range.1 hv))]
    simp only [← Finset.mul_sum, Finset.sum_add_distrib]
    ring

/-- the connections that bring something to a port -/
def broughtBy (cs : List PortsConnection) (id port f : String) : List PortsConnection :=
  cs.flatMap fun c => if c.hasField f then (if c.port1.component.id = id ∧ c.port1.portId = port then [c] else []) ++
    (if c.port2.component.id = id ∧ c.port2.portId = port then [c] else []) else []

theorem attached_map (D : DenCtx) (cs : List PortsConnection) (id port f : String) :
    attached D cs id port f = (broughtBy cs id port f).map fun c => c.value D f := by
  unfold attached broughtBy
  rw [List.map_flatMap]
  refine List.flatMap_congr fun c _ => ?_
  unfold PortsConnection.brings
  split_ifs <;> simp

namespace OptCtx
variable {k a : ℚ} {u : String → Units} {w : ℤ} {x y : OptCtx}

/-- values at variables that lie `a` of the way from `var0` to `var`, times powers of `k` -/
theorem Rescaled.value (h : x.Rescaled k u y) (hk : k ≠ 0) (hS : 0 < x.scenarios) (hc : x.Consistent u w) (hn : x.NetworkOk) (hcl : x.Closed)
    (var var' var0 : String → String → Option Int → Option Int → ℚ)
    (hv : ∀ c n t s, var' c n t s = k ^ (u c).var n * (a * var c n t s + (1 - a) * var0 c n t s)) {c : Component}
    (hm : c ∈ x.network.allComponents) {e : Expr} {z : ℤ} (he : e.InUnits (u c.id) z) (hown : ∀ y ∈ e.subs, y.hasComponent = false) (t s : Int)
    (hs : 0 ≤ s ∧ s < (x.scenarios : Int)) :
    mden (y.readAs (y.unwrapped var') c) e t s =
      k ^ z * (a * mden (x.readAs (x.unwrapped var) c) e t s + (1 - a) * mden (x.readAs (x.unwrapped var0) c) e t s) := by
  have one : ∀ {c : Component}, c ∈ x.network.allComponents → ∀ {e : Expr} {z : ℤ}, e.InUnits (u c.id) z → (∀ y ∈ e.subs, y.hasComponent = false) →
      ∀ {Q Q' Q0 : String → String → List (Int → Int → ℚ)} (L : String → String → List PortsConnection)
      (V V' V0 : String → PortsConnection → Int → Int → ℚ), (∀ p f, Q p f = (L p f).map (V f)) → (∀ p f, Q' p f = (L p f).map (V' f)) →
      (∀ p f, Q0 p f = (L p f).map (V0 f)) → (∀ p f, ∀ i ∈ L p f, ∀ t s, (0 ≤ s ∧ s < (x.scenarios : Int)) →
        V' f i t s = k ^ (u c.id).port p f * (a * V f i t s + (1 - a) * V0 f i t s)) → ∀ t s, (0 ≤ s ∧ s < (x.scenarios : Int)) →
      mden (componentCtx (y.unwrapped var') c.id Q') e t s =
        k ^ z * (a * mden (componentCtx (x.unwrapped var) c.id Q) e t s + (1 - a) * mden (componentCtx (x.unwrapped var0) c.id Q0) e t s) := by
    intro c hm e z he hown Q Q' Q0 L V V' V0 h1 h2 h3 h4 t s hs
    refine inUnits_value (M := componentCtx (x.unwrapped var) c.id Q) (M' := componentCtx (y.unwrapped var') c.id Q')
      (M0 := componentCtx (x.unwrapped var0) c.id Q0) (P := fun s => 0 ≤ s ∧ s < (x.scenarios : Int)) hk ⟨le_rfl, by exact_mod_cast hS⟩
      (fun w hw => ⟨by positivity, by exact_mod_cast hw⟩) h.length h.scenarios rfl rfl (fun n t s _ => ?_)
      (fun n t s hs => h.data c hm n t s hs.1 hs.2) (fun n t s _ => rfl) L V V' V0 h1 h2 h3 h4 he hown t s hs
    show var' c.id n (atT (y.varIdx c.id n) t) (atS (y.varIdx c.id n) s) = k ^ (u c.id).var n *
      (a * var c.id n (atT (x.varIdx c.id n) t) (atS (x.varIdx c.id n) s) + (1 - a) * var0 c.id n (atT (x.varIdx c.id n) t) (atS (x.varIdx c.id n) s))
    rw [looser_varIdx h.network, hv]
  refine one hm he hown (broughtBy x.network.connections c.id) (fun f j => j.value (x.unwrapped var) f) (fun f j => j.value (y.unwrapped var') f)
    (fun f j => j.value (x.unwrapped var0) f) (fun p f => attached_map _ _ _ _ _) (fun p f => ?_) (fun p f => attached_map _ _ _ _ _)
    (fun p f j hj t s hs => ?_) t s hs
  · rw [← attached_map, h.network]
  · unfold broughtBy at hj
    obtain ⟨i, hi, hj⟩ := List.mem_flatMap.1 hj
    have : i = j ∧ ∃ r, (r = j.port1 ∨ r = j.port2) ∧ r.component.id = c.id ∧ r.portId = p := by
      split_ifs at hj with g1 g2 g3 g3
      · have : j = i := by simpa using hj
        exact ⟨this.symm, _, .inl rfl, by rw [this]; exact g2⟩
      · have : j = i := by simpa using hj
        exact ⟨this.symm, _, .inl rfl, by rw [this]; exact g2⟩
      · have : j = i := by simpa using hj
        exact ⟨this.symm, _, .inr rfl, by rw [this]; exact g3⟩
      · simp at hj
      · simp at hj
    obtain ⟨rfl, r, hr, r1, r2⟩ := this
    have side : ∀ (q : PortRef) d, (q = i.port1 ∨ q = i.port2) → q.fieldDef f = some d → q.component ∈ x.network.allComponents →
        mden (componentCtx (y.unwrapped var') q.component.id noPorts) d t s = k ^ (u c.id).port p f *
          (a * mden (componentCtx (x.unwrapped var) q.component.id noPorts) d t s +
            (1 - a) * mden (componentCtx (x.unwrapped var0) q.component.id noPorts) d t s) := fun q d hq hd hm =>
      one hm (by rw [← r1, ← r2]; exact hc.ports i hi q f d hq hd r hr) (fun z hz => ((hn.clean i hi q f d hq hd).1 z hz).2.2) (fun _ _ => [])
        (fun _ _ _ _ => 0) (fun _ _ _ _ => 0) (fun _ _ _ _ => 0) (fun _ _ => rfl) (fun _ _ => rfl) (fun _ _ => rfl) (fun _ _ _ hi => by cases hi) t s hs
    unfold PortsConnection.value
    cases z1 : i.port1.fieldDef f with
    | some d => exact side _ _ (.inl rfl) z1 (hcl i hi).1
    | none =>
      cases z2 : i.port2.fieldDef f with
      | some d => exact side _ _ (.inr rfl) z2 (hcl i hi).2
      | none => simp

end OptCtx
end Verif
