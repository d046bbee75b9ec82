import Verif.Lemmas.StudyMeaning

/-! # Expressions without time shifts are read inside the block -/

namespace Verif
open Verif.Expr Verif.OptCtx Verif.Shipped Verif.Props

/-- not a time shift, a timestep or a time window -/
def Expr.staysInBlock : Expr → Bool
  | .shift .. => false
  | .evalT .. => false
  | .tsum .. => false
  | _ => true

theorem mden_congr_block {M M' : MCtx} (hc : M.comp = M'.comp) (hp : M.D.env.par = M'.D.env.par) (hvi : M.D.vidx = M'.D.vidx)
    (hpi : M.D.pidx = M'.D.pidx) (hT : M.D.T = M'.D.T) (hS : M.D.S = M'.D.S)
    (hv : ∀ c v (t s : Option Int), (∀ u, t = some u → 0 ≤ u ∧ u < (M.D.T : Int)) → M.D.env.var c v t s = M'.D.env.var c v t s)
    (hports : ∀ p f (t s : Int), 0 ≤ t → t < (M.D.T : Int) → (M.ports p f).map (fun v => v t s) = (M'.ports p f).map fun v => v t s)
    (e : Expr) : (∀ y ∈ e.subs, y.hasComponent = false ∧ y.staysInBlock = true) → ∀ t s : Int, 0 ≤ t → t < (M.D.T : Int) → mden M e t s = mden M' e t s := by
  induction e using Expr.ind with
  | lit v => intro _ t s _ _; cases v <;> simp [mden]
  | var n =>
    intro _ t s h0 h1
    simp only [mden, hc, hvi]
    refine hv _ _ _ _ fun u hu => ?_
    unfold atT at hu
    split_ifs at hu
    cases hu
    exact ⟨h0, h1⟩
  | par n => intro _ t s _ _; simp only [mden, hc, hp, hpi]
  | portField p f =>
    intro _ t s h0 h1
    have := hports p f t s h0 h1
    simp only [mden]
    generalize M.ports p f = l at this
    generalize M'.ports p f = l' at this
    rcases l with _ | ⟨a, _ | ⟨b, l⟩⟩ <;> rcases l' with _ | ⟨a', _ | ⟨b', l'⟩⟩ <;> simp_all
  | agg e a _ =>
    intro _ t s h0 h1
    cases e with
    | portField p f => simp only [mden, hports p f t s h0 h1]
    | _ => simp [mden]
  | cmp l r c _ _ => intro _ t s _ _; simp [mden]
  | cvar c n => intro h; exact absurd (h _ (mem_subs_self _)).1 (by simp [hasComponent])
  | cpar c n => intro h; exact absurd (h _ (mem_subs_self _)).1 (by simp [hasComponent])
  | pvar c n ti si => intro h; exact absurd (h _ (mem_subs_self _)).1 (by simp [hasComponent])
  | ppar c n ti si => intro h; exact absurd (h _ (mem_subs_self _)).1 (by simp [hasComponent])
  | add es ih =>
    intro h t s h0 h1
    rw [mden_add, mden_add]
    congr 1
    exact List.map_congr_left fun x hx => ih x hx (fun y hy => h y (mem_subs_add.2 (.inr ⟨x, hx, hy⟩))) t s h0 h1
  | neg e ih => intro h t s h0 h1; simp only [mden, ih (fun y hy => h y (by simp [subs, hy])) _ _ h0 h1]
  | mul l r ihl ihr =>
    intro h t s h0 h1
    simp only [mden, ihl (fun y hy => h y (by simp [subs, hy])) _ _ h0 h1, ihr (fun y hy => h y (by simp [subs, hy])) _ _ h0 h1]
  | div l r ihl ihr =>
    intro h t s h0 h1
    simp only [mden, ihl (fun y hy => h y (by simp [subs, hy])) _ _ h0 h1, ihr (fun y hy => h y (by simp [subs, hy])) _ _ h0 h1]
  | shift e k ih ihk => intro h; exact absurd (h _ (mem_subs_self _)).2 (by simp [staysInBlock])
  | evalT e k ih ihk => intro h; exact absurd (h _ (mem_subs_self _)).2 (by simp [staysInBlock])
  | tsum e a b ih iha ihb => intro h; exact absurd (h _ (mem_subs_self _)).2 (by simp [staysInBlock])
  | allsum e ih =>
    intro h t s _ _
    simp only [mden, hT]
    refine Finset.sum_congr rfl fun u hu => ?_
    have := Finset.mem_range.1 hu
    exact ih (fun y hy => h y (by simp [subs, hy])) _ _ (by positivity) (by rw [hT]; exact_mod_cast this)
  | scen e o ih =>
    intro h t s h0 h1
    simp only [mden, hS]
    congr 1
    exact Finset.sum_congr rfl fun w _ => ih (fun y hy => h y (by simp [subs, hy])) _ _ h0 h1

theorem shipped_definitions_stay : ∀ x ∈ shippedModels, ∀ kd ∈ x.2.1.portFieldsDefinitions,
    ∀ y ∈ kd.2.definition.subs, y.staysInBlock = true := by
  have : ∀ x ∈ shippedModels.map (·.2.1), ∀ kd ∈ x.portFieldsDefinitions, ∀ y ∈ kd.2.definition.subs, y.staysInBlock = true := by
    decide +kernel
  exact fun x hx => this x.2.1 (List.mem_map.2 ⟨x, hx, rfl⟩)

namespace StudyInput.Linked
variable {I : StudyInput} {net : Network} {db : DataBase}

/-- the values of the instances when variables have the values `var` at any timestep -/
def wrapped (var : String → String → Option Int → Option Int → ℚ) : TermKey → ℚ := fun k => var k.component k.var k.time k.scenario

theorem mden_block (h : I.Linked net) (var : String → String → Option Int → Option Int → ℚ) {c : Component} (e : Expr)
    (he : ∀ y ∈ e.subs, y.hasComponent = false ∧ y.staysInBlock = true) (t s : Int) (h0 : 0 ≤ t) (h1 : t < I.steps.length) :
    mden ((I.context net db).readAs ((I.context net db).unwrapped var) c) e t s = mden ((I.context net db).readIn (wrapped var) c) e t s := by
  have hvar : ∀ c v t s, (∀ u, t = some u → 0 ≤ u ∧ u < ((I.context net db).T : Int)) →
      var c v t s = wrapped var ⟨c, v, t.map (· % (I.context net db).T), s⟩ := by
    intro c v t s ht
    cases t with
    | none => rfl
    | some u =>
      obtain ⟨u0, u1⟩ := ht u rfl
      simp only [wrapped, Option.map_some, Int.emod_eq_of_lt u0 u1]
  refine mden_congr_block (M := (I.context net db).readAs ((I.context net db).unwrapped var) c)
    (M' := (I.context net db).readIn (wrapped var) c) rfl rfl rfl rfl rfl rfl hvar ?_ e he t s h0 h1
  intro p f t s t0 t1
  show (attached _ net.connections c.id p f).map _ = (attached _ net.connections c.id p f).map _
  unfold attached
  have hval : ∀ k ∈ net.connections, k.value ((I.context net db).unwrapped var) f t s =
      k.value ((I.context net db).reading (wrapped var)) f t s := by
    intro k hk
    obtain ⟨ic, -, g1, -, g2, -, -⟩ := forall₂_mem_right h.conns hk
    have key : ∀ (r : PortRef) d, r.component ∈ net.allComponents → r.fieldDef f = some d →
        mden (componentCtx ((I.context net db).unwrapped var) r.component.id noPorts) d t s =
        mden (componentCtx ((I.context net db).reading (wrapped var)) r.component.id noPorts) d t s := by
      intro r d hm hd
      refine mden_congr_block (M := componentCtx ((I.context net db).unwrapped var) r.component.id noPorts)
        (M' := componentCtx ((I.context net db).reading (wrapped var)) r.component.id noPorts) rfl rfl rfl rfl rfl rfl hvar (fun _ _ _ _ _ _ => rfl) d (fun y hy => ?_) t s t0 t1
      obtain ⟨ic, -, -, R, hR⟩ := h.rules hm
      obtain ⟨d', hd', rfl⟩ := Option.map_eq_some_iff.1 hd
      refine ⟨?_, shipped_definitions_stay _ hR _ (Dict.mem_of_get? hd') y hy⟩
      have := ((h.checked hm).fieldDef_ok hd').1 y hy
      simp only [defNodeOk, Bool.and_eq_true, Bool.not_eq_true'] at this
      exact this.1.1.1.2
    unfold PortsConnection.value
    cases hd1 : k.port1.fieldDef f with
    | some d => exact key k.port1 d (getComponent_mem g1).1 hd1
    | none =>
      dsimp only
      cases hd2 : k.port2.fieldDef f with
      | some d => exact key k.port2 d (getComponent_mem g2).1 hd2
      | none => rfl
  generalize net.connections = cs at hval
  induction cs with
  | nil => rfl
  | cons k cs ih =>
    rw [List.flatMap_cons, List.flatMap_cons, List.map_append, List.map_append, ih (fun k hk => hval k (by simp [hk]))]
    congr 1
    unfold PortsConnection.brings
    have := hval k (by simp)
    split_ifs <;> simp [this]

end StudyInput.Linked
end Verif
