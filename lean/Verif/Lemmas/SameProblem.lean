import Verif.Spec.SameProblem
import Verif.Lemmas.RearrangedKept

/-!
# Parts of networks

The components of a part of a network have the same readings in the problem of the part and in that of the network.
-/

namespace Verif
open Verif.Expr Verif.OptCtx Verif.Props

theorem mem_map_called {ρ : String → String} {c : Component} {l : List Component} (h : c ∈ l) : c.called ρ ∈ l.map (Component.called ρ) :=
  List.mem_map_of_mem h

/-- The network of `x` is, under the names of `ρ`, a part of that of `x'` with no connection to the rest. -/
structure OptCtx.Part (ρ : String → String) (x x' : OptCtx) : Prop where
  frame : x.SameFrame x'
  distinct : ∀ c ∈ x.network.allComponents, ∀ c' ∈ x.network.allComponents, ρ c.id = ρ c'.id → c.id = c'.id
  components : ∀ c ∈ x.network.allComponents, c.called ρ ∈ x'.network.allComponents
  connections : ∃ l rest, List.Forall₂ (SameLink ρ) x.network.connections l ∧ (l ++ rest).Perm x'.network.connections ∧
    ∀ k ∈ rest, ∀ c ∈ x.network.allComponents, k.port1.component.id ≠ ρ c.id ∧ k.port2.component.id ≠ ρ c.id
  data : ∀ c ∈ x.network.allComponents, ∀ n t s, 0 ≤ s → x'.parameterAt (ρ c.id) n t s = x.parameterAt c.id n t s

namespace OptCtx.Part

variable {ρ : String → String} {x x' : OptCtx}

theorem T_eq (h : Part ρ x x') : x'.T = x.T := by unfold OptCtx.T; rw [h.frame.timesteps]

/-- the same data give the same values -/
theorem _root_.Verif.OptCtx.SameFrame.parameterAt (h : x.SameFrame x') {c : Component} (g : x.network.getComponent c.id = .ok c)
    (g' : x'.network.getComponent (ρ c.id) = .ok (c.called ρ)) {n : String} (hd : x'.database.get? (ρ c.id, n) = x.database.get? (c.id, n))
    (t s : Int) : x'.parameterAt (ρ c.id) n t s = x.parameterAt c.id n t s := by
  have hT : x'.T = x.T := by unfold OptCtx.T; rw [h.timesteps]
  have hidx : x'.parIdx (ρ c.id) n = x.parIdx c.id n := by
    unfold OptCtx.parIdx
    rw [g, g']
    rfl
  have hb : x'.blockTime = x.blockTime := by
    funext t
    unfold OptCtx.blockTime
    rw [hT, h.timesteps]
  unfold OptCtx.parameterAt OptCtx.dataValue
  rw [hidx, hd, hb, h.treeNode]

theorem own_value (h : Part ρ x x') (hn : x.NetworkOk) (hn' : x'.NetworkOk)
    {var var' : String → String → Option Int → Option Int → ℚ}
    (hv : ∀ c ∈ x.network.allComponents, ∀ n t s, var' (ρ c.id) n t s = var c.id n t s)
    {c : Component} (hc : c ∈ x.network.allComponents) {P P' : String → String → List (Int → Int → ℚ)}
    (hP : ∀ p f t s, 0 ≤ s → ((P p f).map fun v => v t s).Perm ((P' p f).map fun v => v t s)) {e : Expr}
    (he : ∀ y ∈ e.subs, y.hasComponent = false) (t s : Int) (hs0 : 0 ≤ s) :
    mden (componentCtx (x.unwrapped var) c.id P) e t s = mden (componentCtx (x'.unwrapped var') (ρ c.id) P') e t s := by
  have g : x.network.getComponent c.id = .ok c := getComponent_of_mem hn hc
  have g' : x'.network.getComponent (ρ c.id) = .ok (c.called ρ) := getComponent_of_mem hn' (h.components c hc)
  have hT := h.T_eq
  refine mden_congr_perm (P := fun s => 0 ≤ s) (fun _ h => h) (M := componentCtx (x.unwrapped var) c.id P) (M' := componentCtx (x'.unwrapped var') (ρ c.id) P')
    hT.symm h.frame.scenarios.symm ?_ ?_ hP e he t s hs0
  · intro n t s
    have hidx : x'.varIdx (ρ c.id) n = x.varIdx c.id n := by
      unfold OptCtx.varIdx
      rw [g, g']
      rfl
    show var c.id n (atT (x.varIdx c.id n) t) (atS (x.varIdx c.id n) s) =
      var' (ρ c.id) n (atT (x'.varIdx (ρ c.id) n) t) (atS (x'.varIdx (ρ c.id) n) s)
    rw [hidx, hv c hc]
  · intro n t s hs0
    exact (h.data c hc n t s hs0).symm

theorem brings (h : Part ρ x x') (hn : x.NetworkOk) (hn' : x'.NetworkOk) (hcl : x.Closed)
    {var var' : String → String → Option Int → Option Int → ℚ}
    (hv : ∀ c ∈ x.network.allComponents, ∀ n t s, var' (ρ c.id) n t s = var c.id n t s)
    {q q' : PortsConnection} (hqm : q ∈ x.network.connections) (hk : SameLink ρ q q')
    {c : Component} (hc : c ∈ x.network.allComponents) (port f : String) (t s : Int) (hs0 : 0 ≤ s) :
    ((q.brings (x.unwrapped var) c.id port f).map fun v => v t s).Perm
      ((q'.brings (x'.unwrapped var') (ρ c.id) port f).map fun v => v t s) := by
  obtain ⟨m1, m2⟩ := hcl q hqm
  have hclean := hn.clean q hqm
  obtain ⟨hmade, hk1, hk2⟩ := hn.accepted q hqm
  have n1 : ρ q.port1.component.id = ρ c.id ↔ q.port1.component.id = c.id := ⟨h.distinct _ m1 _ hc, fun z => by rw [z]⟩
  have n2 : ρ q.port2.component.id = ρ c.id ↔ q.port2.component.id = c.id := ⟨h.distinct _ m2 _ hc, fun z => by rw [z]⟩
  obtain ⟨p1, p2, g1, g2, hty, hone, -, -, -, -⟩ := make_ok hmade
  have side : ∀ (r : PortRef), (r = q.port1 ∨ r = q.port2) → r.component ∈ x.network.allComponents →
      (r.called ρ).fieldDef f = r.fieldDef f ∧ (r.called ρ).type? = r.type? ∧
        ∀ d, r.fieldDef f = some d → mden (componentCtx (x.unwrapped var) r.component.id noPorts) d t s =
          mden (componentCtx (x'.unwrapped var') (r.called ρ).component.id noPorts) d t s := by
    intro r hr hm
    exact ⟨rfl, rfl, fun d hd => h.own_value hn hn' hv hm (fun _ _ _ _ _ => .refl _)
      (fun y hy => ((hclean r f d hr hd).1 y hy).2.2) t s hs0⟩
  obtain ⟨f1, y1, v1⟩ := side q.port1 (.inl rfl) m1
  obtain ⟨f2, y2, v2⟩ := side q.port2 (.inr rfl) m2
  rcases hk with ⟨e1, e2⟩ | ⟨e1, e2⟩
  · have hval : q.value (x.unwrapped var) f t s = q'.value (x'.unwrapped var') f t s := by
      unfold PortsConnection.value
      rw [e1, e2, f1, f2]
      cases z1 : q.port1.fieldDef f with
      | some d => exact v1 d z1
      | none =>
        cases z2 : q.port2.fieldDef f with
        | some d => exact v2 d z2
        | none => rfl
    have hfield : q'.hasField f ↔ q.hasField f := by unfold PortsConnection.hasField; rw [e1, y1]
    unfold PortsConnection.brings
    rw [e1, e2]
    show (List.map _ (if q.hasField f then _ else _)).Perm (List.map _ (if q'.hasField f then
      (if ρ q.port1.component.id = ρ c.id ∧ q.port1.portId = port then _ else _) ++
      (if ρ q.port2.component.id = ρ c.id ∧ q.port2.portId = port then _ else _) else _))
    simp only [hfield, n1, n2]
    split_ifs <;> simp [hval]
  · have hfield : q'.hasField f ↔ q.hasField f := by
      unfold PortsConnection.hasField
      rw [e1, y2]
      unfold PortRef.type?
      rw [g1, g2, Option.map_some, Option.map_some, hty]
    have hval : q.hasField f → q.value (x.unwrapped var) f t s = q'.value (x'.unwrapped var') f t s := by
      rintro ⟨ty, hy, hin⟩
      unfold PortRef.type? at hy
      rw [g1] at hy
      cases hy
      have hone := hone f hin
      have hnot : q.port1.fieldDef f = none ∨ q.port2.fieldDef f = none := by
        have k1 : p1.portName = q.port1.portId := hk1 _ _ g1
        have k2 : p2.portName = q.port2.portId := hk2 _ _ g2
        unfold oneSide at hone
        rw [k1, k2] at hone
        unfold PortRef.fieldDef
        rcases hone with ⟨-, z⟩ | ⟨z, -⟩
        · right; simpa [Dict.contains] using z
        · left; simpa [Dict.contains] using z
      unfold PortsConnection.value
      rw [e1, e2, f1, f2]
      cases z1 : q.port1.fieldDef f with
      | some d =>
        rcases hnot with z | z
        · rw [z1] at z; cases z
        · rw [z]; exact v1 d z1
      | none =>
        cases z2 : q.port2.fieldDef f with
        | some d => exact v2 d z2
        | none => rfl
    unfold PortsConnection.brings
    rw [e1, e2]
    show (List.map _ (if q.hasField f then _ else _)).Perm (List.map _ (if q'.hasField f then
      (if ρ q.port2.component.id = ρ c.id ∧ q.port2.portId = port then _ else _) ++
      (if ρ q.port1.component.id = ρ c.id ∧ q.port1.portId = port then _ else _) else _))
    simp only [hfield, n1, n2]
    by_cases hf : q.hasField f
    · have := hval hf
      split_ifs <;> simp [this]
    · rw [if_neg hf, if_neg hf]

theorem attached_perm (h : Part ρ x x') (hn : x.NetworkOk) (hn' : x'.NetworkOk) (hcl : x.Closed)
    {var var' : String → String → Option Int → Option Int → ℚ}
    (hv : ∀ c ∈ x.network.allComponents, ∀ n t s, var' (ρ c.id) n t s = var c.id n t s)
    {c : Component} (hc : c ∈ x.network.allComponents) (port f : String) (t s : Int) (hs0 : 0 ≤ s) :
    ((attached (x.unwrapped var) x.network.connections c.id port f).map fun v => v t s).Perm
      ((attached (x'.unwrapped var') x'.network.connections (ρ c.id) port f).map fun v => v t s) := by
  obtain ⟨l, rest, h1, h2, h3⟩ := h.connections
  unfold attached
  refine List.Perm.trans ?_ ((h2.flatMap_right _).map _)
  have hz : ∀ q ∈ rest, q.brings (x'.unwrapped var') (ρ c.id) port f = [] := by
    intro q hq
    obtain ⟨a, b⟩ := h3 q hq c hc
    unfold PortsConnection.brings
    simp [a, b]
  rw [List.flatMap_append, List.flatMap_eq_nil_iff.2 hz, List.append_nil]
  have key : ∀ N l, List.Forall₂ (SameLink ρ) N l → (∀ q ∈ N, q ∈ x.network.connections) →
      ((N.flatMap fun q => q.brings (x.unwrapped var) c.id port f).map fun v => v t s).Perm
        ((l.flatMap fun q => q.brings (x'.unwrapped var') (ρ c.id) port f).map fun v => v t s) := by
    intro N l hl
    induction hl with
    | nil => intro _; exact .refl _
    | cons e _ ih =>
      intro hN
      rw [List.flatMap_cons, List.flatMap_cons, List.map_append, List.map_append]
      exact (h.brings hn hn' hcl hv (hN _ (.head _)) e hc port f t s hs0).append (ih fun q hq => hN q (.tail _ hq))
  exact key _ _ h1 fun _ hq => hq

/-- expressions of a component depend on the same things if its port fields do -/
theorem own_depends (h : Part ρ x x') (hn : x.NetworkOk) (hn' : x'.NetworkOk) {c : Component} (hc : c ∈ x.network.allComponents)
    {P P' : String → String → Idx} (hP : ∀ p f, P' p f = P p f) {e : Expr} (he : ∀ y ∈ e.subs, y.hasComponent = false) :
    depends (x'.symbols (ρ c.id) P') e = depends (x.symbols c.id P) e := by
  have g : x.network.getComponent c.id = .ok c := getComponent_of_mem hn hc
  have g' : x'.network.getComponent (ρ c.id) = .ok (c.called ρ) := getComponent_of_mem hn' (h.components c hc)
  refine depends_congr ?_ ?_ hP e he
  · intro n
    show x'.varIdx (ρ c.id) n = x.varIdx c.id n
    unfold OptCtx.varIdx
    rw [g, g']
    rfl
  · intro n
    show x'.parIdx (ρ c.id) n = x.parIdx c.id n
    unfold OptCtx.parIdx
    rw [g, g']
    rfl

theorem bringsDep (h : Part ρ x x') (hn : x.NetworkOk) (hn' : x'.NetworkOk) (hcl : x.Closed)
    {q q' : PortsConnection} (hqm : q ∈ x.network.connections) (hk : SameLink ρ q q')
    {c : Component} (hc : c ∈ x.network.allComponents) (port f : String) :
    (x.bringsDep q c.id port f).Perm (x'.bringsDep q' (ρ c.id) port f) := by
  obtain ⟨m1, m2⟩ := hcl q hqm
  have hclean := hn.clean q hqm
  obtain ⟨hmade, hk1, hk2⟩ := hn.accepted q hqm
  have n1 : ρ q.port1.component.id = ρ c.id ↔ q.port1.component.id = c.id := ⟨h.distinct _ m1 _ hc, fun z => by rw [z]⟩
  have n2 : ρ q.port2.component.id = ρ c.id ↔ q.port2.component.id = c.id := ⟨h.distinct _ m2 _ hc, fun z => by rw [z]⟩
  obtain ⟨p1, p2, g1, g2, hty, hone, -, -, -, -⟩ := make_ok hmade
  have side : ∀ (r : PortRef), (r = q.port1 ∨ r = q.port2) → r.component ∈ x.network.allComponents →
      (r.called ρ).fieldDef f = r.fieldDef f ∧ (r.called ρ).type? = r.type? ∧
        ∀ d, r.fieldDef f = some d → depends (x.symbols r.component.id fun _ _ => ⟨false, false⟩) d =
          depends (x'.symbols (r.called ρ).component.id fun _ _ => ⟨false, false⟩) d := by
    intro r hr hm
    exact ⟨rfl, rfl, fun d hd => (h.own_depends hn hn' hm (fun _ _ => rfl) (fun y hy => ((hclean r f d hr hd).1 y hy).2.2)).symm⟩
  obtain ⟨f1, y1, v1⟩ := side q.port1 (.inl rfl) m1
  obtain ⟨f2, y2, v2⟩ := side q.port2 (.inr rfl) m2
  rcases hk with ⟨e1, e2⟩ | ⟨e1, e2⟩
  · have hval : x.fieldDepends q f = x'.fieldDepends q' f := by
      unfold OptCtx.fieldDepends
      rw [e1, e2, f1, f2]
      cases z1 : q.port1.fieldDef f with
      | some d => exact v1 d z1
      | none =>
        cases z2 : q.port2.fieldDef f with
        | some d => exact v2 d z2
        | none => rfl
    have hfield : q'.hasField f ↔ q.hasField f := by unfold PortsConnection.hasField; rw [e1, y1]
    unfold OptCtx.bringsDep
    rw [e1, e2]
    show List.Perm (if q.hasField f then _ else _) (if q'.hasField f then
      (if ρ q.port1.component.id = ρ c.id ∧ q.port1.portId = port then _ else _) ++
      (if ρ q.port2.component.id = ρ c.id ∧ q.port2.portId = port then _ else _) else _)
    simp only [hfield, n1, n2]
    split_ifs <;> simp [hval]
  · have hfield : q'.hasField f ↔ q.hasField f := by
      unfold PortsConnection.hasField
      rw [e1, y2]
      unfold PortRef.type?
      rw [g1, g2, Option.map_some, Option.map_some, hty]
    have hval : q.hasField f → x.fieldDepends q f = x'.fieldDepends q' f := by
      rintro ⟨ty, hy, hin⟩
      unfold PortRef.type? at hy
      rw [g1] at hy
      cases hy
      have hone := hone f hin
      have hnot : q.port1.fieldDef f = none ∨ q.port2.fieldDef f = none := by
        have k1 : p1.portName = q.port1.portId := hk1 _ _ g1
        have k2 : p2.portName = q.port2.portId := hk2 _ _ g2
        unfold oneSide at hone
        rw [k1, k2] at hone
        unfold PortRef.fieldDef
        rcases hone with ⟨-, z⟩ | ⟨z, -⟩
        · right; simpa [Dict.contains] using z
        · left; simpa [Dict.contains] using z
      unfold OptCtx.fieldDepends
      rw [e1, e2, f1, f2]
      cases z1 : q.port1.fieldDef f with
      | some d =>
        rcases hnot with z | z
        · rw [z1] at z; cases z
        · rw [z]; exact v1 d z1
      | none =>
        cases z2 : q.port2.fieldDef f with
        | some d => exact v2 d z2
        | none => rfl
    unfold OptCtx.bringsDep
    rw [e1, e2]
    show List.Perm (if q.hasField f then _ else _) (if q'.hasField f then
      (if ρ q.port2.component.id = ρ c.id ∧ q.port2.portId = port then _ else _) ++
      (if ρ q.port1.component.id = ρ c.id ∧ q.port1.portId = port then _ else _) else _)
    simp only [hfield, n1, n2]
    by_cases hf : q.hasField f
    · have := hval hf
      split_ifs <;> simp [this]
    · rw [if_neg hf, if_neg hf]

theorem portDepends (h : Part ρ x x') (hn : x.NetworkOk) (hn' : x'.NetworkOk) (hcl : x.Closed)
    {c : Component} (hc : c ∈ x.network.allComponents) (port f : String) : x'.portDepends (ρ c.id) port f = x.portDepends c.id port f := by
  obtain ⟨l, rest, h1, h2, h3⟩ := h.connections
  unfold OptCtx.portDepends
  rw [← Idx.all_perm (h2.flatMap_right _)]
  have hz : ∀ q ∈ rest, x'.bringsDep q (ρ c.id) port f = [] := by
    intro q hq
    obtain ⟨a, b⟩ := h3 q hq c hc
    unfold OptCtx.bringsDep
    simp [a, b]
  rw [List.flatMap_append, List.flatMap_eq_nil_iff.2 hz, List.append_nil]
  have key : ∀ N l, List.Forall₂ (SameLink ρ) N l → (∀ q ∈ N, q ∈ x.network.connections) →
      (N.flatMap fun q => x.bringsDep q c.id port f).Perm (l.flatMap fun q => x'.bringsDep q (ρ c.id) port f) := by
    intro N l hl
    induction hl with
    | nil => intro _; exact .refl _
    | cons e _ ih =>
      intro hN
      rw [List.flatMap_cons, List.flatMap_cons]
      exact (h.bringsDep hn hn' hcl (hN _ (.head _)) e hc port f).append (ih fun q hq => hN q (.tail _ hq))
  exact (Idx.all_perm (key _ _ h1 fun _ hq => hq)).symm

/-- expressions of a component depend on the same things in the part and in the network -/
theorem dependence (h : Part ρ x x') (hn : x.NetworkOk) (hn' : x'.NetworkOk) (hcl : x.Closed)
    {c : Component} (hc : c ∈ x.network.allComponents) {e : Expr} (he : ∀ y ∈ e.subs, y.hasComponent = false) :
    x'.dependence (c.called ρ) e = x.dependence c e :=
  h.own_depends hn hn' hc (fun p f => h.portDepends hn hn' hcl hc p f) he

/-- expressions of a component have the same values in the part and in the network -/
theorem value (h : Part ρ x x') (hn : x.NetworkOk) (hn' : x'.NetworkOk) (hcl : x.Closed)
    {var var' : String → String → Option Int → Option Int → ℚ}
    (hv : ∀ c ∈ x.network.allComponents, ∀ n t s, var' (ρ c.id) n t s = var c.id n t s)
    {c : Component} (hc : c ∈ x.network.allComponents) {e : Expr} (he : ∀ y ∈ e.subs, y.hasComponent = false) (t s : Int) (hs0 : 0 ≤ s) :
    mden (x.readAs (x.unwrapped var) c) e t s = mden (x'.readAs (x'.unwrapped var') (c.called ρ)) e t s :=
  h.own_value hn hn' hv hc (fun p f t s hs0 => h.attached_perm hn hn' hcl hv hc p f t s hs0) he t s hs0

/-- a component has no tiny coefficient in the network if it has none in the part -/
theorem noTiny (h : Part ρ x x') (hn : x.NetworkOk) (hn' : x'.NetworkOk) (hcl : x.Closed) {c : Component} (hc : c ∈ x.network.allComponents)
    {e : Expr} (he : ∀ y ∈ e.subs, y.hasComponent = false) (t s : Int) (hs0 : 0 ≤ s) (hno : x.NoTiny c e t s) : x'.NoTiny (c.called ρ) e t s := by
  intro var' k'
  dsimp only
  have key := fun var var' hv => h.value (var := var) (var' := var') hn hn' hcl hv hc he t s hs0
  by_cases hk : ∃ i ∈ x.network.allComponents, ρ i.id = k'.component
  · obtain ⟨i, hi, e1⟩ := hk
    have := hno (fun i => var' (ρ i)) { k' with component := i.id }
    dsimp only at this
    rw [key (fun i => var' (ρ i)) var' fun _ _ _ _ _ => rfl] at this
    rw [key _ (fun c v t s => if k' = ⟨c, v, t, s⟩ then var' c v t s + 1 else var' c v t s) ?_] at this
    · exact this
    · intro j hj n t s
      have hiff : (k' = ⟨ρ j.id, n, t, s⟩) ↔ (({ k' with component := i.id } : TermKey) = ⟨j.id, n, t, s⟩) := by
        obtain ⟨a, b, c, d⟩ := k'
        dsimp only at e1
        simp only [TermKey.mk.injEq]
        refine and_congr_left fun _ => ?_
        rw [← e1]
        exact ⟨fun z => h.distinct i hi j hj z, fun z => by rw [z]⟩
      simp only [hiff]
  · left
    rw [← key (fun i => var' (ρ i)) var' fun _ _ _ _ _ => rfl, ← key (fun i => var' (ρ i)) _ ?_, sub_self]
    intro j hj n t s
    rw [if_neg]
    rintro rfl
    exact hk ⟨j, hj, rfl⟩

/-- the values `σ'` are the values `σ` under the names of `ρ` -/
def Agree (ρ : String → String) (x : OptCtx) (σ σ' : TermKey → ℚ) : Prop :=
  ∀ c ∈ x.network.allComponents, ∀ n t s, σ' ⟨ρ c.id, n, t, s⟩ = σ ⟨c.id, n, t, s⟩

theorem read (h : Part ρ x x') (hn : x.NetworkOk) (hn' : x'.NetworkOk) (hcl : x.Closed) {σ σ' : TermKey → ℚ} (ha : Agree ρ x σ σ')
    {c : Component} (hc : c ∈ x.network.allComponents) {e : Expr} (he : ∀ y ∈ e.subs, y.hasComponent = false) (t s : Int) (hs0 : 0 ≤ s) :
    mden (x'.readIn σ' (c.called ρ)) e t s = mden (x.readIn σ c) e t s := by
  refine (h.value hn hn' hcl (fun c hc n t s => ?_) hc he t s hs0).symm
  rw [h.T_eq]
  exact ha c hc n _ s

theorem aboveBound_congr {M M' : MCtx} {b : Expr} {q q' : ℚ} {t s : Int} (h : mden M b t s = mden M' b t s) (hq : q = q') :
    aboveBound M b q t s ↔ aboveBound M' b q' t s := by
  subst hq
  unfold aboveBound
  split <;> first | rfl | rw [h]

theorem belowBound_congr {M M' : MCtx} {b : Expr} {q q' : ℚ} {t s : Int} (h : mden M b t s = mden M' b t s) (hq : q = q') :
    belowBound M b q t s ↔ belowBound M' b q' t s := by
  subst hq
  unfold belowBound
  split <;> first | rfl | rw [h]

/-- what component `c` requires of the values -/
def _root_.Verif.OptCtx.Satisfied (x : OptCtx) (σ : TermKey → ℚ) (c : Component) : Prop :=
  ∀ t s : Nat, t < x.T → s < x.scenarios →
    (∀ v ∈ x.strategy.getVariables c.model, aboveOpt (x.readIn σ c) v.lowerBound (σ (instanceAt c v t s)) t s ∧
      belowOpt (x.readIn σ c) v.upperBound (σ (instanceAt c v t s)) t s ∧ ofType v.dataType (σ (instanceAt c v t s))) ∧
    ∀ k ∈ x.strategy.getConstraints c.model, k.Holds (x.readIn σ c) t s

theorem _root_.Verif.OptCtx.mathFeasible_iff {x : OptCtx} {σ : TermKey → ℚ} :
    x.MathFeasible σ ↔ ∀ c ∈ x.network.allComponents, x.Satisfied σ c :=
  ⟨fun h c hc t s ht hs => ⟨fun v hv => h.vars c hc v hv t s ht hs, fun k hk => h.constraints c hc k hk t s ht hs⟩,
    fun h => ⟨fun c hc v hv t s ht hs => (h c hc t s ht hs).1 v hv, fun c hc k hk t s ht hs => (h c hc t s ht hs).2 k hk⟩⟩

theorem satisfied (h : Part ρ x x') (hn : x.NetworkOk) (hn' : x'.NetworkOk) (hcl : x.Closed) (ho : x.OwnSymbols) {σ σ' : TermKey → ℚ}
    (ha : Agree ρ x σ σ') {c : Component} (hc : c ∈ x.network.allComponents) : x'.Satisfied σ' (c.called ρ) ↔ x.Satisfied σ c := by
  have hr := fun {e : Expr} (he : ∀ y ∈ e.subs, y.hasComponent = false) (t s : Nat) => h.read hn hn' hcl ha hc he t s (by positivity)
  unfold OptCtx.Satisfied
  rw [h.T_eq, h.frame.scenarios, h.frame.strategy]
  refine forall_congr' fun t => forall_congr' fun s => forall_congr' fun _ => forall_congr' fun _ => and_congr ?_ ?_
  · refine forall_congr' fun v => forall_congr' fun hv => ?_
    have hb := ho.bounds c hc v hv
    have hi : σ' (instanceAt (c.called ρ) v t s) = σ (instanceAt c v t s) := ha c hc _ _ _
    rw [hi]
    refine and_congr ?_ (and_congr ?_ Iff.rfl)
    · unfold aboveOpt
      cases hl : v.lowerBound with
      | none => rfl
      | some b => exact aboveBound_congr (hr (hb b (.inl hl)) t s) rfl
    · unfold belowOpt
      cases hl : v.upperBound with
      | none => rfl
      | some b => exact belowBound_congr (hr (hb b (.inr hl)) t s) rfl
  · refine forall_congr' fun k => forall_congr' fun hk => ?_
    have hb := ho.constraints c hc k hk
    unfold Constraint.Holds
    exact and_congr (aboveBound_congr (hr (hb _ (.inr (.inl rfl))) t s) (hr (hb _ (.inl rfl)) t s))
      (belowBound_congr (hr (hb _ (.inr (.inr rfl))) t s) (hr (hb _ (.inl rfl)) t s))

/-- the cost of component `c` -/
def _root_.Verif.OptCtx.costOf (x : OptCtx) (σ : TermKey → ℚ) (c : Component) : ℚ :=
  ((x.contributions c).map fun e => mden (x.readIn σ c) e 0 0).sum

theorem costOf (h : Part ρ x x') (hn : x.NetworkOk) (hn' : x'.NetworkOk) (hcl : x.Closed) (ho : x.OwnSymbols) {σ σ' : TermKey → ℚ}
    (ha : Agree ρ x σ σ') {c : Component} (hc : c ∈ x.network.allComponents) : x'.costOf σ' (c.called ρ) = x.costOf σ c := by
  have e : x'.contributions (c.called ρ) = x.contributions c := by
    unfold OptCtx.contributions
    rw [h.frame.strategy, h.frame.risk]
    rfl
  unfold OptCtx.costOf
  rw [e]
  congr 1
  exact List.map_congr_left fun e he => h.read hn hn' hcl ha hc (ho.objectives c hc e he) 0 0 le_rfl

end OptCtx.Part

namespace OptCtx

/-- `k'` comes from a consistent network -/
def LinkFromPart (k' : PortsConnection) : Prop :=
  ∃ (ρ : String → String) (x : OptCtx) (k : PortsConnection), x.NetworkOk ∧ k ∈ x.network.connections ∧ SameLink ρ k k'

end OptCtx
end Verif
