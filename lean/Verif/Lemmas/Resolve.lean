import Verif.Lemmas.PortDef

/-! Registration of all connections and resolution of port references. -/

namespace Verif
open Expr

theorem masterPort_side {c : PortsConnection} (hc : c.Accepted) {f : String} {m : PortRef} (h : (f, m) ∈ c.masterPort) :
    m = c.port1 ∨ m = c.port2 := by
  obtain ⟨p1, p2, h1, h2, hty, hall, _, _, nd, hget⟩ := make_ok hc.made
  have := Dict.get?_of_mem nd h
  rw [hget] at this
  split at this
  · cases this
    unfold sideOf
    split
    · exact .inl rfl
    · exact .inr rfl
  · cases this

/-- an expression registered by one of the connections -/
def FromDef (cs : List PortsConnection) (e : Expr) : Prop :=
  ∃ c ∈ cs, ∃ r f d, (r = c.port1 ∨ r = c.port2) ∧ PortRef.fieldDef r f = some d ∧
    addComponentContext r.component.id d = .ok e

theorem registerFields_from {c : PortsConnection} (hc : c.Accepted) {ports ports' : PortExprs}
    (h : registerFields c c.masterPort ports = .ok ports') (key : PortFieldKey) :
    ∀ e ∈ registered ports' key, e ∈ registered ports key ∨ FromDef [c] e := by
  obtain ⟨p1, p2, h1, h2, hty, hall, _, _, nd, hget⟩ := make_ok hc.made
  obtain ⟨inst, hinst, hreg⟩ := registerFields_spec c c.masterPort nd ports ports' h
  intro e he
  rw [hreg key, List.mem_append] at he
  rcases he with he | he
  · exact .inl he
  · right
    split at he
    · next hk =>
      obtain ⟨⟨f, m⟩, hm, hf⟩ := List.mem_map.1 hk
      obtain ⟨d, hd, hctx⟩ := hinst f m hm
      have : e = inst key.field := by
        unfold entries at he
        rcases List.mem_append.1 he with he | he
        · split at he
          · simpa using he
          · cases he
        · split at he
          · simpa using he
          · cases he
      subst this
      dsimp only at hf
      subst hf
      exact ⟨c, by simp, m, _, d, masterPort_side hc hm, hd, hctx⟩
    · cases he

theorem registerConnections_from (cs : List PortsConnection) (hc : ∀ c ∈ cs, c.Accepted) {ports ports' : PortExprs}
    (h : registerConnections cs ports = .ok ports') (key : PortFieldKey) :
    ∀ e ∈ registered ports' key, e ∈ registered ports key ∨ FromDef cs e := by
  induction cs generalizing ports with
  | nil => cases h; exact fun e he => .inl he
  | cons c cs ih =>
    simp only [registerConnections, bind_ok_iff] at h
    obtain ⟨p, hp, h⟩ := h
    intro e he
    rcases ih (fun c hc' => hc c (by simp [hc'])) h e he with he | ⟨c', hc', r⟩
    · rcases registerFields_from (hc c (by simp)) hp key e he with he | ⟨c', hc', r⟩
      · exact .inl he
      · simp only [List.mem_singleton] at hc'
        subst hc'
        exact .inr ⟨c', by simp, r⟩
    · exact .inr ⟨c', by simp [hc'], r⟩

/-- the definitions used by the connections, as `port_field_def` intends them: no port reference, no comparison, no
component symbol (and no literal empty sum) -/
def DefsClean (cs : List PortsConnection) : Prop :=
  ∀ c ∈ cs, ∀ (r : PortRef) f d, (r = c.port1 ∨ r = c.port2) → r.fieldDef f = some d →
    (∀ y ∈ d.subs, y.isPortRef = false ∧ y.isCmp = false ∧ y.hasComponent = false) ∧ add [] ∉ d.subs

theorem sideOf_def {r1 r2 : PortRef} {p1 p2 : ModelPort} {f : String} (h1 : p1.portName = r1.portId)
    (h2 : p2.portName = r2.portId) (ho : oneSide r1 r2 p1 p2 f) : ∃ d, (sideOf r1 r2 p1 f).fieldDef f = some d := by
  unfold sideOf
  have key : ∀ (r : PortRef) (n : String), n = r.portId →
      r.component.model.portFieldsDefinitions.contains ⟨n, f⟩ = true → ∃ d, r.fieldDef f = some d := by
    rintro r n rfl h
    rw [Dict.contains_iff, Dict.mem_keys_iff] at h
    obtain ⟨v, hv⟩ := h
    exact ⟨v.definition, by simp [PortRef.fieldDef, hv]⟩
  rcases ho with ⟨ha, hb⟩ | ⟨ha, hb⟩
  · rw [ha]; exact key r1 _ h1 ha
  · rw [ha]; exact key r2 _ h2 hb

theorem registerFields_ok (c : PortsConnection) (items : List (String × PortRef)) (ports : PortExprs)
    (hi : ∀ f m, (f, m) ∈ items → ∃ d e, m.fieldDef f = some d ∧ addComponentContext m.component.id d = .ok e) :
    ∃ ports', registerFields c items ports = .ok ports' := by
  induction items generalizing ports with
  | nil => exact ⟨ports, rfl⟩
  | cons fm items ih =>
    obtain ⟨f, m⟩ := fm
    obtain ⟨d, e, hd, he⟩ := hi f m (by simp)
    unfold PortRef.fieldDef at hd
    rw [Option.map_eq_some_iff] at hd
    obtain ⟨d', hd', rfl⟩ := hd
    unfold registerFields
    rw [hd']
    simp only [he, ok_bind]
    exact ih _ fun f m h => hi f m (by simp [h])

theorem registerConnections_ok (cs : List PortsConnection) (hc : ∀ c ∈ cs, c.Accepted) (hd : DefsClean cs)
    (ports : PortExprs) : ∃ ports', registerConnections cs ports = .ok ports' := by
  induction cs generalizing ports with
  | nil => exact ⟨ports, rfl⟩
  | cons c cs ih =>
    have hacc := hc c (by simp)
    obtain ⟨p1, p2, h1, h2, hty, hall, _, _, nd, hget⟩ := make_ok hacc.made
    obtain ⟨p, hp⟩ := registerFields_ok c c.masterPort ports (by
      intro f m hm
      have hg := Dict.get?_of_mem nd hm
      have hside := masterPort_side hacc hm
      rw [hget] at hg
      split at hg
      · next hf =>
        obtain ⟨d, hd'⟩ := sideOf_def (hacc.keyed1 _ _ h1) (hacc.keyed2 _ _ h2) (hall f hf)
        cases hg
        have hcl := hd c (by simp) _ f d hside hd'
        obtain ⟨e, he⟩ := (addComponentContext_ok_iff (sideOf c.port1 c.port2 p1 f).component.id d).2
          ⟨fun y hy => (hcl.1 y hy).2.2, hcl.2⟩
        exact ⟨d, e, hd', he⟩
      · cases hg)
    obtain ⟨p', hp'⟩ := ih (fun c h => hc c (by simp [h])) (fun c h => hd c (by simp [h])) p
    exact ⟨p', by simp [registerConnections, hp, hp']⟩

/-! ### Resolution -/

theorem resolvePort_ok_iff (e : Expr) (cid : String) (ports : PortExprs) :
    (∃ e', resolvePort e cid ports = .ok e') ↔ add [] ∉ e.plainSubs ∧
      (∀ p f, portField p f ∈ e.plainSubs → (registered ports ⟨cid, p, f⟩).length = 1) ∧
      ∀ x a, agg x a ∈ e.plainSubs → a = .portSum ∧ ∃ p f, x = portField p f := by
  unfold resolvePort
  rw [copyWith_ok_iff (visits_plainSubs (h := portHooks cid ports) rfl)]
  have h1 : ∀ p f, NodeOk (portHooks cid ports) (portField p f) ↔ (registered ports ⟨cid, p, f⟩).length = 1 := by
    intro p f
    simp only [NodeOk, portHooks, registered, Dict.get]
    cases h : Dict.get? ports ⟨cid, p, f⟩ with
    | none => simp
    | some l =>
      match l with
      | [] => simp
      | [e] => simp
      | _ :: _ :: _ => simp
  have h2 : ∀ x a, NodeOk (portHooks cid ports) (agg x a) ↔ a = .portSum ∧ ∃ p f, x = portField p f := by
    intro x a
    simp only [NodeOk, portHooks]
    cases a with
    | base => simp
    | portSum => cases x <;> simp
  constructor
  · intro h
    exact ⟨fun hx => h _ hx rfl, fun p f hx => (h1 p f).1 (h _ hx), fun x a hx => (h2 x a).1 (h _ hx)⟩
  · rintro ⟨ha, hp, hg⟩ y hy
    cases y with
    | portField p f => exact (h1 p f).2 (hp p f hy)
    | agg x a => exact (h2 x a).2 (hg x a hy)
    | add es => rintro rfl; exact ha hy
    | _ => simp [NodeOk, portHooks, copyHooks]

theorem resolvePort_error (e : Expr) (cid : String) (ports : PortExprs) (x : Err) (hne : add [] ∉ e.plainSubs)
    (hg : ∀ x a, agg x a ∈ e.plainSubs → a = .portSum ∧ ∃ p f, x = portField p f)
    (h : resolvePort e cid ports = .error x) : (∃ m, x = .valueError m) ∨ ∃ m, x = .keyError m := by
  obtain ⟨y, hy, he⟩ := copyWith_error_node (visits_plainSubs (h := portHooks cid ports) rfl) e x h
  cases y with
  | portField p f =>
    simp only [NodeErr, portHooks, Dict.get] at he
    cases hh : Dict.get? ports ⟨cid, p, f⟩ with
    | none => rw [hh] at he; cases he; exact .inr ⟨_, rfl⟩
    | some l =>
      rw [hh] at he
      match l, he with
      | [], he => cases he; exact .inl ⟨_, rfl⟩
      | [e], he => cases he
      | _ :: _ :: _, he => cases he; exact .inl ⟨_, rfl⟩
  | agg z a =>
    obtain ⟨rfl, p, f, rfl⟩ := hg z a hy
    obtain ⟨g, hg', he⟩ := he
    cases hg'
    cases he
  | add es => cases he.1; exact absurd hy hne
  | var => cases he
  | par => cases he
  | cvar => cases he
  | cpar => cases he
  | pvar => cases he
  | ppar => cases he
  | _ => exact absurd he (by simp [NodeErr])

theorem resolvePort_id (e : Expr) (cid : String) (ports : PortExprs) (hf : e.Flat)
    (hp : ∀ y ∈ e.subs, y.isPortRef = false) : resolvePort e cid ports = .ok e := by
  have : copyWith (portHooks cid ports) e = copyWith copyHooks e := by
    refine copyWith_congr e (.inr fun x a hx => ?_) fun y hy hl => ?_
    · have := hp _ hx; simp [isPortRef] at this
    · have := hp _ hy
      cases y <;> simp_all [isHookLeaf, isPortRef, copyWith, portHooks]
  unfold resolvePort
  rw [this]
  exact copy_of_flat e hf

/-- the port resolver, refusing bare symbols -/
def strictPortHooks (cid : String) (ports : PortExprs) : Hooks :=
  { portHooks cid ports with
    var := fun _ => .error .indexError
    par := fun _ => .error .indexError }

/-- no model-level node is left after resolution -/
theorem resolvePort_problem (e e' : Expr) (cid : String) (ports : PortExprs)
    (hports : ∀ key, ∀ x ∈ registered ports key, ∀ y ∈ x.subs, y.isModelLevel = false)
    (hi : ∀ y ∈ e.subs, y.isPortRef = true ∨ y.isModelLevel = false)
    (h : resolvePort e cid ports = .ok e') : ∀ y ∈ e'.subs, y.isModelLevel = false := by
  have h' : copyWith (strictPortHooks cid ports) e = .ok e' := by
    rw [← h]
    refine copyWith_congr e (.inl rfl) fun y hy hl => ?_
    have := hi y hy
    cases y <;> simp_all [isHookLeaf, isPortRef, isModelLevel, copyWith, portHooks, strictPortHooks]
  have single : ∀ y, isHookLeaf y = true → y.isModelLevel = false → AllSubs (fun y => y.isModelLevel = false) y := by
    intro y hy hm x hx
    cases y <;> simp only [isHookLeaf, Bool.false_eq_true] at hy <;>
      (simp only [subs, List.mem_singleton] at hx; subst hx; exact hm)
  have regs : ∀ key x, x ∈ registered ports key → AllSubs (fun y => y.isModelLevel = false) x := hports
  refine copyWith_allSubs (P := fun y => y.isModelLevel = false)
    ⟨⟨fun _ => rfl, fun _ _ _ => rfl, fun _ _ _ _ _ => rfl, fun _ _ _ _ _ => rfl,
      fun _ _ _ _ _ h => (by cases h), fun _ _ _ _ _ => rfl, fun _ _ _ _ _ => rfl, fun _ _ _ _ _ _ _ => rfl,
      fun _ _ _ => rfl, fun _ _ _ _ => rfl⟩, fun _ _ _ h => (by cases h)⟩ ?_ e ?_ e' h'
  · constructor
    · intro n e h; cases h
    · intro n e h; cases h
    · intro c n e h; cases h; exact single _ rfl rfl
    · intro c n e h; cases h; exact single _ rfl rfl
    · intro c n ti si e h; cases h; exact single _ rfl rfl
    · intro c n ti si e h; cases h; exact single _ rfl rfl
    · intro p f e h
      simp only [strictPortHooks, portHooks, Dict.get] at h
      cases hh : Dict.get? ports ⟨cid, p, f⟩ with
      | none => rw [hh] at h; cases h
      | some l =>
        rw [hh] at h
        match l, h, hh with
        | [], h, _ => cases h
        | [e], h, hh => cases h; exact regs ⟨cid, p, f⟩ _ (by simp [registered, hh])
        | _ :: _ :: _, h, _ => cases h
    · intro f h e a e' h'
      cases h
      cases a with
      | base => cases h'
      | portSum =>
        cases e <;> cases h'
        next p f => exact allSubs_sumExpressions (P := fun y => y.isModelLevel = false) (fun _ => rfl) rfl fun x hx => regs ⟨cid, p, f⟩ x hx
  · intro x hx hl hx'
    rcases hi x hx with hp | hm
    · cases x <;> simp_all [isPortRef, isHookLeaf]
      cases hx'
    · exact hm

end Verif
