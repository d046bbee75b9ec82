import Verif.Lemmas.Meaning
import Verif.Lemmas.Dict
import Verif.Spec.Network
import Verif.Model.Instantiate

/-! Connections: acceptance, registration, and instantiation of model expressions. -/

namespace Verif
open Expr

/-! ### Acceptance of connections -/

/-- exactly one side defines the field -/
def oneSide (r1 r2 : PortRef) (p1 p2 : ModelPort) (f : String) : Prop :=
  (r1.component.model.portFieldsDefinitions.contains ⟨p1.portName, f⟩ = true ∧
    r2.component.model.portFieldsDefinitions.contains ⟨p2.portName, f⟩ = false) ∨
  (r1.component.model.portFieldsDefinitions.contains ⟨p1.portName, f⟩ = false ∧
    r2.component.model.portFieldsDefinitions.contains ⟨p2.portName, f⟩ = true)

/-- the side that defines the field -/
def sideOf (r1 r2 : PortRef) (p1 : ModelPort) (f : String) : PortRef :=
  if r1.component.model.portFieldsDefinitions.contains ⟨p1.portName, f⟩ then r1 else r2

theorem masterPorts_ok (r1 r2 : PortRef) (p1 p2 : ModelPort) (fs : List String) (acc : Dict String PortRef) :
    (∀ f ∈ fs, oneSide r1 r2 p1 p2 f) →
    masterPorts r1 r2 p1 p2 fs acc = .ok (fs.foldl (fun d f => d.set f (sideOf r1 r2 p1 f)) acc) := by
  induction fs generalizing acc with
  | nil => intro _; rfl
  | cons f fs ih =>
    intro h
    have hf := h f (by simp)
    unfold masterPorts
    dsimp only
    rcases hf with ⟨h1, h2⟩ | ⟨h1, h2⟩
    · simp only [h1, h2, Bool.not_true, Bool.false_and, Bool.true_and, Bool.false_eq_true, if_false, if_true,
        List.foldl_cons]
      rw [ih _ (fun g hg => h g (by simp [hg]))]
      simp [sideOf, h1]
    · simp only [h1, h2, Bool.not_true, Bool.and_false, Bool.false_and, Bool.false_eq_true, if_false,
        List.foldl_cons]
      rw [ih _ (fun g hg => h g (by simp [hg]))]
      simp [sideOf, h1]

theorem masterPorts_error (r1 r2 : PortRef) (p1 p2 : ModelPort) (fs : List String) (acc : Dict String PortRef) :
    (∃ f ∈ fs, ¬ oneSide r1 r2 p1 p2 f) → ∃ m, masterPorts r1 r2 p1 p2 fs acc = .error (.valueError m) := by
  induction fs generalizing acc with
  | nil => rintro ⟨f, hf, _⟩; cases hf
  | cons g fs ih =>
    rintro ⟨f, hf, hn⟩
    unfold masterPorts
    dsimp only
    cases h1 : r1.component.model.portFieldsDefinitions.contains ⟨p1.portName, g⟩ <;>
    cases h2 : r2.component.model.portFieldsDefinitions.contains ⟨p2.portName, g⟩
    · exact ⟨"No definition for port field", by simp⟩
    · have : f ≠ g := by rintro rfl; exact hn (.inr ⟨h1, h2⟩)
      have hf' : f ∈ fs := by simpa [this] using hf
      obtain ⟨m, hm⟩ := ih (acc.set g r2) ⟨f, hf', hn⟩
      exact ⟨m, by simpa using hm⟩
    · have : f ≠ g := by rintro rfl; exact hn (.inl ⟨h1, h2⟩)
      have hf' : f ∈ fs := by simpa [this] using hf
      obtain ⟨m, hm⟩ := ih (acc.set g r1) ⟨f, hf', hn⟩
      exact ⟨m, by simpa using hm⟩
    · exact ⟨"Port field has 2 definitions.", by simp⟩

theorem get?_foldl_set {β : Type} (g : String → β) (fs : List String) (acc : Dict String β) (k : String) :
    Dict.get? (fs.foldl (fun (d : Dict String β) f => d.set f (g f)) acc) k =
      if k ∈ fs then some (g k) else acc.get? k := by
  induction fs generalizing acc with
  | nil => simp
  | cons f fs ih =>
    rw [List.foldl_cons, ih, Dict.get?_set]
    by_cases h1 : k ∈ fs
    · simp [h1]
    · by_cases h2 : f = k
      · subst h2; simp
      · simp [h1, h2, Ne.symm h2]

theorem nodup_foldl_set {β : Type} (g : String → β) (fs : List String) (acc : Dict String β) (h : acc.keys.Nodup) :
    (Dict.keys (fs.foldl (fun (d : Dict String β) f => d.set f (g f)) acc)).Nodup := by
  induction fs generalizing acc with
  | nil => exact h
  | cons f fs ih => exact ih _ (Dict.nodup_set h _ _)

/-- Shape of an accepted connection. -/
theorem make_ok {r1 r2 : PortRef} {c : PortsConnection} (h : PortsConnection.make r1 r2 = .ok c) :
    ∃ p1 p2, r1.component.model.ports.get? r1.portId = some p1 ∧ r2.component.model.ports.get? r2.portId = some p2 ∧
      p1.portType = p2.portType ∧ (∀ f ∈ p1.portType.fields, oneSide r1 r2 p1 p2 f) ∧
      c.port1 = r1 ∧ c.port2 = r2 ∧ c.masterPort.keys.Nodup ∧
      ∀ f, c.masterPort.get? f = if f ∈ p1.portType.fields then some (sideOf r1 r2 p1 f) else none := by
  unfold PortsConnection.make at h
  split at h
  · next p1 p2 h1 h2 =>
    split at h
    · cases h
    · next hty =>
      rw [ne_eq, not_not] at hty
      by_cases hall : ∀ f ∈ p1.portType.fields, oneSide r1 r2 p1 p2 f
      · rw [masterPorts_ok _ _ _ _ _ _ hall] at h
        cases h
        refine ⟨p1, p2, h1, h2, hty, hall, rfl, rfl, nodup_foldl_set _ _ _ (by simp [Dict.keys]), fun f => ?_⟩
        rw [get?_foldl_set]
        simp
      · push Not at hall
        obtain ⟨m, hm⟩ := masterPorts_error r1 r2 p1 p2 p1.portType.fields [] hall
        rw [hm] at h
        cases h
  · cases h

/-! ### Registration -/

/-- expressions registered for a key -/
def registered (ports : PortExprs) (key : PortFieldKey) : List Expr := (ports.get? key).getD []

theorem registered_registerExpr (ports : PortExprs) (key k : PortFieldKey) (e : Expr) :
    registered (registerExpr ports key e) k = registered ports k ++ if key = k then [e] else [] := by
  unfold registered registerExpr
  split
  · next x xs h =>
    rw [Dict.get?_set]
    by_cases hk : key = k
    · subst hk; simp [h]
    · simp [hk]
  · next h =>
    rw [Dict.get?_set]
    by_cases hk : key = k
    · subst hk
      cases h' : ports.get? key with
      | none => simp
      | some l =>
        cases l with
        | nil => simp
        | cons x xs => exact absurd h' (h x xs)
    · simp [hk]

/-- what connection `c` registers for a key when the field is given by `e` -/
def entries (c : PortsConnection) (key : PortFieldKey) (e : Expr) : List Expr :=
  (if c.port1.component.id = key.component ∧ c.port1.portId = key.port then [e] else []) ++
  (if c.port2.component.id = key.component ∧ c.port2.portId = key.port then [e] else [])

theorem registerFields_spec (c : PortsConnection) (items : List (String × PortRef)) (nd : (items.map Prod.fst).Nodup)
    (ports ports' : PortExprs) (h : registerFields c items ports = .ok ports') :
    ∃ inst : String → Expr,
      (∀ f m, (f, m) ∈ items → ∃ d, m.fieldDef f = some d ∧ addComponentContext m.component.id d = .ok (inst f)) ∧
      ∀ key, registered ports' key = registered ports key ++
        if key.field ∈ items.map Prod.fst then entries c key (inst key.field) else [] := by
  induction items generalizing ports with
  | nil => simp only [registerFields, Except.ok.injEq] at h; subst h; exact ⟨fun _ => .lit 0, by simp, by simp⟩
  | cons fm items ih =>
    obtain ⟨f, m⟩ := fm
    simp only [List.map_cons, List.nodup_cons] at nd
    unfold registerFields at h
    split at h
    · cases h
    · next d hd =>
      simp only [bind_ok_iff] at h
      obtain ⟨e, he, h⟩ := h
      obtain ⟨inst, hi, hreg⟩ := ih nd.2 _ h
      refine ⟨fun g => if g = f then e else inst g, ?_, ?_⟩
      · intro g m' hg
        rcases List.mem_cons.1 hg with hg' | hg'
        · cases hg'
          exact ⟨d.definition, by simp [PortRef.fieldDef, hd], by simpa using he⟩
        · have : g ≠ f := by
            rintro rfl
            exact nd.1 (List.mem_map.2 ⟨(g, m'), hg', rfl⟩)
          simpa [this] using hi g m' hg'
      · intro key
        rw [hreg key, registered_registerExpr, registered_registerExpr]
        obtain ⟨kc, kp, kf⟩ := key
        by_cases hk : kf = f
        · subst hk
          have : kf ∉ items.map Prod.fst := nd.1
          simp [this, entries, PortFieldKey.mk.injEq]
        · have h1 : ∀ (a b : String), ¬ (PortFieldKey.mk a b f = ⟨kc, kp, kf⟩) := by
            intro a b hab; cases hab; exact hk rfl
          have h2 : (kf ∈ List.map Prod.fst ((f, m) :: items)) ↔ kf ∈ items.map Prod.fst := by simp [hk]
          simp only [h1, if_false, List.append_nil, hk]
          congr 1
          by_cases h3 : kf ∈ items.map Prod.fst
          · rw [if_pos h3, if_pos (h2.2 h3)]
          · rw [if_neg h3, if_neg (fun h => h3 (h2.1 h))]

/-! ### Component context -/

theorem contextHooks_means (c c' : String) (D : DenCtx) (ports) :
    HookMeans (contextHooks c) ⟨D, c, ports⟩ ⟨D, c', ports⟩ := by
  constructor
  · intro n e h t s; cases h; simp [mden]
  · intro n e h t s; cases h; simp [mden]
  · intro _ n e h; cases h
  · intro _ n e h; cases h
  · intro _ n _ _ e h; cases h
  · intro _ n _ _ e h; cases h
  · intro p f e h t s; cases h; simp [mden]
  · intro p f a e h t s; cases h; simp [mden]

theorem addComponentContext_mden (D : DenCtx) (c c' : String) (ports) (e e' : Expr) (ha : e.AggPort)
    (h : addComponentContext c e = .ok e') (t s : Int) :
    mden (componentCtx D c' ports) e' t s = mden (componentCtx D c ports) e t s :=
  copyWith_mden (h := contextHooks c) (M := ⟨D, c, ports⟩) (M' := ⟨D, c', ports⟩) ⟨rfl, rfl, rfl, rfl, rfl⟩ (contextHooks_means c c' D ports) e ha e' h t s

/-! ### Registration of all connections -/

theorem sideOf_fieldDef {r1 r2 : PortRef} {p1 p2 : ModelPort} {f : String} {d : Expr} (h1 : p1.portName = r1.portId)
    (h2 : p2.portName = r2.portId) (ho : oneSide r1 r2 p1 p2 f) (hd : (sideOf r1 r2 p1 f).fieldDef f = some d) :
    (r1.fieldDef f = some d ∧ sideOf r1 r2 p1 f = r1) ∨
      (r1.fieldDef f = none ∧ r2.fieldDef f = some d ∧ sideOf r1 r2 p1 f = r2) := by
  unfold sideOf at hd ⊢
  rcases ho with ⟨ha, _⟩ | ⟨ha, _⟩
  · rw [ha] at hd ⊢
    exact .inl ⟨hd, rfl⟩
  · rw [ha] at hd ⊢
    refine .inr ⟨?_, hd, rfl⟩
    rw [h1, Dict.contains_false_iff] at ha
    simp [PortRef.fieldDef, ha]

/-- values brought by one registered connection -/
theorem registerFields_values (D : DenCtx) (c : PortsConnection) (hc : c.Accepted)
    (hagg : ∀ (r : PortRef) f d, (r = c.port1 ∨ r = c.port2) → r.fieldDef f = some d → d.AggPort)
    (ports ports' : PortExprs) (h : registerFields c c.masterPort ports = .ok ports') (c' : String)
    (key : PortFieldKey) :
    (registered ports' key).map (mden (componentCtx D c' noPorts)) =
      (registered ports key).map (mden (componentCtx D c' noPorts)) ++
        c.brings D key.component key.port key.field := by
  obtain ⟨p1, p2, h1, h2, hty, hall, _, _, nd, hget⟩ := make_ok hc.made
  obtain ⟨inst, hinst, hreg⟩ := registerFields_spec c c.masterPort nd ports ports' h
  have k1 := hc.keyed1 _ _ h1
  have k2 := hc.keyed2 _ _ h2
  rw [hreg key, List.map_append]
  congr 1
  have hkeys : ∀ f, f ∈ c.masterPort.map Prod.fst ↔ f ∈ p1.portType.fields := by
    intro f
    have := Dict.mem_keys_iff (d := c.masterPort) (k := f)
    rw [hget] at this
    by_cases hf : f ∈ p1.portType.fields
    · simp only [hf, if_true, Option.some.injEq, exists_eq', iff_true] at this ⊢
      exact this
    · simp only [hf, if_false, reduceCtorEq, exists_false, iff_false] at this ⊢
      exact this
  have hfield : c.hasField key.field ↔ key.field ∈ p1.portType.fields := by
    simp [PortsConnection.hasField, PortRef.type?, h1]
  unfold PortsConnection.brings
  by_cases hf : key.field ∈ p1.portType.fields
  · rw [if_pos ((hkeys _).2 hf), if_pos (hfield.2 hf)]
    have hm : (key.field, sideOf c.port1 c.port2 p1 key.field) ∈ c.masterPort :=
      Dict.mem_of_get? (by rw [hget, if_pos hf])
    obtain ⟨d, hd, hctx⟩ := hinst _ _ hm
    have hval : mden (componentCtx D c' noPorts) (inst key.field) = c.value D key.field := by
      funext t s
      unfold PortsConnection.value
      rcases sideOf_fieldDef k1 k2 (hall _ hf) hd with ⟨hd1, hs⟩ | ⟨hd0, hd2, hs⟩
      · rw [hd1]
        rw [hs] at hctx
        exact addComponentContext_mden D _ c' noPorts d _ (hagg _ _ _ (.inl rfl) hd1) hctx t s
      · rw [hd0, hd2]
        rw [hs] at hctx
        exact addComponentContext_mden D _ c' noPorts d _ (hagg _ _ _ (.inr rfl) hd2) hctx t s
    unfold entries
    rw [List.map_append]
    congr 1
    · split <;> simp [hval]
    · split <;> simp [hval]
  · rw [if_neg (fun h => hf ((hkeys _).1 h)), if_neg (fun h => hf (hfield.1 h))]
    rfl

theorem registerConnections_values (D : DenCtx) (cs : List PortsConnection) (hc : ∀ c ∈ cs, c.Accepted)
    (hagg : ∀ c ∈ cs, ∀ (r : PortRef) f d, (r = c.port1 ∨ r = c.port2) → r.fieldDef f = some d → d.AggPort)
    (ports ports' : PortExprs) (h : registerConnections cs ports = .ok ports') (c' : String) (key : PortFieldKey) :
    (registered ports' key).map (mden (componentCtx D c' noPorts)) =
      (registered ports key).map (mden (componentCtx D c' noPorts)) ++
        attached D cs key.component key.port key.field := by
  induction cs generalizing ports with
  | nil => simp only [registerConnections, Except.ok.injEq] at h; subst h; simp [attached]
  | cons c cs ih =>
    simp only [registerConnections, bind_ok_iff] at h
    obtain ⟨p, hp, h⟩ := h
    rw [ih (fun c hc' => hc c (by simp [hc'])) (fun c hc' => hagg c (by simp [hc'])) p h,
      registerFields_values D c (hc c (by simp)) (hagg c (by simp)) ports p hp c' key]
    simp [attached]

/-! ### Port resolution -/

theorem portHooks_means (cid : String) (ports : PortExprs) (D : DenCtx) (c' : String)
    (pv np : String → String → List (Int → Int → ℚ))
    (hpv : ∀ p f, pv p f = (registered ports ⟨cid, p, f⟩).map (mden ⟨D, c', np⟩)) :
    HookMeans (portHooks cid ports) ⟨D, c', pv⟩ ⟨D, c', np⟩ := by
  constructor
  · intro n e h t s; cases h; simp [mden]
  · intro n e h t s; cases h; simp [mden]
  · intro c n e h t s; cases h; simp [mden]
  · intro c n e h t s; cases h; simp [mden]
  · intro c n ti si e h t s; cases h; simp [mden]
  · intro c n ti si e h t s; cases h; simp [mden]
  · intro p f e h t s
    simp only [portHooks, bind_ok_iff] at h
    obtain ⟨es, hes, h⟩ := h
    have : registered ports ⟨cid, p, f⟩ = es := by
      unfold Dict.get at hes
      unfold registered
      split at hes
      · next v hv => cases hes; rw [hv]; rfl
      · cases hes
    split at h
    · cases h
      simp [mden, hpv, this]
    · cases h
  · intro p f a e h t s
    cases a with
    | base => cases h
    | portSum =>
      simp only [copyWith, portHooks, Except.ok.injEq] at h
      subst h
      rw [mden_sumExpressions]
      simp only [mden, hpv, registered, List.map_map, Function.comp_def]

theorem resolvePort_mden (D : DenCtx) (cs : List PortsConnection) (hc : ∀ c ∈ cs, c.Accepted)
    (hagg : ∀ c ∈ cs, ∀ (r : PortRef) f d, (r = c.port1 ∨ r = c.port2) → r.fieldDef f = some d → d.AggPort)
    (ports : PortExprs) (h : registerConnections cs [] = .ok ports) (cid c' : String) (e e' : Expr) (ha : e.AggPort)
    (hr : resolvePort e cid ports = .ok e') (t s : Int) :
    mden (componentCtx D c' noPorts) e' t s = mden (componentCtx D c' (attached D cs cid)) e t s := by
  refine copyWith_mden (h := portHooks cid ports) (M := ⟨D, c', attached D cs cid⟩) (M' := ⟨D, c', noPorts⟩)
    ⟨rfl, rfl, rfl, rfl, rfl⟩ (portHooks_means cid ports D c' _ _ ?_)
    e ha e' hr t s
  intro p f
  have := registerConnections_values D cs hc hagg [] ports h c' ⟨cid, p, f⟩
  rw [show registered [] ⟨cid, p, f⟩ = [] from rfl] at this
  simpa [componentCtx] using this.symm

end Verif
