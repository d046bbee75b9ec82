import Verif.Lemmas.PypsaProblem

/-!
# The study that a PyPSA network is converted to is complete
-/

namespace Verif
namespace PConverted
variable {pf : String → Option Num} {n : PNetwork} {T : Nat} {s : PStudy}

theorem used_le (h : PConverted pf n T s) {ty : PType} {capa : String} (hc : ty.kind.capacity = some capa) {r : PLine}
    (hr : r ∈ (n.table ty).rows) (t : Nat) : used pf n ty r (capa ++ "_min") t ≤ used pf n ty r (capa ++ "_max") t := by
  rw [h.used_bound hc (.inl rfl), h.used_bound hc (.inr rfl)]
  split_ifs with hf
  · exact le_refl _
  · exact h.data.capacities ty.kind ty.kind_mem capa hc r (by rw [ty.kind_ty]; exact hr) hf

theorem library_of (ty : PType) : Rules.libraryOf ("pypsa_models." ++ ty.kind.model) = "pypsa_models" := by cases ty <;> decide

theorem declares (ty : PType) : ∀ q ∈ ty.rules.parameters, q.1 ∈ ty.kind.params.map (·.2) := by cases ty <;> decide

theorem readable (h : PConverted pf n T s) {c : InputComponent} (hc : c ∈ (s.input T).declared) {p : InputParam} (hp : p ∈ c.parameters) :
    p.Readable s.load ∧ ∀ t : Nat, t < T → ∃ v, declaredEntry s.load p t 0 = some v := by
  rcases h.of_declared hc with ⟨ty, r, hr, hc⟩ | ⟨r, hr, hc⟩
  · obtain ⟨a, ha, hp⟩ := params_mem hc hp
    refine ⟨?_, fun t ht => ?_⟩
    · unfold InputParam.Readable
      rcases h.entry hr ha hp with ⟨-, htd, c, v, -, -, hval, -⟩ | ⟨vs, nm, -, htd, hval, hl, -⟩
      · rw [hval]
        exact ⟨htd, hp.2.1⟩
      · rw [hval]
        refine ⟨.inl htd, _, hl, fun _ => rfl, fun h0 => ?_⟩
        rw [htd] at h0
        cases h0
    · obtain ⟨v, hv, -⟩ := h.entry_eq hr ha hp ht
      exact ⟨v, hv⟩
  · obtain ⟨q, -, hq⟩ := h.limit_param hr hc
    rw [hq] at hp
    rw [List.mem_singleton.1 hp]
    exact ⟨⟨rfl, rfl⟩, fun t _ => ⟨_, rfl⟩⟩

/-- the port of a bus receives what the port of a component sends -/
theorem bus_ports (ty : PType) : ∀ b ∈ ty.kind.buses, (∃ f, (b.2, [("flow", some f)]) ∈ ty.rules.ports) ∧ (ty.rules.sends b.2 "flow").isSome = true := by
  have one : ∀ {x : String × String} {P : String × String → Prop}, P x → ∀ b ∈ [x], P b := fun h b hb => List.mem_singleton.1 hb ▸ h
  cases ty with
  | generators => exact one ⟨⟨_, .head _⟩, rfl⟩
  | loads => exact one ⟨⟨_, .head _⟩, rfl⟩
  | buses => exact fun b hb => absurd hb List.not_mem_nil
  | links =>
    intro b hb
    rcases List.mem_cons.1 hb with rfl | hb
    · exact ⟨⟨_, .head _⟩, rfl⟩
    · exact one (x := ("bus1", "p1_port")) (P := fun b => (∃ f, (b.2, [("flow", some f)]) ∈ Rules.pypsaLink.ports) ∧
        (Rules.pypsaLink.sends b.2 "flow").isSome = true) ⟨⟨_, .tail _ (.head _)⟩, rfl⟩ b hb
  | storageUnits => exact one ⟨⟨_, .head _⟩, rfl⟩
  | stores => exact one ⟨⟨_, .head _⟩, rfl⟩

theorem rulesOf_bus (h : PConverted pf n T s) {b : String} (hb : b ∈ (n.table .buses).rows.map (·.1)) :
    (s.input T).rulesOf b = some Rules.bus := by
  obtain ⟨r, hr, rfl⟩ := List.mem_map.1 hb
  have := h.rulesOf_line .buses hr
  rwa [show PType.suffix .buses = "" from rfl, String.append_empty] at this

theorem rulesOf_limit (h : PConverted pf n T s) {r : PLine} (hr : r ∈ n.globalConstraints.rows) :
    ∃ R, (s.input T).rulesOf r.1 = some R ∧ (R = Rules.co2Max ∨ R = Rules.co2Eq) := by
  obtain ⟨c, h1, h2, -⟩ := h.component?_limit hr
  unfold StudyInput.rulesOf
  rw [h1]
  exact limit_rules h2

theorem of_emitter {e : String} (he : e ∈ allEmitters n) :
    ∃ ty : PType, (ty = .generators ∨ ty = .stores ∨ ty = .storageUnits) ∧ ∃ r ∈ (n.table ty).rows, carrierOf r.2 ≠ some "null" ∧
      e = r.1 ++ ty.suffix := by
  unfold allEmitters at he
  rw [List.mem_append, List.mem_append] at he
  rcases he with (he | he) | he <;> obtain ⟨r, hr, rfl⟩ := List.mem_map.1 he <;> obtain ⟨hr, hc⟩ := List.mem_filter.1 hr
  · exact ⟨.generators, .inl rfl, r, hr, of_decide_eq_true hc, rfl⟩
  · exact ⟨.stores, .inr (.inl rfl), r, hr, of_decide_eq_true hc, rfl⟩
  · exact ⟨.storageUnits, .inr (.inr rfl), r, hr, of_decide_eq_true hc, rfl⟩

theorem of_connection (h : PConverted pf n T s) {x : InputConnection} (hx : x ∈ s.system.connections) :
    (∃ ty : PType, ∃ b ∈ ty.kind.buses, ∃ r ∈ (n.table ty).rows, IsBusConnection ty.kind b r x) ∨
    ∃ r ∈ n.globalConstraints.rows, ∃ e ∈ allEmitters n, x = ⟨r.1, "emission_port", e, "emission_port"⟩ := by
  obtain ⟨parts, h1, h2⟩ := h.study.connections
  rw [h1, List.mem_append] at hx
  rcases hx with hx | hx
  · obtain ⟨ys, hys, hx⟩ := List.mem_flatten.1 hx
    obtain ⟨zs, hzs, hy⟩ := List.mem_flatten.1 hys
    obtain ⟨k, hk, hk2⟩ := forall₂_right h2 hzs
    obtain ⟨b, hb', hb2⟩ := forall₂_right hk2 hy
    obtain ⟨r, hr, h3⟩ := forall₂_right hb2 hx
    rw [kind_of_mem hk] at hb' h3
    exact .inl ⟨k.ty, b, hb', r, hr, h3⟩
  · obtain ⟨r, hr, hx⟩ := List.mem_flatMap.1 hx
    obtain ⟨e, he, rfl⟩ := List.mem_map.1 hx
    exact .inr ⟨r, hr, e, he, rfl⟩

theorem joins (h : PConverted pf n T s) {x : InputConnection} (hx : x ∈ s.system.connections) : (s.input T).Joins x := by
  rcases h.of_connection hx with ⟨ty, b, hb, r, hr, h1, h2, h3, h4⟩ | ⟨r, hr, e, he, rfl⟩
  · have hbus := h.buses ty.kind ty.kind_mem b hb r (by rw [ty.kind_ty]; exact hr) _ h1
    obtain ⟨⟨f, hf⟩, hs⟩ := bus_ports ty b hb
    refine ⟨Rules.bus, ty.rules, [("flow", none)], [("flow", some f)], h.rulesOf_bus hbus, ?_, ?_, ?_, rfl, ?_⟩
    · rw [h3, ty.kind_suffix]
      exact h.rulesOf_line ty hr
    · rw [h2]
      exact .head _
    · rw [h4]
      exact hf
    · intro g hg
      simp only [List.map_cons, List.map_nil, List.mem_singleton] at hg
      subst hg
      rw [h2, h4, hs]
      decide
  · obtain ⟨R, hR, hRR⟩ := h.rulesOf_limit hr
    obtain ⟨ty, hty, r', hr', -, rfl⟩ := of_emitter he
    have hp : (∃ f, ("emission_port", [("emission", some f)]) ∈ ty.rules.ports) ∧ (ty.rules.sends "emission_port" "emission").isSome = true := by
      rcases hty with rfl | rfl | rfl <;> exact ⟨⟨_, .tail _ (.head _)⟩, rfl⟩
    obtain ⟨⟨f, hf⟩, hs⟩ := hp
    refine ⟨R, ty.rules, [("emission", none)], [("emission", some f)], hR, h.rulesOf_line ty hr', ?_, hf, rfl, ?_⟩
    · rcases hRR with rfl | rfl <;> exact .head _
    · intro g hg
      simp only [List.map_cons, List.map_nil, List.mem_singleton] at hg
      subst hg
      simp only [hs]
      rcases hRR with rfl | rfl <;> decide

/-- The study is complete, for storage units that the shipped model describes. -/
theorem complete (h : PConverted pf n T s) (hst : ∀ r ∈ (n.table .storageUnits).rows, ∀ t < T,
      0 ≤ n.attr pf .storageUnits r "p_max_pu" t * used pf n .storageUnits r "p_nom_max" t ∧
      0 ≤ n.attr pf .storageUnits r "max_hours" t * used pf n .storageUnits r "p_nom_max" t)
    {libs : Dict String Library} (hl : (Dict.get? libs "pypsa_models").isSome = true) : (s.input T).Complete libs where
  models := by
    intro c hc
    rcases h.of_declared hc with ⟨ty, r, hr, hc⟩ | ⟨r, hr, hc⟩
    · exact ⟨⟨_, model_of hc⟩, by rw [hc.2.1, library_of]; exact hl⟩
    · obtain ⟨R, hR, -⟩ := limit_rules hc
      refine ⟨⟨R, hR⟩, ?_⟩
      rcases hc.2.2.1 with ⟨-, hm⟩ | ⟨-, hm⟩ <;> rw [hm] <;> exact hl
  parameters := by
    intro c hc R hR q hq
    rcases h.of_declared hc with ⟨ty, r, hr, hc⟩ | ⟨r, hr, hc⟩
    · rw [model_of hc] at hR
      cases hR
      have := declares ty q hq
      rw [← params_ids hc] at this
      obtain ⟨p, hp, he⟩ := List.mem_map.1 this
      exact ⟨p, hp, he⟩
    · obtain ⟨R', hR', hRR⟩ := limit_rules hc
      rw [hR] at hR'
      cases hR'
      obtain ⟨v, -, hp⟩ := h.limit_param hr hc
      rw [hp]
      refine ⟨_, List.mem_singleton_self _, ?_⟩
      rcases hRR with rfl | rfl <;> rw [List.mem_singleton.1 hq]
  readable := fun c hc p hp => (h.readable hc hp).1
  covered := by
    intro c hc p hp t ht sc hsc
    obtain ⟨i, hi, rfl⟩ := List.mem_map.1 ht
    have : sc = 0 := Nat.lt_one_iff.1 hsc
    subst this
    exact (h.readable hc hp).2 i (List.mem_range.1 hi)
  connections := fun x hx => h.joins hx
  values := by
    intro c hc d hd t sc ht hsc
    have : sc = 0 := Nat.lt_one_iff.1 hsc
    subst this
    rw [length_steps] at ht
    rcases h.of_declared hc with ⟨ty, r, hr, hc⟩ | ⟨r, hr, hc⟩
    · have P : ∀ a ∈ ty.kind.params, ((s.input T).own (fun _ => 0) c.id).p a.2 t (0 : Nat) = used pf n ty r a.1 t := by
        intro a ha
        have := h.parameter_eq hr ha ht
        rw [← ty.kind_suffix, ← hc.1] at this
        exact this
      rw [hc.2.1] at hd
      cases ty with
      | generators =>
        have hd : ("pypsa_models.generator", d) ∈ Rules.needs := hd
        simp [Rules.needs] at hd
        subst hd
        refine ⟨?_, ?_⟩
        · rw [P ("p_nom_min", "p_nom_min") (by decide), P ("p_nom_max", "p_nom_max") (by decide)]
          exact h.used_le (capa := "p_nom") rfl hr t
        · rw [P ("efficiency", "efficiency") (by decide), used_plain (by decide)]
          exact h.data.efficiencies.1 r hr t ht
      | loads =>
        have hd : ("pypsa_models.load", d) ∈ Rules.needs := hd
        simp [Rules.needs] at hd
      | buses =>
        have hd : ("pypsa_models.bus", d) ∈ Rules.needs := hd
        simp [Rules.needs] at hd
      | links =>
        have hd : ("pypsa_models.link", d) ∈ Rules.needs := hd
        simp [Rules.needs] at hd
        subst hd
        show _ ≤ _
        rw [P ("p_nom_min", "p_nom_min") (by decide), P ("p_nom_max", "p_nom_max") (by decide)]
        exact h.used_le (capa := "p_nom") rfl hr t
      | storageUnits =>
        have hd : ("pypsa_models.storage_unit", d) ∈ Rules.needs := hd
        simp [Rules.needs] at hd
        subst hd
        refine ⟨?_, ?_, ?_, ?_⟩
        · rw [P ("p_nom_min", "p_nom_min") (by decide), P ("p_nom_max", "p_nom_max") (by decide)]
          exact h.used_le (capa := "p_nom") rfl hr t
        · rw [P ("p_max_pu", "p_max_pu") (by decide), P ("p_nom_max", "p_nom_max") (by decide), used_plain (by decide)]
          exact (hst r hr t ht).1
        · rw [P ("max_hours", "max_hours") (by decide), P ("p_nom_max", "p_nom_max") (by decide), used_plain (by decide)]
          exact (hst r hr t ht).2
        · rw [P ("efficiency_dispatch", "efficiency_dispatch") (by decide), used_plain (by decide)]
          exact h.data.efficiencies.2 r hr t ht
      | stores =>
        have hd : ("pypsa_models.store", d) ∈ Rules.needs := hd
        simp [Rules.needs] at hd
        subst hd
        show _ ≤ _
        rw [P ("e_nom_min", "e_nom_min") (by decide), P ("e_nom_max", "e_nom_max") (by decide)]
        exact h.used_le (capa := "e_nom") rfl hr t
    · rcases hc.2.2.1 with ⟨-, hm⟩ | ⟨-, hm⟩ <;> rw [hm] at hd <;> simp [Rules.needs] at hd

end PConverted
end Verif
