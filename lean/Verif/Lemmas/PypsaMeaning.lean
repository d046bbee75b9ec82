import Verif.Lemmas.PypsaComplete

/-!
# The meaning of the study that a PyPSA network is converted to: what ports receive
-/

namespace Verif
open Verif.Props
namespace PConverted
variable {pf : String → Option Num} {n : PNetwork} {T : Nat} {s : PStudy}

theorem sum_forall₂ {α β} {P : α → β → Prop} {as : List α} {bs : List β} (h : List.Forall₂ P as bs) {f : α → ℚ} {g : β → ℚ}
    (hfg : ∀ a ∈ as, ∀ b, P a b → g b = f a) : (bs.map g).sum = (as.map f).sum := by
  induction h with
  | nil => rfl
  | cons h _ ih =>
    rw [List.map_cons, List.map_cons, List.sum_cons, List.sum_cons, hfg _ List.mem_cons_self _ h,
      ih fun a ha b hb => hfg a (List.mem_cons_of_mem _ ha) b hb]

theorem sum_flatten {α} (l : List (List α)) (g : α → ℚ) : (l.flatten.map g).sum = (l.map fun ys => (ys.map g).sum).sum := by
  induction l with
  | nil => rfl
  | cons a l ih => rw [List.flatten_cons, List.map_append, List.sum_append, ih, List.map_cons, List.sum_cons]

theorem sum_flatMap {α β} (l : List α) (k : α → List β) (g : β → ℚ) : ((l.flatMap k).map g).sum = (l.map fun a => ((k a).map g).sum).sum := by
  induction l with
  | nil => rfl
  | cons a l ih => rw [List.flatMap_cons, List.map_append, List.sum_append, ih, List.map_cons, List.sum_cons]

theorem sum_filter {α} (l : List α) (p : α → Bool) (w : α → ℚ) : (l.map fun r => if p r = true then w r else 0).sum = ((l.filter p).map w).sum := by
  induction l with
  | nil => rfl
  | cons a l ih =>
    rw [List.map_cons, List.sum_cons, ih]
    by_cases h : p a = true
    · rw [if_pos h, List.filter_cons_of_pos h, List.map_cons, List.sum_cons]
    · rw [if_neg h, List.filter_cons_of_neg h, zero_add]

theorem sum_single {l : List PLine} (nd : (l.map (·.1)).Nodup) {r : PLine} (hr : r ∈ l) (w : ℚ) :
    (l.map fun x => if x.1 = r.1 then w else 0).sum = w := by
  induction l with
  | nil => cases hr
  | cons a l ih =>
    rw [List.map_cons, List.nodup_cons] at nd
    rw [List.map_cons, List.sum_cons]
    rcases List.mem_cons.1 hr with rfl | hr
    · rw [if_pos rfl]
      have : (l.map fun x => if x.1 = r.1 then w else 0).sum = 0 := by
        apply List.sum_eq_zero
        intro q hq
        obtain ⟨x, hx, rfl⟩ := List.mem_map.1 hq
        rw [if_neg]
        rintro h
        exact nd.1 (h ▸ List.mem_map.2 ⟨x, hx, rfl⟩)
      rw [this, add_zero]
    · rw [ih nd.2 hr, if_neg, zero_add]
      rintro h
      exact nd.1 (h ▸ List.mem_map.2 ⟨r, hr, rfl⟩)

/-- what the port of a component sends, from its own values -/
def sentBy (ty : PType) (port field : String) (R : Readings) (t : Nat) : ℚ :=
  ((ty.rules.sends port field).map fun f => f R t 0).getD 0

theorem carried_line (h : PConverted pf n T s) (σ : TermKey → ℚ) {x : InputConnection} {field : String} {R : Rules}
    (hR : (s.input T).rulesOf x.component1 = some R) (hn : R.sends x.port1 field = none) {ty : PType} {r : PLine} (hr : r ∈ (n.table ty).rows)
    (h2 : x.component2 = r.1 ++ ty.suffix) (t : Nat) :
    (s.input T).carried σ x field t 0 = sentBy ty x.port2 field ((s.input T).own σ (r.1 ++ ty.suffix)) t := by
  have h1 : (s.input T).sent σ x.component1 x.port1 field = none := by
    unfold StudyInput.sent
    rw [hR, Option.bind_some, hn]
    rfl
  have h3 : (s.input T).sent σ x.component2 x.port2 field =
      (ty.rules.sends x.port2 field).map fun f => f ((s.input T).own σ (r.1 ++ ty.suffix)) := by
    unfold StudyInput.sent
    rw [h2, h.rulesOf_line ty hr, Option.bind_some]
  unfold StudyInput.carried sentBy
  rw [h1, h3]
  cases ty.rules.sends x.port2 field <;> rfl

theorem bus_port_names (ty : PType) : ∀ b ∈ ty.kind.buses, b.2 ≠ "q_balance_port" ∧ b.2 ≠ "emission_port" := by
  cases ty <;> decide

theorem id_ne_bus (h : PConverted pf n T s) {ty : PType} {b : String × String} (hb : b ∈ ty.kind.buses) {r : PLine}
    (hr : r ∈ (n.table ty).rows) {r' : PLine} (hr' : r' ∈ (n.table .buses).rows) : r.1 ++ ty.suffix ≠ r'.1 := by
  intro he
  have := kind_of_id h.names ty.kind_mem (PType.kind_mem .buses) (a := r.1) (b := r'.1)
    (by rw [ty.kind_ty]; exact List.mem_map.2 ⟨r, hr, rfl⟩) (List.mem_map.2 ⟨r', hr', rfl⟩)
    (by rw [ty.kind_suffix, he]; exact String.append_empty.symm)
  rw [this.1] at hb
  exact absurd hb List.not_mem_nil

theorem id_ne_limit (h : PConverted pf n T s) {ty : PType} {r : PLine} (hr : r ∈ (n.table ty).rows) {r' : PLine}
    (hr' : r' ∈ n.globalConstraints.rows) : r.1 ++ ty.suffix ≠ r'.1 := by
  intro he
  have hn := allIds_nodup h.names
  unfold allIds at hn
  refine (List.nodup_append.1 hn).2.2 (r.1 ++ ty.suffix) ?_ r'.1 (List.mem_map.2 ⟨r', hr', rfl⟩) he
  refine List.mem_flatMap.2 ⟨ty.kind, ty.kind_mem, List.mem_map.2 ⟨r, ?_, by rw [ty.kind_suffix]⟩⟩
  rw [ty.kind_ty]
  exact hr

/-- what a bus receives, component by component -/
theorem received_bus (h : PConverted pf n T s) (σ : TermKey → ℚ) {r' : PLine} (hr' : r' ∈ (n.table .buses).rows) (t : Nat) :
    ((s.input T).readings σ r'.1).received "p_balance_port" "flow" t 0 =
      (pypsaKinds.map fun k => (k.buses.map fun b => ((n.attached k.ty b.1 r'.1).map fun r =>
        sentBy k.ty b.2 "flow" ((s.input T).own σ (r.1 ++ k.ty.suffix)) t).sum).sum).sum := by
  obtain ⟨parts, h1, h2⟩ := h.study.connections
  show ((s.system.connections.map _).sum) = _
  rw [h1, List.map_append, List.sum_append, sum_flatten, sum_flatten]
  have hz : ∀ l : List ℚ, (∀ q ∈ l, q = 0) → l.sum = 0 := fun l hl => List.sum_eq_zero hl
  rw [hz (List.map _ (n.globalConstraints.rows.flatMap _)), add_zero]
  · refine sum_forall₂ h2 fun k hk xs hxs => ?_
    refine sum_forall₂ hxs fun b hb ys hys => ?_
    unfold PNetwork.attached
    rw [← sum_filter]
    refine sum_forall₂ hys fun r hr x hx => ?_
    obtain ⟨h3, h4, h5, h6⟩ := hx
    have hk' := kind_of_mem hk
    have hb' : b ∈ k.ty.kind.buses := hk' ▸ hb
    have hsuf : k.suffix = k.ty.suffix := by rw [← k.ty.kind_suffix, ← hk']
    have hbus := h.buses k hk b hb r hr _ h3
    rw [hsuf] at h5
    rw [if_neg (c := x.component2 = r'.1 ∧ x.port2 = "p_balance_port"), add_zero]
    · by_cases hc : x.component1 = r'.1
      · rw [if_pos ⟨hc, h4⟩, if_pos (by rw [h3, hc]; exact decide_eq_true rfl)]
        rw [h.carried_line σ (h.rulesOf_bus hbus) (by rw [h4]; rfl) hr h5, h6]
      · rw [if_neg (fun h => hc h.1), if_neg]
        rw [h3]
        intro hd
        exact hc (Cell.str.inj (Option.some.inj (of_decide_eq_true hd)))
    · rintro ⟨h7, -⟩
      rw [h5] at h7
      exact h.id_ne_bus hb' hr hr' h7
  · intro q hq
    obtain ⟨x, hx, rfl⟩ := List.mem_map.1 hq
    obtain ⟨r, hr, hx⟩ := List.mem_flatMap.1 hx
    obtain ⟨e, he, rfl⟩ := List.mem_map.1 hx
    simp

/-- buses receive no reactive power -/
theorem received_q (h : PConverted pf n T s) (σ : TermKey → ℚ) (id : String) (t : Nat) :
    ((s.input T).readings σ id).received "q_balance_port" "flow" t 0 = 0 := by
  show ((s.system.connections.map _).sum) = _
  apply List.sum_eq_zero
  intro q hq
  obtain ⟨x, hx, rfl⟩ := List.mem_map.1 hq
  rcases h.of_connection hx with ⟨ty, b, hb, r, hr, h1, h2, h3, h4⟩ | ⟨r, hr, e, he, rfl⟩
  · rw [if_neg, if_neg, add_zero]
    · rintro ⟨-, h5⟩
      rw [h4] at h5
      exact (bus_port_names ty b hb).1 h5
    · rintro ⟨-, h5⟩
      rw [h2] at h5
      exact absurd h5 (by decide)
  · simp

/-- what a limit receives -/
theorem received_limit (h : PConverted pf n T s) (σ : TermKey → ℚ) {r' : PLine} (hr' : r' ∈ n.globalConstraints.rows) (t : Nat) :
    ((s.input T).readings σ r'.1).received "emission_port" "emission" t 0 =
      (((n.table .generators).rows.filter fun r => carrierOf r.2 ≠ some "null").map fun r =>
        sentBy .generators "emission_port" "emission" ((s.input T).own σ (r.1 ++ "_generator")) t).sum := by
  obtain ⟨parts, h1, h2⟩ := h.study.connections
  show ((s.system.connections.map _).sum) = _
  have hbusmem : ∀ x ∈ parts.flatten.flatten, ∃ ty : PType, ∃ b ∈ ty.kind.buses, x.port1 = "p_balance_port" ∧ x.port2 = b.2 := by
    intro x hx
    obtain ⟨ys, hys, hx⟩ := List.mem_flatten.1 hx
    obtain ⟨zs, hzs, hy⟩ := List.mem_flatten.1 hys
    obtain ⟨k, hk, hk2⟩ := forall₂_right h2 hzs
    obtain ⟨b, hb', hb2⟩ := forall₂_right hk2 hy
    obtain ⟨r, hr, -, h4, -, h6⟩ := forall₂_right hb2 hx
    rw [kind_of_mem hk] at hb'
    exact ⟨k.ty, b, hb', h4, h6⟩
  rw [h1, List.map_append, List.sum_append, List.sum_eq_zero (l := List.map _ parts.flatten.flatten), zero_add]
  · rw [sum_flatMap]
    have hval : ∀ r ∈ n.globalConstraints.rows, ∀ ty : PType, ∀ x ∈ (n.table ty).rows,
        (s.input T).carried σ ⟨r.1, "emission_port", x.1 ++ ty.suffix, "emission_port"⟩ "emission" t 0 =
          sentBy ty "emission_port" "emission" ((s.input T).own σ (x.1 ++ ty.suffix)) t := by
      intro r hr ty x hx
      obtain ⟨R, hR, hRR⟩ := h.rulesOf_limit hr
      exact h.carried_line σ (x := ⟨r.1, "emission_port", x.1 ++ ty.suffix, "emission_port"⟩) hR
        (by rcases hRR with rfl | rfl <;> rfl) hx rfl t
    have hper : ∀ r ∈ n.globalConstraints.rows, ((((allEmitters n).map fun e => (⟨r.1, "emission_port", e, "emission_port"⟩ : InputConnection)).map
        fun c => (if c.component1 = r'.1 ∧ c.port1 = "emission_port" then (s.input T).carried σ c "emission" t 0 else 0) +
          (if c.component2 = r'.1 ∧ c.port2 = "emission_port" then (s.input T).carried σ c "emission" t 0 else 0)).sum) =
        if r.1 = r'.1 then (((n.table .generators).rows.filter fun r => carrierOf r.2 ≠ some "null").map fun r =>
          sentBy .generators "emission_port" "emission" ((s.input T).own σ (r.1 ++ "_generator")) t).sum else 0 := by
      intro r hr
      rw [List.map_map]
      have hterm : ∀ e ∈ allEmitters n, ((fun c : InputConnection =>
          (if c.component1 = r'.1 ∧ c.port1 = "emission_port" then (s.input T).carried σ c "emission" t 0 else 0) +
          (if c.component2 = r'.1 ∧ c.port2 = "emission_port" then (s.input T).carried σ c "emission" t 0 else 0)) ∘
          fun e => (⟨r.1, "emission_port", e, "emission_port"⟩ : InputConnection)) e =
          if r.1 = r'.1 then (s.input T).carried σ ⟨r.1, "emission_port", e, "emission_port"⟩ "emission" t 0 else 0 := by
        intro e he
        obtain ⟨ty, -, x, hx, -, rfl⟩ := of_emitter he
        have := h.id_ne_limit hx hr'
        simp [this]
      rw [List.map_congr_left hterm]
      by_cases hrr : r.1 = r'.1
      · simp only [if_pos hrr]
        unfold allEmitters emitters
        rw [List.map_append, List.map_append, List.sum_append, List.sum_append, List.map_map, List.map_map, List.map_map]
        rw [List.sum_eq_zero (l := List.map _ (List.filter _ (n.table .stores).rows)),
          List.sum_eq_zero (l := List.map _ (List.filter _ (n.table .storageUnits).rows)), add_zero, add_zero]
        · congr 1
          refine List.map_congr_left fun x hx => ?_
          exact hval r hr .generators x (List.mem_filter.1 hx).1
        · intro q hq
          obtain ⟨x, hx, rfl⟩ := List.mem_map.1 hq
          exact hval r hr .storageUnits x (List.mem_filter.1 hx).1
        · intro q hq
          obtain ⟨x, hx, rfl⟩ := List.mem_map.1 hq
          exact hval r hr .stores x (List.mem_filter.1 hx).1
      · simp [hrr]
    rw [List.map_congr_left hper]
    refine sum_single ?_ hr' _
    have := h.names.plain
    exact (List.nodup_append.1 this).2.1
  · intro q hq
    obtain ⟨x, hx, rfl⟩ := List.mem_map.1 hq
    obtain ⟨ty, b, hb, h3, h4⟩ := hbusmem x hx
    rw [if_neg, if_neg, add_zero]
    · rintro ⟨-, h5⟩
      rw [h4] at h5
      exact (bus_port_names ty b hb).2 h5
    · rintro ⟨-, h5⟩
      rw [h3] at h5
      exact absurd h5 (by decide)

end PConverted
end Verif
