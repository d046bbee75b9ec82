import Verif.Props.StepsAny
import Verif.Props.Steps
import Verif.Props.RearrangedExamples

/-!
# C88 for what the command prints, with tiny coefficients
-/

namespace Verif.Props
open Verif Verif.Expr Verif.OptCtx Verif.Shipped

/-- `e` has no time operator, and its variables have one value for each timestep -/
def instantIn (m : Model) (e : Expr) : Bool := e.subs.all fun y => !y.isTimeOp && match y with
  | .var n => ((m.variables_.get? n).map (·.structure_.time)).getD false
  | _ => true

/-- a check of `Unlinked` for a model: costs are sums over the block -/
def unlinkedModel (m : Model) : Bool :=
  m.variables_.values.all (fun v => v.structure_.time && v.lowerBound.toList.all (instantIn m) && v.upperBound.toList.all (instantIn m)) &&
  m.allConstraints.all (fun k => instantIn m k.expression) &&
  m.objectives.all (fun e => match e with
    | .scen (.allsum e) _ => instantIn m e
    | _ => false) &&
  m.portFieldsDefinitions.values.all fun d => instantIn m d.definition

theorem shipped_unlinked : ∀ e ∈ shippedModels, e.1 ∈ instantModels → unlinkedModel e.2.1 = true := by
  have : (shippedModels.all fun e => !(decide (e.1 ∈ instantModels)) || unlinkedModel e.2.1) = true := by decide +kernel
  intro e he h
  have := List.all_eq_true.1 this e he
  simpa [h] using this

section
variable {I J : StudyInput} {net : Network} {db db' : DataBase}

theorem instantIn_instant (hs : I.Sound) (l : I.Linked net) {c : Component} (hc : c ∈ net.allComponents) {e : Expr}
    (h : instantIn c.model e = true) : (I.context net db).Instant c.id e := by
  have hg : (I.context net db).network.getComponent c.id = .ok c := getComponent_of_mem (l.networkOk db hs) hc
  unfold instantIn at h
  rw [List.all_eq_true] at h
  refine ⟨fun y hy => ?_, fun n hn => ?_⟩
  · have := h y hy
    simp only [Bool.and_eq_true, Bool.not_eq_true'] at this
    exact this.1
  · have := h _ hn
    simp only [Bool.and_eq_true, Bool.not_eq_true'] at this
    unfold OptCtx.varIdx
    rw [hg]
    have := this.2
    cases hv : Dict.get? c.model.variables_ n with
    | none => rw [hv] at this; cases this
    | some v => rw [hv] at this; simpa [hv] using this

theorem unlinked_model (hu : I.Unlinked) (l : I.Linked net) {c : Component} (hc : c ∈ net.allComponents) : unlinkedModel c.model = true := by
  obtain ⟨ic, hic, -, r, hr⟩ := l.rules hc
  exact shipped_unlinked _ hr (hu ic hic)

theorem unlinked_context (hu : I.Unlinked) (hs : I.Sound) (l : I.Linked net) (db : DataBase) : (I.context net db).Unlinked := by
  refine ⟨fun c hc v hv => ?_, fun c hc v hv b hb => ?_, fun c hc k hk e he => ?_, fun c hc e he => ?_, fun k hk q f d hq hd => ?_⟩
  · rw [context_variables] at hv
    have := unlinked_model hu l hc
    simp only [unlinkedModel, Bool.and_eq_true, List.all_eq_true] at this
    exact (this.1.1.1 v hv).1.1
  · rw [context_variables] at hv
    have := unlinked_model hu l hc
    simp only [unlinkedModel, Bool.and_eq_true, List.all_eq_true] at this
    have := this.1.1.1 v hv
    rcases hb with hb | hb
    · exact instantIn_instant hs l hc (this.1.2 b (by simp [hb]))
    · exact instantIn_instant hs l hc (this.2 b (by simp [hb]))
  · rw [context_constraints] at hk
    have := unlinked_model hu l hc
    simp only [unlinkedModel, Bool.and_eq_true, List.all_eq_true] at this
    have hkk := (l.checked hc).constraint_ok hk
    have lit : ∀ v, (I.context net db).Instant c.id (.lit v) := fun v => instantIn_instant hs l hc (by simp [instantIn, subs, isTimeOp])
    rcases he with rfl | rfl | rfl
    · exact instantIn_instant hs l hc (this.1.1.2 k hk)
    · obtain ⟨v, hv⟩ := (isBoundLit_ok hkk.2.2.1).2
      rw [hv]; exact lit v
    · obtain ⟨v, hv⟩ := (isBoundLit_ok hkk.2.2.2).2
      rw [hv]; exact lit v
  · rw [context_contributions] at he
    have := unlinked_model hu l hc
    simp only [unlinkedModel, Bool.and_eq_true, List.all_eq_true] at this
    have := this.1.2 e he
    split at this
    · exact .scen (.block (instantIn_instant hs l hc this))
    · cases this
  · have hcl := l.closed (db := db) hs k hk
    have hc : q.component ∈ net.allComponents := by
      rcases hq with rfl | rfl
      · exact hcl.1
      · exact hcl.2
    have := unlinked_model hu l hc
    simp only [unlinkedModel, Bool.and_eq_true, List.all_eq_true] at this
    unfold PortRef.fieldDef at hd
    obtain ⟨z, hz, rfl⟩ := Option.map_eq_some_iff.1 hd
    exact instantIn_instant hs l hc (this.2 _ (List.mem_map.2 ⟨_, Dict.mem_of_get? hz, rfl⟩))

theorem steadyBounds_context (l : I.Linked net) (db : DataBase) : (I.context net db).SteadyBounds := by
  intro c hc k hk _ b hb σ t s _ _
  rw [context_constraints] at hk
  have hkk := (l.checked hc).constraint_ok hk
  obtain ⟨v, rfl⟩ : ∃ v, b = .lit v := by
    rcases hb with rfl | rfl
    · exact (isBoundLit_ok hkk.2.2.1).2
    · exact (isBoundLit_ok hkk.2.2.2).2
  cases v <;> simp [mden]

theorem atStep_linked {k : Nat} (h : I.AtStep k J) (l : I.Linked net) : J.Linked net := by
  refine ⟨?_, l.keyed, ?_⟩
  · rw [h.declared]
    exact l.comps
  · rw [h.system]
    exact l.conns

theorem atStep_context {k : Nat} (h : I.AtStep k J) (hs : I.Sound) (hs' : J.Sound) (l : I.Linked net)
    (hdb : buildDataBase I.load I.system = .ok db) (hdb' : buildDataBase J.load J.system = .ok db') :
    (I.context net db).AtStep k (J.context net db') where
  network := rfl
  length := h.length
  scenarios := h.scenarios
  strategy := rfl
  risk := rfl
  data c hc n s hs0 hs1 := by
    have e1 := (atStep_linked h l).dataValue_eq hs' hdb' hc n 0 s hs0
    have e2 := l.dataValue_eq hs hdb hc n k s hs0
    refine e1.trans (Eq.trans ?_ e2.symm)
    obtain ⟨w, rfl⟩ : ∃ w : Nat, s = w := ⟨s.toNat, by omega⟩
    exact h.parameter c.id n (by exact_mod_cast hs1)

end

/-- **C88, the command.** A command on a study where nothing links the timesteps, and for each timestep a command on this timestep alone.
All end without an error.  The first prints status 0 exactly when all the others do, and then it prints the sum of their costs; also with tiny
coefficients, which are dropped in all these problems. -/
theorem c88_command (solve : Solver → Answer) (hsolve : RightSolver solve) (os : Nat → SetOrder) (ho : ∀ i, (os i).Valid) (fuel : Nat)
    (d : Disk) (f : CliFlags) {paths : List String} {comp : String} {tables : Option String} {ls : List InputLibrary} {s : InputSystem}
    (h : ShippedCommand d f paths comp tables ls s) (hfuel : 3 * ls.length + 2 ≤ fuel) (hu : (d.study s tables f).Unlinked)
    (d' : Nat → Disk) (f' : Nat → CliFlags) {paths' : Nat → List String} {comp' : Nat → String} {tables' : Nat → Option String}
    {ls' : Nat → List InputLibrary}
    (h' : ∀ k < (d.study s tables f).steps.length, ShippedCommand (d' k) (f' k) (paths' k) (comp' k) (tables' k) (ls' k) s ∧
      3 * (ls' k).length + 2 ≤ fuel ∧ (d.study s tables f).AtStep k ((d' k).study s (tables' k) (f' k))) :
    ∃ o, mainOutput solve textParser os fuel d f = some (.ok o) ∧
    ∃ os' : Nat → Printed, (∀ k < (d.study s tables f).steps.length, mainOutput solve textParser os fuel (d' k) (f' k) = some (.ok (os' k))) ∧
      (o.status = 0 ↔ ∀ k < (d.study s tables f).steps.length, (os' k).status = 0) ∧
      (o.status = 0 → o.cost = ∑ k ∈ Finset.range (d.study s tables f).steps.length, (os' k).cost) := by
  obtain ⟨net, db, o, l1, b1, h1, s1, -⟩ := shipped_prints hsolve ho h hfuel
  have hall : ∀ k, ∃ (o' : Printed) (db' : DataBase), k < (d.study s tables f).steps.length →
      mainOutput solve textParser os fuel (d' k) (f' k) = some (.ok o') ∧
      buildDataBase ((d' k).study s (tables' k) (f' k)).load ((d' k).study s (tables' k) (f' k)).system = .ok db' ∧
      o'.Says (((d' k).study s (tables' k) (f' k)).context net db').KeptFeasible (((d' k).study s (tables' k) (f' k)).context net db').keptCost := by
    intro k
    by_cases hk : k < (d.study s tables f).steps.length
    · obtain ⟨q1, q2, q3⟩ := h' k hk
      obtain ⟨net', db', o', l2, b2, h2, s2, -⟩ := shipped_prints hsolve ho q1 q2
      refine ⟨o', db', fun _ => ⟨h2, b2, ?_⟩⟩
      have l3 := atStep_linked q3 l1
      have hsame : s.Renamed (fun n => n) s := rearranged_refl s
      have hren := renamed_networks hsame (renamed_part (I := (d' k).study s (tables' k) (f' k)) hsame) q1.sound q1.sound q1.joins l3 l2 b2 b2
      have key := renamed_leastCost hren (fun _ _ ha => renamed_net_kept hren (l3.networkOk db' q1.sound) (l2.networkOk db' q1.sound)
        (l3.closed q1.sound) l3.ownSymbols ha)
      refine ⟨?_, fun h0 => (key _).1 (s2.least h0)⟩
      rw [s2.solved]
      exact exists_congr fun c => key c
    · exact ⟨⟨0, 0⟩, db, fun q => absurd q hk⟩
  choose o' db' ho' using hall
  refine ⟨o, h1, o', fun k hk => (ho' k hk).1, ?_⟩
  have hav := (c88_kept _ (l1.networkOk db h.sound) (l1.closed h.sound) l1.ownSymbols (unlinked_context hu h.sound l1 db) (steadyBounds_context l1 db)
    h.sound.scenarios (fun k => ((d' k).study s (tables' k) (f' k)).context net (db' k))
    (fun k hk => atStep_context (h' k hk).2.2 h.sound (h' k hk).1.sound l1 b1 (ho' k hk).2.1)).2
  have sy' := fun k hk => (ho' k hk).2.2
  have hst : o.status = 0 ↔ ∀ k < (d.study s tables f).steps.length, (o' k).status = 0 := by
    rw [s1.solved]
    constructor
    · rintro ⟨c, hc⟩ k hk
      obtain ⟨cs, q, -⟩ := (hav c).1 hc
      exact (sy' k hk).solved.2 ⟨_, q k hk⟩
    · intro q
      exact ⟨_, (hav _).2 ⟨fun k => (o' k).cost, fun k hk => (sy' k hk).least (q k hk), rfl⟩⟩
  refine ⟨hst, fun h0 => ?_⟩
  exact leastCost_unique (s1.least h0) ((hav _).2 ⟨fun k => (o' k).cost, fun k hk => (sy' k hk).least (hst.1 h0 k hk), rfl⟩)

end Verif.Props
