import Verif.Spec.Between
import Verif.Props.BetweenAny
import Verif.Props.UnitsShipped

/-!
# C91 for what the command prints: a system between two systems
-/

namespace Verif.Props
open Verif Verif.Expr Verif.OptCtx Verif.Shipped

/-! ## A check that energies are amounts -/

/-- no variable, nothing from a port, none of the amounts -/
def givenIn (as : List String) (e : Expr) : Bool := fixedIn e && e.subs.all fun
  | .par n => n ∉ as
  | _ => true

mutual
/-- amounts are added in the expression -/
def mixedIn (as : List String) : Expr → Bool
  | .lit _ => true
  | .var _ => true
  | .par _ => true
  | .portField _ _ => true
  | .agg (.portField _ _) _ => true
  | .neg e => mixedIn as e
  | .add es => allMixedIn as es
  | .mul l r => mixedIn as l && mixedIn as r && (givenIn as l || givenIn as r)
  | .div l r => mixedIn as l && givenIn as r
  | .shift e n => mixedIn as e && givenIn as n
  | .evalT e n => mixedIn as e && givenIn as n
  | .tsum e a b => mixedIn as e && givenIn as a && givenIn as b
  | .allsum e => mixedIn as e
  | .scen e _ => mixedIn as e
  | _ => false
/-- all operands -/
def allMixedIn (as : List String) : List Expr → Bool
  | [] => true
  | e :: es => mixedIn as e && allMixedIn as es
end

theorem allMixedIn_iff {as : List String} : ∀ {es : List Expr}, allMixedIn as es = true ↔ ∀ e ∈ es, mixedIn as e = true
  | [] => by simp [allMixedIn]
  | e :: es => by simp [allMixedIn, allMixedIn_iff (es := es)]

theorem givenIn_given {as : List String} {e : Expr} (h : givenIn as e = true) : e.Given (· ∈ as) := by
  simp only [givenIn, Bool.and_eq_true] at h
  exact ⟨fixedIn_fixed h.1, fun n hm hn => by simpa [hn] using List.all_eq_true.1 h.2 _ hm⟩

theorem mixedIn_mixed {as : List String} (e : Expr) : mixedIn as e = true → e.Mixed (· ∈ as) := by
  induction e using Expr.ind with
  | lit v => exact fun _ => .number v
  | var n => exact fun _ => .unknown n
  | par n => exact fun _ => .parameter n
  | portField p f => exact fun _ => .port p f
  | agg e a _ =>
    intro h
    cases e with
    | portField p f => exact .total p f a
    | _ => simp [mixedIn] at h
  | neg e ih => exact fun h => .neg (ih (by simpa [mixedIn] using h))
  | add es ih =>
    intro h
    simp only [mixedIn, allMixedIn_iff] at h
    exact .add fun e he => ih e he (h e he)
  | mul l r ihl ihr =>
    intro h
    simp only [mixedIn, Bool.and_eq_true, Bool.or_eq_true] at h
    exact .mul (ihl h.1.1) (ihr h.1.2) (h.2.imp givenIn_given givenIn_given)
  | div l r ihl ihr =>
    intro h
    simp only [mixedIn, Bool.and_eq_true] at h
    exact .div (ihl h.1) (givenIn_given h.2)
  | shift e n ih ihn =>
    intro h
    simp only [mixedIn, Bool.and_eq_true] at h
    exact .shift (ih h.1) (givenIn_given h.2)
  | evalT e n ih ihn =>
    intro h
    simp only [mixedIn, Bool.and_eq_true] at h
    exact .evalT (ih h.1) (givenIn_given h.2)
  | tsum e a b ih iha ihb =>
    intro h
    simp only [mixedIn, Bool.and_eq_true] at h
    exact .tsum (ih h.1.1) (givenIn_given h.1.2) (givenIn_given h.2)
  | allsum e ih => exact fun h => .allsum (ih (by simpa [mixedIn] using h))
  | scen e o ih => exact fun h => .scen (ih (by simpa [mixedIn] using h))
  | cmp l r c _ _ => intro h; simp [mixedIn] at h
  | cvar c n => intro h; simp [mixedIn] at h
  | cpar c n => intro h; simp [mixedIn] at h
  | pvar c n ti si => intro h; simp [mixedIn] at h
  | ppar c n ti si => intro h; simp [mixedIn] at h

/-- amounts are added in the model -/
def mixedModel (as : List String) (m : Model) : Bool :=
  m.variables_.values.all (fun v => v.lowerBound.toList.all (mixedIn as) && v.upperBound.toList.all (mixedIn as)) &&
  m.allConstraints.all (fun k => mixedIn as k.expression && mixedIn as k.lowerBound && mixedIn as k.upperBound) &&
  m.objectives.all (mixedIn as) && m.portFieldsDefinitions.values.all fun d => mixedIn as d.definition

theorem shipped_mixed : ∀ e ∈ shippedModels, e.1 ≠ "antares-historic.thermal" → mixedModel energies e.2.1 = true ∧
    ∀ v ∈ e.2.1.variables_.values, v.dataType = .continuous := by
  have : (shippedModels.all fun e => e.1 == "antares-historic.thermal" ||
      (mixedModel energies e.2.1 && e.2.1.variables_.values.all fun v => decide (v.dataType = .continuous))) = true := by decide +kernel
  intro e he h
  have := List.all_eq_true.1 this e he
  simpa [h] using this

section
variable {m : ℚ} {I J K : StudyInput} {net : Network} {db db1 db2 : DataBase}

/-- what the check of models says of the problem -/
theorem additive_context {as : List String} (hs : K.Sound) (l : K.Linked net) (model : ∀ c ∈ net.allComponents, mixedModel as c.model = true) :
    (K.context net db).Additive fun _ n => n ∈ as := by
  simp only [mixedModel, Bool.and_eq_true, List.all_eq_true] at model
  refine ⟨fun c hc v hv b hb => ?_, fun c hc k hk b hb => ?_, fun j hj q f d hq hd => ?_, fun c hc e he => ?_⟩
  · rw [context_variables] at hv
    have := (model c hc).1.1.1 v hv
    rcases hb with hb | hb
    · exact mixedIn_mixed b (this.1 b (by simp [hb]))
    · exact mixedIn_mixed b (this.2 b (by simp [hb]))
  · rw [context_constraints] at hk
    have := (model c hc).1.1.2 k hk
    rcases hb with rfl | rfl | rfl
    · exact mixedIn_mixed _ this.1.1
    · exact mixedIn_mixed _ this.1.2
    · exact mixedIn_mixed _ this.2
  · have hcl := l.closed (db := db) hs j hj
    have hc : q.component ∈ net.allComponents := by
      rcases hq with rfl | rfl
      · exact hcl.1
      · exact hcl.2
    unfold PortRef.fieldDef at hd
    obtain ⟨z, hz, rfl⟩ := Option.map_eq_some_iff.1 hd
    exact mixedIn_mixed _ ((model _ hc).2 _ (List.mem_map.2 ⟨_, Dict.mem_of_get? hz, rfl⟩))
  · rw [context_contributions] at he
    exact mixedIn_mixed e ((model c hc).1.2 e he)

theorem amounts_context (hs : K.Sound) (l : K.Linked net) (hth : K.WithoutThermal) : (K.context net db).Amounts fun _ n => n ∈ energies := by
  have model : ∀ c ∈ net.allComponents, mixedModel energies c.model = true ∧ ∀ v ∈ c.model.variables_.values, v.dataType = .continuous := fun c hc => by
    obtain ⟨ic, hic, -, r, hr⟩ := l.rules hc
    exact shipped_mixed _ hr (hth ic hic)
  refine ⟨additive_context hs l fun c hc => (model c hc).1, fun c hc v hv => ?_⟩
  rw [context_variables] at hv
  exact (model c hc).2 v hv

/-- a study between two studies makes a problem between two problems -/
theorem between_context (h : StudyInput.Between m I J K) (hs : K.Sound) (hs1 : I.Sound) (hs2 : J.Sound) (l : K.Linked net)
    (hdb : buildDataBase K.load K.system = .ok db) (hdb1 : buildDataBase I.load I.system = .ok db1)
    (hdb2 : buildDataBase J.load J.system = .ok db2) :
    (K.context net db).OtherAmounts (fun _ n => n ∈ energies) (I.context net db1) ∧
    (K.context net db).OtherAmounts (fun _ n => n ∈ energies) (J.context net db2) ∧
    AmountsBetween m (fun _ n => n ∈ energies) (I.context net db1) (J.context net db2) (K.context net db) := by
  have key : ∀ c ∈ net.allComponents, ∀ n, ∀ t s : Int, 0 ≤ s → s < K.scenarios → ∃ ic ∈ K.declared, ∃ t' s' : Nat, t' < K.steps.length ∧
      s' < K.scenarios ∧ (K.context net db).parameterAt c.id n t s = K.parameter ic.id n t' s' ∧
      (I.context net db1).parameterAt c.id n t s = I.parameter ic.id n t' s' ∧
      (J.context net db2).parameterAt c.id n t s = J.parameter ic.id n t' s' := by
    intro c hc n t s h0 h1
    obtain ⟨ic, hic, e, -⟩ := l.rules hc
    have hpos : (0 : Int) < K.steps.length := by
      have := List.length_pos_iff.2 hs.block
      omega
    have p0 := Int.emod_nonneg t hpos.ne'
    have p1 := Int.emod_lt_of_pos t hpos
    refine ⟨ic, hic, (t % K.steps.length).toNat, s.toNat, by omega, by omega, ?_, ?_, ?_⟩
    · rw [← e, Int.toNat_of_nonneg p0, Int.toNat_of_nonneg h0, StudyInput.parameter_wrap K]
      exact l.dataValue_eq hs hdb hc n t s h0
    · rw [← e, Int.toNat_of_nonneg p0, Int.toNat_of_nonneg h0, ← h.first.length, StudyInput.parameter_wrap I]
      exact (sameParts_linked h.first l).dataValue_eq hs1 hdb1 hc n t s h0
    · rw [← e, Int.toNat_of_nonneg p0, Int.toNat_of_nonneg h0, ← h.second.length, StudyInput.parameter_wrap J]
      exact (sameParts_linked h.second l).dataValue_eq hs2 hdb2 hc n t s h0
  refine ⟨⟨rfl, h.first.length, h.first.scenarios, rfl, rfl, fun c hc n hn t s h0 h1 => ?_⟩,
    ⟨rfl, h.second.length, h.second.scenarios, rfl, rfl, fun c hc n hn t s h0 h1 => ?_⟩, fun c hc n hn t s h0 h1 => ?_⟩
  · obtain ⟨ic, hic, t', s', ht, hs', a, b, -⟩ := key c hc n t s h0 h1
    rw [a, b]
    exact (h.others ic hic n hn t' s' ht hs').1
  · obtain ⟨ic, hic, t', s', ht, hs', a, -, b⟩ := key c hc n t s h0 h1
    rw [a, b]
    exact (h.others ic hic n hn t' s' ht hs').2
  · obtain ⟨ic, hic, t', s', ht, hs', a, b, d⟩ := key c hc n t s h0 h1
    rw [a, b, d]
    exact h.energies ic hic n hn t' s' ht hs'

end

/-- **C91, studies on the shipped models.** Let `K` be a study without thermal clusters that lies between the studies `I`, counted `m` times, and `J`,
counted `1 - m` times, `0 ≤ m ≤ 1`.  The values between values that `I` accepts and values that `J` accepts are accepted by `K`, and cost the mean
of what these cost.  So the least cost of `K` is at most the mean of the least costs of `I` and `J`. -/
theorem c91_study (m : ℚ) (h0 : 0 ≤ m) (h1 : m ≤ 1) (I J K : StudyInput) (h : StudyInput.Between m I J K) (hth : K.WithoutThermal)
    (hs : K.Sound) (hs1 : I.Sound) (hs2 : J.Sound) {net : Network} {db db1 db2 : DataBase} (l : K.Linked net)
    (hdb : buildDataBase K.load K.system = .ok db) (hdb1 : buildDataBase I.load I.system = .ok db1)
    (hdb2 : buildDataBase J.load J.system = .ok db2) :
    (∀ σ τ, I.Accepts σ → J.Accepts τ → K.Accepts (between m σ τ) ∧ K.cost (between m σ τ) = m * I.cost σ + (1 - m) * J.cost τ) ∧
    ∀ c c1 c2, LeastCost I.Accepts I.cost c1 → LeastCost J.Accepts J.cost c2 → LeastCost K.Accepts K.cost c → c ≤ m * c1 + (1 - m) * c2 := by
  have l1 := sameParts_linked h.first l
  have l2 := sameParts_linked h.second l
  obtain ⟨o1, o2, hb⟩ := between_context h hs hs1 hs2 l hdb hdb1 hdb2
  have e := c91_any_models m h0 h1 _ _ _ _ o1 o2 hb (amounts_context hs l hth) (l.networkOk db hs) (l.closed hs) l.ownSymbols hs.scenarios
  have a1 : (I.context net db1).MathFeasible = I.Accepts := funext fun σ => propext (l1.feasible_iff hs1 hdb1 σ)
  have a2 : (J.context net db2).MathFeasible = J.Accepts := funext fun σ => propext (l2.feasible_iff hs2 hdb2 σ)
  have a3 : (K.context net db).MathFeasible = K.Accepts := funext fun σ => propext (l.feasible_iff hs hdb σ)
  have b1 : (I.context net db1).mathCost = I.cost := funext fun σ => l1.cost_eq hs1 hdb1 σ
  have b2 : (J.context net db2).mathCost = J.cost := funext fun σ => l2.cost_eq hs2 hdb2 σ
  have b3 : (K.context net db).mathCost = K.cost := funext fun σ => l.cost_eq hs hdb σ
  rw [a1, a2, a3, b1, b2, b3] at e
  exact ⟨e.1, e.2.2.1⟩

/-- **C91, the command.** Three commands on studies on the shipped models without thermal clusters, the third one on a study that lies between those of
the first one, counted `m` times, and of the second one, counted `1 - m` times, `0 ≤ m ≤ 1`.  They end without an error, and if the three print status
0, the third one prints at most the mean of the costs that the others print. -/
theorem c91_command (solve : Solver → Answer) (hsolve : RightSolver solve) (os os1 os2 : Nat → SetOrder) (ho : ∀ i, (os i).Valid)
    (ho1 : ∀ i, (os1 i).Valid) (ho2 : ∀ i, (os2 i).Valid) (fuel fuel1 fuel2 : Nat) (d d1 d2 : Disk) (f f1 f2 : CliFlags)
    {paths paths1 paths2 : List String} {comp comp1 comp2 : String} {tables tables1 tables2 : Option String} {ls ls1 ls2 : List InputLibrary}
    {s s1 s2 : InputSystem} (c1 : ShippedCommand d1 f1 paths1 comp1 tables1 ls1 s1) (hfuel1 : 3 * ls1.length + 2 ≤ fuel1)
    (c2 : ShippedCommand d2 f2 paths2 comp2 tables2 ls2 s2) (hfuel2 : 3 * ls2.length + 2 ≤ fuel2) (c : ShippedCommand d f paths comp tables ls s)
    (hfuel : 3 * ls.length + 2 ≤ fuel) (m : ℚ) (h0 : 0 ≤ m) (h1 : m ≤ 1)
    (h : StudyInput.Between m (d1.study s1 tables1 f1) (d2.study s2 tables2 f2) (d.study s tables f)) (hth : (d.study s tables f).WithoutThermal) :
    ∃ o o1 o2, mainOutput solve textParser os fuel d f = some (.ok o) ∧ mainOutput solve textParser os1 fuel1 d1 f1 = some (.ok o1) ∧
      mainOutput solve textParser os2 fuel2 d2 f2 = some (.ok o2) ∧
      (o.status = 0 → o1.status = 0 → o2.status = 0 → o.cost ≤ m * o1.cost + (1 - m) * o2.cost) := by
  obtain ⟨-, -, net, db, o, -, l, b, r, st, -, -⟩ := shipped_run hsolve ho c hfuel
  obtain ⟨-, -, net1, db1, o1, -, l1, b1, r1, st1, -, -⟩ := shipped_run hsolve ho1 c1 hfuel1
  obtain ⟨-, -, net2, db2, o2, -, l2, b2, r2, st2, -, -⟩ := shipped_run hsolve ho2 c2 hfuel2
  refine ⟨o, o1, o2, r, r1, r2, fun z z1 z2 => ?_⟩
  have m1 := sameParts_linked h.first l
  have m2 := sameParts_linked h.second l
  have i1 : s1.Renamed (fun n => n) s1 := rearranged_refl s1
  have i2 : s2.Renamed (fun n => n) s2 := rearranged_refl s2
  have hr1 := renamed_networks i1 (renamed_part (I := d1.study s1 tables1 f1) i1) c1.sound c1.sound c1.joins m1 l1 b1 b1
  have hr2 := renamed_networks i2 (renamed_part (I := d2.study s2 tables2 f2) i2) c2.sound c2.sound c2.joins m2 l2 b2 b2
  have k1 := renamed_leastCost hr1 (fun _ _ ha => renamed_net_kept hr1 (m1.networkOk db1 c1.sound) (l1.networkOk db1 c1.sound) (m1.closed c1.sound)
    m1.ownSymbols ha)
  have k2 := renamed_leastCost hr2 (fun _ _ ha => renamed_net_kept hr2 (m2.networkOk db2 c2.sound) (l2.networkOk db2 c2.sound) (m2.closed c2.sound)
    m2.ownSymbols ha)
  obtain ⟨a1, a2, hb⟩ := between_context h c.sound c1.sound c2.sound l b b1 b2
  exact (c91_any_models m h0 h1 _ _ _ _ a1 a2 hb (amounts_context c.sound l hth) (l.networkOk db c.sound) (l.closed c.sound) l.ownSymbols
    c.sound.scenarios).2.2.2 _ _ _ ((k1 _).1 (st1.least z1)) ((k2 _).1 (st2.least z2)) (st.least z)

end Verif.Props
