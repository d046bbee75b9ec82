import Verif.Props.SolvedShipped
import Verif.Props.PricesBetween

/-!
# C87, C91 and C92: when the second (or third) problem is solved

C87, C91 and C92 compare least costs.  With C93, the least cost that they bound exists.
-/

namespace Verif.Props
open Verif Verif.Expr Verif.OptCtx Verif.Shipped

/-! ## Looser limits -/

/-- without variables and ports, values do not depend on the values of variables -/
theorem fixed_readAs (x : OptCtx) (c : Component) {e : Expr} (h : e.Fixed) (hown : ∀ y ∈ e.subs, y.hasComponent = false) (hS : 0 < x.scenarios)
    (var var' : String → String → Option Int → Option Int → ℚ) (t s : Int) :
    mden (x.readAs (x.unwrapped var) c) e t s = mden (x.readAs (x.unwrapped var') c) e t s :=
  mden_used (M := x.readAs (x.unwrapped var') c) (M' := x.readAs (x.unwrapped var) c) (P := fun _ => True) trivial (fun _ _ => trivial) rfl rfl e
    (fun n hn => absurd hn (h.1 n)) (fun _ _ _ _ _ => rfl) (fun p f hn => absurd hn (h.2 p f)) hown t s trivial

/-- looser limits do not change coefficients -/
theorem looser_same {x y : OptCtx} (h : x.Looser y) (ho : x.OwnSymbols) (hS : 0 < x.scenarios)
    (hb : ∀ c ∈ x.network.allComponents, ∀ v ∈ x.strategy.getVariables c.model, ∀ b, v.lowerBound = some b ∨ v.upperBound = some b → b.Fixed)
    (hk : ∀ c ∈ x.network.allComponents, ∀ k ∈ x.strategy.getConstraints c.model, k.lowerBound.Fixed ∧ k.upperBound.Fixed) :
    x.SameCoefficients y := by
  have key : ∀ c, ∀ b : Expr, b.Fixed → (∀ z ∈ b.subs, z.hasComponent = false) → ∀ t s : Int, ∃ d : ℚ, ∀ var,
      mden (y.readAs (y.unwrapped var) c) b t s = mden (x.readAs (x.unwrapped var) c) b t s + d := fun c b hf hw t s =>
    ⟨mden (y.readAs (y.unwrapped fun _ _ _ _ => 0) c) b t s - mden (x.readAs (x.unwrapped fun _ _ _ _ => 0) c) b t s, fun var => by
      rw [fixed_readAs y c hf hw (h.scenarios ▸ hS) var fun _ _ _ _ => 0, fixed_readAs x c hf hw hS var fun _ _ _ _ => 0]
      ring⟩
  refine ⟨h.network, h.length, h.scenarios, h.strategy, h.risk,
    fun c hm v hv b hb' t s _ _ => key c b (hb c hm v hv b hb') (ho.bounds c hm v hv b hb') t s, fun c hm k hk' b hb' t s ht hs => ?_,
    fun c hm e he => ⟨0, fun var => by rw [h.costs c hm e he, add_zero]⟩⟩
  rcases hb' with rfl | rfl | rfl
  · obtain ⟨d, hd, -⟩ := h.constraints c hm k hk' t s ht hs
    exact ⟨d, hd⟩
  · exact key c _ (hk c hm k hk').1 (ho.constraints c hm k hk' _ (.inr (.inl rfl))) t s
  · exact key c _ (hk c hm k hk').2 (ho.constraints c hm k hk' _ (.inr (.inr rfl))) t s

/-- **C87, any models, solved.** Take a problem whose expressions are linear in the variables and whose bounds have no variable, and the same problem with
looser limits.  If there is a cheapest way to satisfy the first one, there is one for the second one, and it does not cost more; also for what
the program keeps. -/
theorem c87_any_solved (a : String → String → Prop) (x y : OptCtx) (h : x.Looser y) (hc : x.Additive a) (hn : x.NetworkOk) (hcl : x.Closed)
    (ho : x.OwnSymbols) (hS : 0 < x.scenarios)
    (hb : ∀ c ∈ x.network.allComponents, ∀ v ∈ x.strategy.getVariables c.model, ∀ b, v.lowerBound = some b ∨ v.upperBound = some b → b.Fixed)
    (hk : ∀ c ∈ x.network.allComponents, ∀ k ∈ x.strategy.getConstraints c.model, k.lowerBound.Fixed ∧ k.upperBound.Fixed) :
    (∀ c, LeastCost x.MathFeasible x.mathCost c → ∃ c', LeastCost y.MathFeasible y.mathCost c' ∧ c' ≤ c) ∧
    ∀ c, LeastCost x.KeptFeasible x.keptCost c → ∃ c', LeastCost y.KeptFeasible y.keptCost c' ∧ c' ≤ c := by
  obtain ⟨m1, m2, m3, m4⟩ := c87_any_models x y h
  obtain ⟨k1, k2⟩ := (c93_any_models a x hc hn hcl ho hS).2.2 y (looser_same h ho hS hb hk)
  constructor
  · intro c hl
    obtain ⟨c', hl'⟩ := (k1 ⟨c, hl⟩).2 (by obtain ⟨⟨σ, hσ, -⟩, -⟩ := hl; exact ⟨σ, (m1 σ).1 hσ⟩)
    exact ⟨c', hl', m3 c c' hl hl'⟩
  · intro c hl
    obtain ⟨c', hl'⟩ := (k2 ⟨c, hl⟩).2 (by obtain ⟨⟨σ, hσ, -⟩, -⟩ := hl; exact ⟨σ, (m2 σ).1 hσ⟩)
    exact ⟨c', hl', m4 c c' hl hl'⟩

/-- bounds without variables in the shipped models -/
theorem shipped_fixed_bounds : ∀ e ∈ shippedModels,
    (∀ v ∈ e.2.1.variables_.values, ∀ b, v.lowerBound = some b ∨ v.upperBound = some b → b.Fixed) ∧
    ∀ k ∈ e.2.1.allConstraints, k.lowerBound.Fixed ∧ k.upperBound.Fixed := by
  have : (shippedModels.all fun e => e.2.1.variables_.values.all (fun v => v.lowerBound.toList.all fixedIn && v.upperBound.toList.all fixedIn) &&
      e.2.1.allConstraints.all fun k => fixedIn k.lowerBound && fixedIn k.upperBound) = true := by decide +kernel
  intro e he
  have := List.all_eq_true.1 this e he
  simp only [Bool.and_eq_true, List.all_eq_true] at this
  refine ⟨fun v hv b hb => ?_, fun k hk => ⟨fixedIn_fixed (this.2 k hk).1, fixedIn_fixed (this.2 k hk).2⟩⟩
  rcases hb with hb | hb
  · exact fixedIn_fixed ((this.1 v hv).1 b (by simp [hb]))
  · exact fixedIn_fixed ((this.1 v hv).2 b (by simp [hb]))

section
variable {I J : StudyInput} {net : Network} {db db' : DataBase}

theorem shipped_fixed_context (l : I.Linked net) :
    (∀ c ∈ (I.context net db).network.allComponents, ∀ v ∈ (I.context net db).strategy.getVariables c.model, ∀ b,
      v.lowerBound = some b ∨ v.upperBound = some b → b.Fixed) ∧
    ∀ c ∈ (I.context net db).network.allComponents, ∀ k ∈ (I.context net db).strategy.getConstraints c.model, k.lowerBound.Fixed ∧ k.upperBound.Fixed := by
  have model : ∀ c ∈ net.allComponents, (∀ v ∈ c.model.variables_.values, ∀ b, v.lowerBound = some b ∨ v.upperBound = some b → b.Fixed) ∧
      ∀ k ∈ c.model.allConstraints, k.lowerBound.Fixed ∧ k.upperBound.Fixed := fun c hc => by
    obtain ⟨ic, hic, -, r, hr⟩ := l.rules hc
    exact shipped_fixed_bounds _ hr
  refine ⟨fun c hc v hv => (model c hc).1 v (by rwa [context_variables] at hv), fun c hc k hk => (model c hc).2 k (by rwa [context_constraints] at hk)⟩

end

/-- **C87, studies on the shipped models, solved.** If there is a cheapest way to satisfy a study, there is one with looser limits, and it does not cost
more. -/
theorem c87_study_solved (I J : StudyInput) (h : I.Looser J) (hs : I.Sound) (hs' : J.Sound) {net : Network} {db db' : DataBase} (l : I.Linked net)
    (hdb : buildDataBase I.load I.system = .ok db) (hdb' : buildDataBase J.load J.system = .ok db') :
    ∀ c, LeastCost I.Accepts I.cost c → ∃ c', LeastCost J.Accepts J.cost c' ∧ c' ≤ c := by
  have l' := sameParts_linked h.toSameParts l
  have e := (c87_any_solved _ _ _ (looser_context h hs hs' l hdb hdb') (shipped_additive_context hs l) (l.networkOk db hs) (l.closed hs) l.ownSymbols
    hs.scenarios (shipped_fixed_context l).1 (shipped_fixed_context l).2).1
  have a1 : (I.context net db).MathFeasible = I.Accepts := funext fun σ => propext (l.feasible_iff hs hdb σ)
  have b1 : (I.context net db).mathCost = I.cost := funext fun σ => l.cost_eq hs hdb σ
  have a2 : (J.context net db').MathFeasible = J.Accepts := funext fun σ => propext (l'.feasible_iff hs' hdb' σ)
  have b2 : (J.context net db').mathCost = J.cost := funext fun σ => l'.cost_eq hs' hdb' σ
  rwa [a1, b1, a2, b2] at e

/-- **C87, the command, solved.** Take two commands on shipped libraries and complete studies, the second one with looser limits.  Both end without an
error.  If the first one prints status 0, so does the second one, and the cost that it prints is not higher; also with tiny coefficients. -/
theorem c87_command_solved (solve : Solver → Answer) (hsolve : RightSolver solve) (os os' : Nat → SetOrder) (ho : ∀ i, (os i).Valid)
    (ho' : ∀ i, (os' i).Valid) (fuel fuel' : Nat) (d d' : Disk) (f f' : CliFlags) {paths paths' : List String} {comp comp' : String}
    {tables tables' : Option String} {ls ls' : List InputLibrary} {s s' : InputSystem} (h : ShippedCommand d f paths comp tables ls s)
    (hfuel : 3 * ls.length + 2 ≤ fuel) (h' : ShippedCommand d' f' paths' comp' tables' ls' s') (hfuel' : 3 * ls'.length + 2 ≤ fuel')
    (hr : (d.study s tables f).Looser (d'.study s' tables' f')) :
    ∃ o o', mainOutput solve textParser os fuel d f = some (.ok o) ∧ mainOutput solve textParser os' fuel' d' f' = some (.ok o') ∧
      (o.status = 0 → o'.status = 0 ∧ o'.cost ≤ o.cost) := by
  obtain ⟨net, db, o, l1, b1, h1, s1, -⟩ := shipped_prints hsolve ho h hfuel
  obtain ⟨net', db', o', l2, b2, h2, s2, -⟩ := shipped_prints hsolve ho' h' hfuel'
  refine ⟨o, o', h1, h2, fun h0 => ?_⟩
  have l3 := sameParts_linked hr.toSameParts l1
  have hsame : s'.Renamed (fun n => n) s' := rearranged_refl s'
  have hren := renamed_networks hsame (renamed_part (I := d'.study s' tables' f') hsame) h'.sound h'.sound h'.joins l3 l2 b2 b2
  have key := renamed_leastCost hren (fun _ _ ha => renamed_net_kept hren (l3.networkOk db' h'.sound) (l2.networkOk db' h'.sound) (l3.closed h'.sound)
    l3.ownSymbols ha)
  obtain ⟨c', hc', le⟩ := (c87_any_solved _ _ _ (looser_context hr h.sound h'.sound l1 b1 b2) (shipped_additive_context h.sound l1)
    (l1.networkOk db h.sound) (l1.closed h.sound) l1.ownSymbols h.sound.scenarios (shipped_fixed_context l1).1 (shipped_fixed_context l1).2).2 _ (s1.least h0)
  have z := s2.solved.2 ⟨c', (key c').2 hc'⟩
  refine ⟨z, ?_⟩
  rw [leastCost_unique (s2.least z) ((key c').2 hc')]
  exact le

/-! ## Between two systems -/

/-- **C91, any models, solved.** In the situation of C91, if there are cheapest ways to satisfy `x` and `y`, there is one for `z`, and it costs at most
the mean; also for what the program keeps. -/
theorem c91_any_solved (m : ℚ) (h0 : 0 ≤ m) (h1 : m ≤ 1) (a : String → String → Prop) (x y z : OptCtx) (o1 : z.OtherAmounts a x)
    (o2 : z.OtherAmounts a y) (hb : AmountsBetween m a x y z) (hc : z.Amounts a) (hn : z.NetworkOk) (hcl : z.Closed) (ho : z.OwnSymbols)
    (hS : 0 < z.scenarios) :
    (∀ c1 c2, LeastCost x.MathFeasible x.mathCost c1 → LeastCost y.MathFeasible y.mathCost c2 →
      ∃ c, LeastCost z.MathFeasible z.mathCost c ∧ c ≤ m * c1 + (1 - m) * c2) ∧
    ∀ c1 c2, LeastCost x.KeptFeasible x.keptCost c1 → LeastCost y.KeptFeasible y.keptCost c2 →
      ∃ c, LeastCost z.KeptFeasible z.keptCost c ∧ c ≤ m * c1 + (1 - m) * c2 := by
  obtain ⟨m1, m2, m3, m4⟩ := c91_any_models m h0 h1 a x y z o1 o2 hb hc hn hcl ho hS
  have s1 := otherAmounts_same o1 hc.toAdditive hn hcl ho hS
  have r := sameCoefficients_refl z
  constructor
  · intro c1 c2 g1 g2
    obtain ⟨c, g⟩ := (mixed_feasible hc.toAdditive hn hcl ho hS).least (affine_mathCost hc.toAdditive hn hcl ho hS) (i := ⟨x, s1⟩) (j := ⟨z, r⟩)
      (least_met ⟨c1, g1⟩).1 (least_met ⟨c1, g1⟩).2 (by
        obtain ⟨σ, hσ⟩ := (least_met ⟨c1, g1⟩).1
        obtain ⟨τ, hτ⟩ := (least_met ⟨c2, g2⟩).1
        exact ⟨_, (m1 σ τ hσ hτ).1⟩)
    exact ⟨c, g, m3 c c1 c2 g1 g2 g⟩
  · intro c1 c2 g1 g2
    obtain ⟨c, g⟩ := (mixed_kept hc.toAdditive hn hcl ho hS).least affine_keptCost (i := ⟨x, s1⟩) (j := ⟨z, r⟩)
      (least_met ⟨c1, g1⟩).1 (least_met ⟨c1, g1⟩).2 (by
        obtain ⟨σ, hσ⟩ := (least_met ⟨c1, g1⟩).1
        obtain ⟨τ, hτ⟩ := (least_met ⟨c2, g2⟩).1
        exact ⟨_, (m2 σ τ hσ hτ).1⟩)
    exact ⟨c, g, m4 c c1 c2 g1 g2 g⟩

/-- **C91, the command, solved.** Three commands on studies on the shipped models without thermal clusters, the third one on a study that lies between
those of the first one, counted `m` times, and of the second one, counted `1 - m` times, `0 ≤ m ≤ 1`.  They end without an error, and if the first two
print status 0, so does the third one, and it prints at most the mean of the costs that the others print. -/
theorem c91_command_solved (solve : Solver → Answer) (hsolve : RightSolver solve) (os os1 os2 : Nat → SetOrder) (ho : ∀ i, (os i).Valid)
    (ho1 : ∀ i, (os1 i).Valid) (ho2 : ∀ i, (os2 i).Valid) (fuel fuel1 fuel2 : Nat) (d d1 d2 : Disk) (f f1 f2 : CliFlags)
    {paths paths1 paths2 : List String} {comp comp1 comp2 : String} {tables tables1 tables2 : Option String} {ls ls1 ls2 : List InputLibrary}
    {s s1 s2 : InputSystem} (c1 : ShippedCommand d1 f1 paths1 comp1 tables1 ls1 s1) (hfuel1 : 3 * ls1.length + 2 ≤ fuel1)
    (c2 : ShippedCommand d2 f2 paths2 comp2 tables2 ls2 s2) (hfuel2 : 3 * ls2.length + 2 ≤ fuel2) (c : ShippedCommand d f paths comp tables ls s)
    (hfuel : 3 * ls.length + 2 ≤ fuel) (m : ℚ) (h0 : 0 ≤ m) (h1 : m ≤ 1)
    (h : StudyInput.Between m (d1.study s1 tables1 f1) (d2.study s2 tables2 f2) (d.study s tables f)) (hth : (d.study s tables f).WithoutThermal) :
    ∃ o o1 o2, mainOutput solve textParser os fuel d f = some (.ok o) ∧ mainOutput solve textParser os1 fuel1 d1 f1 = some (.ok o1) ∧
      mainOutput solve textParser os2 fuel2 d2 f2 = some (.ok o2) ∧
      (o1.status = 0 → o2.status = 0 → o.status = 0 ∧ o.cost ≤ m * o1.cost + (1 - m) * o2.cost) := by
  obtain ⟨-, -, net, db, o, -, l, b, r, st, -, -⟩ := shipped_run hsolve ho c hfuel
  obtain ⟨-, -, net1, db1, o1, -, l1, b1, r1, st1, -, -⟩ := shipped_run hsolve ho1 c1 hfuel1
  obtain ⟨-, -, net2, db2, o2, -, l2, b2, r2, st2, -, -⟩ := shipped_run hsolve ho2 c2 hfuel2
  refine ⟨o, o1, o2, r, r1, r2, fun z1 z2 => ?_⟩
  have m1 := sameParts_linked h.first l
  have m2 := sameParts_linked h.second l
  have i1 : s1.Renamed (fun n => n) s1 := rearranged_refl s1
  have i2 : s2.Renamed (fun n => n) s2 := rearranged_refl s2
  have hr1 := renamed_networks i1 (renamed_part (I := d1.study s1 tables1 f1) i1) c1.sound c1.sound c1.joins m1 l1 b1 b1
  have hr2 := renamed_networks i2 (renamed_part (I := d2.study s2 tables2 f2) i2) c2.sound c2.sound c2.joins m2 l2 b2 b2
  have k1 := renamed_leastCost hr1 (fun _ _ ha => renamed_net_kept hr1 (m1.networkOk db1 c1.sound) (l1.networkOk db1 c1.sound) (m1.closed c1.sound)
    m1.ownSymbols ha)
  have k2 := renamed_leastCost hr2 (fun _ _ ha => renamed_net_kept hr2 (m2.networkOk db2 c2.sound) (l2.networkOk db2 c2.sound) (m2.closed c2.sound)
    m2.ownSymbols ha)
  obtain ⟨a1, a2, hb⟩ := between_context h c.sound c1.sound c2.sound l b b1 b2
  obtain ⟨q, hq, le⟩ := (c91_any_solved m h0 h1 _ _ _ _ a1 a2 hb (amounts_context c.sound l hth) (l.networkOk db c.sound) (l.closed c.sound) l.ownSymbols
    c.sound.scenarios).2 _ _ ((k1 _).1 (st1.least z1)) ((k2 _).1 (st2.least z2))
  have z := st.solved.2 ⟨q, hq⟩
  refine ⟨z, ?_⟩
  rw [leastCost_unique (st.least z) hq]
  exact le

/-! ## Prices that are added -/

/-- **C92, any models, solved.** In the situation of C92, for problems whose expressions are linear in the variables, if there are cheapest ways to satisfy
`x` and `y` and `a` and `b` are not negative, there is one for `z`, and it costs at least `a` times that of `x` and `b` times that of `y`, added. -/
theorem c92_any_solved (q : String → String → Prop) (a b : ℚ) (ha : 0 ≤ a) (hb : 0 ≤ b) (p : Component → String → Prop) (x y z : OptCtx)
    (h1 : z.OtherPrices p x) (h2 : z.OtherPrices p y) (h : PricesAdd a b p x y z) (hp : z.Prices p) (hc : z.Additive q) (hn : z.NetworkOk)
    (hcl : z.Closed) (ho : z.OwnSymbols) (hS : 0 < z.scenarios) :
    (∀ c1 c2, LeastCost x.MathFeasible x.mathCost c1 → LeastCost y.MathFeasible y.mathCost c2 →
      ∃ c, LeastCost z.MathFeasible z.mathCost c ∧ a * c1 + b * c2 ≤ c) ∧
    (x.PricesKept → y.PricesKept → z.PricesKept → ∀ c1 c2, LeastCost x.KeptFeasible x.keptCost c1 → LeastCost y.KeptFeasible y.keptCost c2 →
      ∃ c, LeastCost z.KeptFeasible z.keptCost c ∧ a * c1 + b * c2 ≤ c) := by
  obtain ⟨m1, m2, m3, m4, m5⟩ := c92_any_models a b p x y z h1 h2 h hp hn hcl ho hS
  obtain ⟨k1, k2, -⟩ := c93_any_models q z hc hn hcl ho hS
  constructor
  · intro c1 c2 g1 g2
    obtain ⟨c, g⟩ := k1.2 ⟨by obtain ⟨σ, hσ⟩ := (least_met ⟨c1, g1⟩).1; exact ⟨σ, (m1 σ).1.1 hσ⟩, a * c1 + b * c2, fun σ hσ => by
      rw [(m1 σ).2.2]
      exact add_le_add (mul_le_mul_of_nonneg_left (g1.2 σ ((m1 σ).1.2 hσ)) ha) (mul_le_mul_of_nonneg_left (g2.2 σ ((m1 σ).2.1.2 hσ)) hb)⟩
    exact ⟨c, g, m4 ha hb c c1 c2 g1 g2 g⟩
  · intro p1 p2 p3 c1 c2 g1 g2
    obtain ⟨c, g⟩ := k2.2 ⟨by obtain ⟨σ, hσ⟩ := (least_met ⟨c1, g1⟩).1; exact ⟨σ, (m2 σ).1.1 hσ⟩, a * c1 + b * c2, fun σ hσ => by
      rw [m3 p1 p2 p3 σ]
      exact add_le_add (mul_le_mul_of_nonneg_left (g1.2 σ ((m2 σ).1.2 hσ)) ha) (mul_le_mul_of_nonneg_left (g2.2 σ ((m2 σ).2.2 hσ)) hb)⟩
    exact ⟨c, g, m5 ha hb p1 p2 p3 c c1 c2 g1 g2 g⟩

/-- **C92 (partial), the command, solved.** Three commands on studies on the shipped models, the prices of the third one being `a` times those of the
first one and `b` times those of the second one, added, `a` and `b` not negative.  They end without an error, and if the first two print status 0 and no
coefficient of the three costs is tiny, the third one prints status 0 as well, and at least `a` times the cost of the first one and `b` times that of the
second one, added.

Partial: tiny coefficients of costs (`c92_tiny`). -/
theorem c92_command_solved_partial (solve : Solver → Answer) (hsolve : RightSolver solve) (os os1 os2 : Nat → SetOrder) (ho : ∀ i, (os i).Valid)
    (ho1 : ∀ i, (os1 i).Valid) (ho2 : ∀ i, (os2 i).Valid) (fuel fuel1 fuel2 : Nat) (d d1 d2 : Disk) (f f1 f2 : CliFlags)
    {paths paths1 paths2 : List String} {comp comp1 comp2 : String} {tables tables1 tables2 : Option String} {ls ls1 ls2 : List InputLibrary}
    {s s1 s2 : InputSystem} (c1 : ShippedCommand d1 f1 paths1 comp1 tables1 ls1 s1) (hfuel1 : 3 * ls1.length + 2 ≤ fuel1)
    (c2 : ShippedCommand d2 f2 paths2 comp2 tables2 ls2 s2) (hfuel2 : 3 * ls2.length + 2 ≤ fuel2) (c : ShippedCommand d f paths comp tables ls s)
    (hfuel : 3 * ls.length + 2 ≤ fuel) (a b : ℚ) (ha : 0 ≤ a) (hb : 0 ≤ b)
    (h : StudyInput.PricesAdd a b (d1.study s1 tables1 f1) (d2.study s2 tables2 f2) (d.study s tables f)) :
    ∃ o o1 o2, mainOutput solve textParser os fuel d f = some (.ok o) ∧ mainOutput solve textParser os1 fuel1 d1 f1 = some (.ok o1) ∧
      mainOutput solve textParser os2 fuel2 d2 f2 = some (.ok o2) ∧
      (PricesKeptRun textParser os fuel d f → PricesKeptRun textParser os1 fuel1 d1 f1 → PricesKeptRun textParser os2 fuel2 d2 f2 →
        o1.status = 0 → o2.status = 0 → o.status = 0 ∧ a * o1.cost + b * o2.cost ≤ o.cost) := by
  obtain ⟨libs, sys, net, db, o, ⟨x1, x2, x3⟩, l, g, r, st, -, -⟩ := shipped_run hsolve ho c hfuel
  obtain ⟨libs1, sys1, net1, db1, o1, ⟨y1, y2, y3⟩, l1, g1, r1, st1, -, -⟩ := shipped_run hsolve ho1 c1 hfuel1
  obtain ⟨libs2, sys2, net2, db2, o2, ⟨w1, w2, w3⟩, l2, g2, r2, st2, -, -⟩ := shipped_run hsolve ho2 c2 hfuel2
  refine ⟨o, o1, o2, r, r1, r2, fun q q1 q2 z1 z2 => ?_⟩
  have p : ((d.study s tables f).context net db).PricesKept := q _ _ _ _ _ _ _ _ _ c.names c.read x1 c.system x2 x3 g
  have p1 : ((d1.study s1 tables1 f1).context net1 db1).PricesKept := q1 _ _ _ _ _ _ _ _ _ c1.names c1.read y1 c1.system y2 y3 g1
  have p2 : ((d2.study s2 tables2 f2).context net2 db2).PricesKept := q2 _ _ _ _ _ _ _ _ _ c2.names c2.read w1 c2.system w2 w3 g2
  have m1 := sameParts_linked h.first l
  have m2 := sameParts_linked h.second l
  have i1 : s1.Renamed (fun n => n) s1 := rearranged_refl s1
  have i2 : s2.Renamed (fun n => n) s2 := rearranged_refl s2
  have hr1 := renamed_networks i1 (renamed_part (I := d1.study s1 tables1 f1) i1) c1.sound c1.sound c1.joins m1 l1 g1 g1
  have hr2 := renamed_networks i2 (renamed_part (I := d2.study s2 tables2 f2) i2) c2.sound c2.sound c2.joins m2 l2 g2 g2
  have hr1' := renamed_networks i1 (renamed_part (I := d1.study s1 tables1 f1) i1) c1.sound c1.sound c1.joins l1 m1 g1 g1
  have hr2' := renamed_networks i2 (renamed_part (I := d2.study s2 tables2 f2) i2) c2.sound c2.sound c2.joins l2 m2 g2 g2
  have k1 := renamed_leastCost hr1 (fun _ _ ha => renamed_net_kept hr1 (m1.networkOk db1 c1.sound) (l1.networkOk db1 c1.sound) (m1.closed c1.sound)
    m1.ownSymbols ha)
  have k2 := renamed_leastCost hr2 (fun _ _ ha => renamed_net_kept hr2 (m2.networkOk db2 c2.sound) (l2.networkOk db2 c2.sound) (m2.closed c2.sound)
    m2.ownSymbols ha)
  have p1' : ((d1.study s1 tables1 f1).context net db1).PricesKept := by
    intro c hc e he
    obtain ⟨c', hc', rfl⟩ := List.mem_map.1 (hr1'.components.symm.subset hc)
    rw [context_contributions] at he
    exact (renamed_net_part hr1').noTiny (l1.networkOk db1 c1.sound) (m1.networkOk db1 c1.sound) (l1.closed c1.sound) hc'
      ((l1.checked hc').objective_ok he).2.2.1 0 0 le_rfl (p1 c' hc' e (by rw [context_contributions]; exact he))
  have p2' : ((d2.study s2 tables2 f2).context net db2).PricesKept := by
    intro c hc e he
    obtain ⟨c', hc', rfl⟩ := List.mem_map.1 (hr2'.components.symm.subset hc)
    rw [context_contributions] at he
    exact (renamed_net_part hr2').noTiny (l2.networkOk db2 c2.sound) (m2.networkOk db2 c2.sound) (l2.closed c2.sound) hc'
      ((l2.checked hc').objective_ok he).2.2.1 0 0 le_rfl (p2 c' hc' e (by rw [context_contributions]; exact he))
  obtain ⟨a1, a2, hadd⟩ := pricesAdd_context h c.sound c1.sound c2.sound l g g1 g2
  obtain ⟨v, hv, le⟩ := (c92_any_solved _ a b ha hb _ _ _ _ a1 a2 hadd (shipped_prices c.sound l) (shipped_additive_context c.sound l) (l.networkOk db c.sound)
    (l.closed c.sound) l.ownSymbols c.sound.scenarios).2 p1' p2' p _ _ ((k1 _).1 (st1.least z1)) ((k2 _).1 (st2.least z2))
  have z := st.solved.2 ⟨v, hv⟩
  refine ⟨z, ?_⟩
  rw [leastCost_unique (st.least z) hv]
  exact le


end Verif.Props
