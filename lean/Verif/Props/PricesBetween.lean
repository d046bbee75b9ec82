import Verif.Spec.PricesBetween
import Verif.Props.RepricedAny
import Verif.Lemmas.FewKeys

/-!
# C92: costs add up as prices do
-/

namespace Verif
open Verif.Expr Verif.OptCtx Verif.Shipped Verif.Props

/-- values add up as prices do -/
theorem proportional_added {M M1 M2 : MCtx} {P : Int → Prop} {p : String → Prop} {a b : ℚ} (h0 : P 0) (hw : ∀ w : Nat, w < M.D.S → P w)
    (hT1 : M1.D.T = M.D.T) (hS1 : M1.D.S = M.D.S) (hT2 : M2.D.T = M.D.T) (hS2 : M2.D.S = M.D.S)
    (hprice : ∀ n, p n → ∀ t s, P s → mden M (.par n) t s = a * mden M1 (.par n) t s + b * mden M2 (.par n) t s)
    (same1 : ∀ e : Expr, e.Without p → (∀ y ∈ e.subs, y.hasComponent = false) → ∀ t s, P s → mden M1 e t s = mden M e t s)
    (same2 : ∀ e : Expr, e.Without p → (∀ y ∈ e.subs, y.hasComponent = false) → ∀ t s, P s → mden M2 e t s = mden M e t s) {e : Expr}
    (h : e.Proportional p) : (∀ y ∈ e.subs, y.hasComponent = false) → ∀ t s, P s → mden M e t s = a * mden M1 e t s + b * mden M2 e t s := by
  induction h with
  | price n hn => exact fun _ t s hs => hprice n hn t s hs
  | zero => intro _ t s _; show (0 : ℚ) = a * 0 + b * 0; ring
  | neg _ ih =>
    intro he t s hs
    simp only [mden, ih (fun y hy => he y (by simp [subs, hy])) t s hs]
    ring
  | @add es hes ih =>
    intro he t s hs
    rw [mden_add, mden_add, mden_add, ← List.sum_map_mul_left, ← List.sum_map_mul_left, ← List.sum_map_add]
    congr 1
    exact List.map_congr_left fun x hx => ih x hx (fun y hy => he y (mem_subs_add.2 (.inr ⟨x, hx, hy⟩))) t s hs
  | mulLeft _ hr ih =>
    intro he t s hs
    simp only [mden, ih (fun y hy => he y (by simp [subs, hy])) t s hs, same1 _ hr (fun y hy => he y (by simp [subs, hy])) t s hs, same2 _ hr (fun y hy => he y (by simp [subs, hy])) t s hs]
    ring
  | mulRight hl _ ih =>
    intro he t s hs
    simp only [mden, ih (fun y hy => he y (by simp [subs, hy])) t s hs, same1 _ hl (fun y hy => he y (by simp [subs, hy])) t s hs, same2 _ hl (fun y hy => he y (by simp [subs, hy])) t s hs]
    ring
  | div _ hr ih =>
    intro he t s hs
    simp only [mden, ih (fun y hy => he y (by simp [subs, hy])) t s hs, same1 _ hr (fun y hy => he y (by simp [subs, hy])) t s hs, same2 _ hr (fun y hy => he y (by simp [subs, hy])) t s hs]
    ring
  | shift _ hn ih =>
    intro he t s hs
    simp only [mden, same1 _ hn (fun y hy => he y (by simp [subs, hy])) 0 0 h0, same2 _ hn (fun y hy => he y (by simp [subs, hy])) 0 0 h0, ih (fun y hy => he y (by simp [subs, hy])) _ s hs]
  | evalT _ hn ih =>
    intro he t s hs
    simp only [mden, same1 _ hn (fun y hy => he y (by simp [subs, hy])) 0 0 h0, same2 _ hn (fun y hy => he y (by simp [subs, hy])) 0 0 h0, ih (fun y hy => he y (by simp [subs, hy])) _ s hs]
  | tsum _ ha hb ih =>
    intro he t s hs
    simp only [mden, same1 _ ha (fun y hy => he y (by simp [subs, hy])) 0 0 h0, same1 _ hb (fun y hy => he y (by simp [subs, hy])) 0 0 h0, same2 _ ha (fun y hy => he y (by simp [subs, hy])) 0 0 h0, same2 _ hb (fun y hy => he y (by simp [subs, hy])) 0 0 h0,
      ih (fun y hy => he y (by simp [subs, hy])) _ s hs, Finset.mul_sum, Finset.sum_add_distrib]
  | allsum _ ih =>
    intro he t s hs
    simp only [mden, hT1, hT2, ih (fun y hy => he y (by simp [subs, hy])) _ s hs, Finset.mul_sum, Finset.sum_add_distrib]
  | scen _ ih =>
    intro he t s hs
    simp only [mden, hS1, hS2]
    rw [← mul_div_assoc, ← mul_div_assoc, ← add_div, Finset.mul_sum, Finset.mul_sum, ← Finset.sum_add_distrib]
    congr 1
    exact Finset.sum_congr rfl fun w hm => ih (fun y hy => he y (by simp [subs, hy])) t w (hw w (Finset.mem_range.1 hm))

namespace Props

/-- the least of costs that are added -/
theorem leastCost_added {a b : ℚ} (ha : 0 ≤ a) (hb : 0 ≤ b) {A B C : (TermKey → ℚ) → Prop} {f g k : (TermKey → ℚ) → ℚ}
    (hA : ∀ σ, A σ ↔ C σ) (hB : ∀ σ, B σ ↔ C σ) (hk : ∀ σ, k σ = a * f σ + b * g σ) (c c1 c2 : ℚ) (h1 : LeastCost A f c1)
    (h2 : LeastCost B g c2) (h : LeastCost C k c) : a * c1 + b * c2 ≤ c := by
  obtain ⟨⟨σ, hσ, rfl⟩, -⟩ := h
  rw [hk]
  exact add_le_add (mul_le_mul_of_nonneg_left (h1.2 σ ((hA σ).2 hσ)) ha) (mul_le_mul_of_nonneg_left (h2.2 σ ((hB σ).2 hσ)) hb)

theorem keep_noTiny {q : ℚ} (h : q = 0 ∨ 1 / 10 ^ 16 ≤ |q|) : keep q = q := by
  unfold keep
  split
  · next hq =>
    rcases h with h | h
    · exact h.symm
    · exact absurd hq (not_lt.2 h)
  · rfl

/-- **C92, any models.** Take problems `x`, `y` and `z` of any models that differ by prices only, those of `z` being `a` times those of `x` and `b` times
those of `y`, added.  The same values of the variables satisfy the three, and the cost in `z` is `a` times the cost in `x` and `b` times the cost in
`y`, added; the same limits are kept by the program, and what it counts is added when no coefficient of the costs is tiny.  So, when `a` and `b`
are not negative, the least cost of `z` is at least `a` times that of `x` and `b` times that of `y`, added. -/
theorem c92_any_models (a b : ℚ) (p : Component → String → Prop) (x y z : OptCtx) (h1 : z.OtherPrices p x) (h2 : z.OtherPrices p y)
    (h : PricesAdd a b p x y z) (hp : z.Prices p) (hn : z.NetworkOk) (hcl : z.Closed) (ho : z.OwnSymbols) (hS : 0 < z.scenarios) :
    (∀ σ, (x.MathFeasible σ ↔ z.MathFeasible σ) ∧ (y.MathFeasible σ ↔ z.MathFeasible σ) ∧ z.mathCost σ = a * x.mathCost σ + b * y.mathCost σ) ∧
    (∀ σ, (x.KeptFeasible σ ↔ z.KeptFeasible σ) ∧ (y.KeptFeasible σ ↔ z.KeptFeasible σ)) ∧
    (x.PricesKept → y.PricesKept → z.PricesKept → ∀ σ, z.keptCost σ = a * x.keptCost σ + b * y.keptCost σ) ∧
    (0 ≤ a → 0 ≤ b → ∀ c c1 c2, LeastCost x.MathFeasible x.mathCost c1 → LeastCost y.MathFeasible y.mathCost c2 →
      LeastCost z.MathFeasible z.mathCost c → a * c1 + b * c2 ≤ c) ∧
    (0 ≤ a → 0 ≤ b → x.PricesKept → y.PricesKept → z.PricesKept → ∀ c c1 c2, LeastCost x.KeptFeasible x.keptCost c1 →
      LeastCost y.KeptFeasible y.keptCost c2 → LeastCost z.KeptFeasible z.keptCost c → a * c1 + b * c2 ≤ c) := by
  have hTx : x.T = z.T := h1.length
  have hTy : y.T = z.T := h2.length
  have hx : ∀ c, x.contributions c = z.contributions c := fun c => by
    unfold OptCtx.contributions
    rw [h1.strategy, h1.risk]
  have hy : ∀ c, y.contributions c = z.contributions c := fun c => by
    unfold OptCtx.contributions
    rw [h2.strategy, h2.risk]
  obtain ⟨m1, k1⟩ := otherPrices_feasible h1 hp hn hcl ho hS
  obtain ⟨m2, k2⟩ := otherPrices_feasible h2 hp hn hcl ho hS
  have value : ∀ (var : String → String → Option Int → Option Int → ℚ), ∀ c ∈ z.network.allComponents, ∀ e ∈ z.contributions c,
      mden (z.readAs (z.unwrapped var) c) e 0 0 = a * mden (x.readAs (x.unwrapped var) c) e 0 0 + b * mden (y.readAs (y.unwrapped var) c) e 0 0 :=
    fun var c hc e he => proportional_added (M := z.readAs (z.unwrapped var) c) (M1 := x.readAs (x.unwrapped var) c) (M2 := y.readAs (y.unwrapped var) c)
      (P := fun s => 0 ≤ s ∧ s < (z.scenarios : Int)) ⟨le_rfl, by exact_mod_cast hS⟩ (fun w hw => ⟨by positivity, by exact_mod_cast hw⟩)
      h1.length h1.scenarios h2.length h2.scenarios (fun n hn t s hs => h c hc n hn t s hs.1 hs.2)
      (fun e hf he t s hs => h1.value hS hp hn hcl var hc hf he t s hs) (fun e hf he t s hs => h2.value hS hp hn hcl var hc hf he t s hs)
      (hp.costs c hc e he) (ho.objectives c hc e he) 0 0 ⟨le_rfl, by exact_mod_cast hS⟩
  have sums : ∀ {f g k : Component → Expr → ℚ}, (∀ c ∈ z.network.allComponents, ∀ e ∈ z.contributions c, k c e = a * f c e + b * g c e) →
      (z.network.allComponents.map fun c => ((z.contributions c).map fun e => k c e).sum).sum =
        a * (x.network.allComponents.map fun c => ((x.contributions c).map fun e => f c e).sum).sum +
          b * (y.network.allComponents.map fun c => ((y.contributions c).map fun e => g c e).sum).sum := by
    intro f g k hk
    have inner : ∀ l : List Expr, ∀ c, (∀ e ∈ l, k c e = a * f c e + b * g c e) →
        (l.map fun e => k c e).sum = a * (l.map fun e => f c e).sum + b * (l.map fun e => g c e).sum := by
      intro l c hl
      rw [← List.sum_map_mul_left, ← List.sum_map_mul_left, ← List.sum_map_add]
      exact congrArg List.sum (List.map_congr_left hl)
    rw [h1.network, h2.network, ← List.sum_map_mul_left, ← List.sum_map_mul_left, ← List.sum_map_add]
    refine congrArg List.sum (List.map_congr_left fun c hm => ?_)
    rw [hx, hy]
    exact inner _ c (hk c hm)
  have mc : ∀ σ, z.mathCost σ = a * x.mathCost σ + b * y.mathCost σ := by
    intro σ
    refine sums fun c hc e he => ?_
    unfold OptCtx.readIn OptCtx.reading
    rw [hTx, hTy]
    exact value _ c hc e he
  have kc : x.PricesKept → y.PricesKept → z.PricesKept → ∀ σ, z.keptCost σ = a * x.keptCost σ + b * y.keptCost σ := by
    intro q1 q2 q σ
    refine sums fun c hc e he => ?_
    have f0 : z.fixedPart c e 0 0 = a * x.fixedPart c e 0 0 + b * y.fixedPart c e 0 0 := value _ c hc e he
    have c0 : ∀ κ, z.coefficient c e 0 0 κ = a * x.coefficient c e 0 0 κ + b * y.coefficient c e 0 0 κ := by
      intro κ
      unfold OptCtx.coefficient
      rw [value _ c hc e he, f0]
      ring
    have e1 : ∀ κ, keep (x.coefficient c e 0 0 κ) = x.coefficient c e 0 0 κ := fun κ =>
      keep_noTiny (coefficient_noTiny (q1 c (by rw [h1.network]; exact hc) e (by rw [hx]; exact he)) κ)
    have e2 : ∀ κ, keep (y.coefficient c e 0 0 κ) = y.coefficient c e 0 0 κ := fun κ =>
      keep_noTiny (coefficient_noTiny (q2 c (by rw [h2.network]; exact hc) e (by rw [hy]; exact he)) κ)
    have e3 : ∀ κ, keep (z.coefficient c e 0 0 κ) = z.coefficient c e 0 0 κ := fun κ => keep_noTiny (coefficient_noTiny (q c hc e he) κ)
    have fin : ∀ (w : OptCtx) (r : ℚ) (ρ : TermKey → ℚ), (Function.support fun κ : TermKey => r • (w.coefficient c e 0 0 κ * ρ κ)).Finite := by
      intro w r ρ
      refine (coefficient_finite w c e 0 0).subset fun κ hκ h0 => hκ ?_
      simp only [h0, zero_mul, smul_zero]
    unfold OptCtx.keptValue
    simp only [e1, e2, e3, hTx, hTy, f0]
    have split : ∑ᶠ κ : TermKey, z.coefficient c e 0 0 κ * σ { κ with time := κ.time.map (· % (z.T : Int)) } =
        a * ∑ᶠ κ : TermKey, x.coefficient c e 0 0 κ * σ { κ with time := κ.time.map (· % (z.T : Int)) } +
          b * ∑ᶠ κ : TermKey, y.coefficient c e 0 0 κ * σ { κ with time := κ.time.map (· % (z.T : Int)) } := by
      rw [← smul_eq_mul a, ← smul_eq_mul b, smul_finsum, smul_finsum, ← finsum_add_distrib (fin x a _) (fin y b _)]
      refine finsum_congr fun κ => ?_
      rw [c0]
      simp only [smul_eq_mul]
      ring
    rw [split]
    ring
  exact ⟨fun σ => ⟨m1 σ, m2 σ, mc σ⟩, fun σ => ⟨k1 σ, k2 σ⟩, kc, fun ha hb => leastCost_added ha hb m1 m2 mc,
    fun ha hb q1 q2 q => leastCost_added ha hb k1 k2 (kc q1 q2 q)⟩

/-! ## The shipped models -/

section
variable {a b : ℚ} {I J K : StudyInput} {net : Network} {db db1 db2 : DataBase}

/-- studies whose prices add up make problems whose prices add up -/
theorem pricesAdd_context (h : StudyInput.PricesAdd a b I J K) (hs : K.Sound) (hs1 : I.Sound) (hs2 : J.Sound) (l : K.Linked net)
    (hdb : buildDataBase K.load K.system = .ok db) (hdb1 : buildDataBase I.load I.system = .ok db1)
    (hdb2 : buildDataBase J.load J.system = .ok db2) :
    (K.context net db).OtherPrices (fun _ n => n ∈ prices) (I.context net db1) ∧
    (K.context net db).OtherPrices (fun _ n => n ∈ prices) (J.context net db2) ∧
    OptCtx.PricesAdd a b (fun _ n => n ∈ prices) (I.context net db1) (J.context net db2) (K.context net db) := by
  have key : ∀ c ∈ net.allComponents, ∀ n, ∀ t s : Int, 0 ≤ s → s < K.scenarios → ∃ ic ∈ K.declared, ∃ t' s' : Nat, t' < K.steps.length ∧
      s' < K.scenarios ∧ (K.context net db).parameterAt c.id n t s = K.parameter ic.id n t' s' ∧
      (I.context net db1).parameterAt c.id n t s = I.parameter ic.id n t' s' ∧
      (J.context net db2).parameterAt c.id n t s = J.parameter ic.id n t' s' := by
    intro c hc n t s h0 h1
    obtain ⟨ic, hic, e, -⟩ := l.rules hc
    have hpos : (0 : Int) < K.steps.length := by
      have := List.length_pos_iff.2 hs.block
      omega
    have p0 := Int.emod_nonneg t hpos.ne'
    have p1 := Int.emod_lt_of_pos t hpos
    refine ⟨ic, hic, (t % K.steps.length).toNat, s.toNat, by omega, by omega, ?_, ?_, ?_⟩
    · rw [← e, Int.toNat_of_nonneg p0, Int.toNat_of_nonneg h0, StudyInput.parameter_wrap K]
      exact l.dataValue_eq hs hdb hc n t s h0
    · rw [← e, Int.toNat_of_nonneg p0, Int.toNat_of_nonneg h0, ← h.first.length, StudyInput.parameter_wrap I]
      exact (sameParts_linked h.first l).dataValue_eq hs1 hdb1 hc n t s h0
    · rw [← e, Int.toNat_of_nonneg p0, Int.toNat_of_nonneg h0, ← h.second.length, StudyInput.parameter_wrap J]
      exact (sameParts_linked h.second l).dataValue_eq hs2 hdb2 hc n t s h0
  refine ⟨⟨rfl, h.first.length, h.first.scenarios, rfl, rfl, fun c hc n hn t s h0 h1 => ?_⟩,
    ⟨rfl, h.second.length, h.second.scenarios, rfl, rfl, fun c hc n hn t s h0 h1 => ?_⟩, fun c hc n hn t s h0 h1 => ?_⟩
  · obtain ⟨ic, hic, t', s', ht, hs', a, b, -⟩ := key c hc n t s h0 h1
    rw [a, b]
    exact (h.others ic hic n hn t' s' ht hs').1
  · obtain ⟨ic, hic, t', s', ht, hs', a, -, b⟩ := key c hc n t s h0 h1
    rw [a, b]
    exact (h.others ic hic n hn t' s' ht hs').2
  · obtain ⟨ic, hic, t', s', ht, hs', a, b, d⟩ := key c hc n t s h0 h1
    rw [a, b, d]
    exact h.prices ic hic n hn t' s' ht hs'

end

/-- **C92, studies on the shipped models.** The prices of `K` are `a` times those of `I` and `b` times those of `J`, added.  The three studies accept the
same values, and the cost in `K` is `a` times the cost in `I` and `b` times the cost in `J`, added.  When `a` and `b` are not negative, so is the
least cost of `K`, or more. -/
theorem c92_study (a b : ℚ) (I J K : StudyInput) (h : StudyInput.PricesAdd a b I J K) (hs : K.Sound) (hs1 : I.Sound) (hs2 : J.Sound)
    {net : Network} {db db1 db2 : DataBase} (l : K.Linked net) (hdb : buildDataBase K.load K.system = .ok db)
    (hdb1 : buildDataBase I.load I.system = .ok db1) (hdb2 : buildDataBase J.load J.system = .ok db2) :
    (∀ σ, (I.Accepts σ ↔ K.Accepts σ) ∧ (J.Accepts σ ↔ K.Accepts σ) ∧ K.cost σ = a * I.cost σ + b * J.cost σ) ∧
    (0 ≤ a → 0 ≤ b → ∀ c c1 c2, LeastCost I.Accepts I.cost c1 → LeastCost J.Accepts J.cost c2 → LeastCost K.Accepts K.cost c →
      a * c1 + b * c2 ≤ c) := by
  have l1 := sameParts_linked h.first l
  have l2 := sameParts_linked h.second l
  obtain ⟨o1, o2, hb⟩ := pricesAdd_context h hs hs1 hs2 l hdb hdb1 hdb2
  have e := c92_any_models a b _ _ _ _ o1 o2 hb (shipped_prices hs l) (l.networkOk db hs) (l.closed hs) l.ownSymbols hs.scenarios
  have a1 : (I.context net db1).MathFeasible = I.Accepts := funext fun σ => propext (l1.feasible_iff hs1 hdb1 σ)
  have a2 : (J.context net db2).MathFeasible = J.Accepts := funext fun σ => propext (l2.feasible_iff hs2 hdb2 σ)
  have a3 : (K.context net db).MathFeasible = K.Accepts := funext fun σ => propext (l.feasible_iff hs hdb σ)
  have b1 : (I.context net db1).mathCost = I.cost := funext fun σ => l1.cost_eq hs1 hdb1 σ
  have b2 : (J.context net db2).mathCost = J.cost := funext fun σ => l2.cost_eq hs2 hdb2 σ
  have b3 : (K.context net db).mathCost = K.cost := funext fun σ => l.cost_eq hs hdb σ
  rw [a1, a2, a3, b1, b2, b3] at e
  exact ⟨e.1, e.2.2.2.1⟩

/-- **C92 (partial), the command.** Three commands on studies on the shipped models, the prices of the third one being `a` times those of the first one
and `b` times those of the second one, added, `a` and `b` not negative.  They end without an error, and if the three print status 0 and no
coefficient of their costs is tiny, the third one prints at least `a` times the cost of the first one and `b` times that of the second one, added.
Coefficients of limits may be tiny.

Partial: tiny coefficients of costs (`c92_tiny`). -/
theorem c92_command_partial (solve : Solver → Answer) (hsolve : RightSolver solve) (os os1 os2 : Nat → SetOrder) (ho : ∀ i, (os i).Valid)
    (ho1 : ∀ i, (os1 i).Valid) (ho2 : ∀ i, (os2 i).Valid) (fuel fuel1 fuel2 : Nat) (d d1 d2 : Disk) (f f1 f2 : CliFlags)
    {paths paths1 paths2 : List String} {comp comp1 comp2 : String} {tables tables1 tables2 : Option String} {ls ls1 ls2 : List InputLibrary}
    {s s1 s2 : InputSystem} (c1 : ShippedCommand d1 f1 paths1 comp1 tables1 ls1 s1) (hfuel1 : 3 * ls1.length + 2 ≤ fuel1)
    (c2 : ShippedCommand d2 f2 paths2 comp2 tables2 ls2 s2) (hfuel2 : 3 * ls2.length + 2 ≤ fuel2) (c : ShippedCommand d f paths comp tables ls s)
    (hfuel : 3 * ls.length + 2 ≤ fuel) (a b : ℚ) (ha : 0 ≤ a) (hb : 0 ≤ b)
    (h : StudyInput.PricesAdd a b (d1.study s1 tables1 f1) (d2.study s2 tables2 f2) (d.study s tables f)) :
    ∃ o o1 o2, mainOutput solve textParser os fuel d f = some (.ok o) ∧ mainOutput solve textParser os1 fuel1 d1 f1 = some (.ok o1) ∧
      mainOutput solve textParser os2 fuel2 d2 f2 = some (.ok o2) ∧
      (PricesKeptRun textParser os fuel d f → PricesKeptRun textParser os1 fuel1 d1 f1 → PricesKeptRun textParser os2 fuel2 d2 f2 →
        o.status = 0 → o1.status = 0 → o2.status = 0 → a * o1.cost + b * o2.cost ≤ o.cost) := by
  obtain ⟨libs, sys, net, db, o, ⟨x1, x2, x3⟩, l, g, r, st, -, -⟩ := shipped_run hsolve ho c hfuel
  obtain ⟨libs1, sys1, net1, db1, o1, ⟨y1, y2, y3⟩, l1, g1, r1, st1, -, -⟩ := shipped_run hsolve ho1 c1 hfuel1
  obtain ⟨libs2, sys2, net2, db2, o2, ⟨w1, w2, w3⟩, l2, g2, r2, st2, -, -⟩ := shipped_run hsolve ho2 c2 hfuel2
  refine ⟨o, o1, o2, r, r1, r2, fun q q1 q2 z z1 z2 => ?_⟩
  have p : ((d.study s tables f).context net db).PricesKept := q _ _ _ _ _ _ _ _ _ c.names c.read x1 c.system x2 x3 g
  have p1 : ((d1.study s1 tables1 f1).context net1 db1).PricesKept := q1 _ _ _ _ _ _ _ _ _ c1.names c1.read y1 c1.system y2 y3 g1
  have p2 : ((d2.study s2 tables2 f2).context net2 db2).PricesKept := q2 _ _ _ _ _ _ _ _ _ c2.names c2.read w1 c2.system w2 w3 g2
  have m1 := sameParts_linked h.first l
  have m2 := sameParts_linked h.second l
  have i1 : s1.Renamed (fun n => n) s1 := rearranged_refl s1
  have i2 : s2.Renamed (fun n => n) s2 := rearranged_refl s2
  have hr1 := renamed_networks i1 (renamed_part (I := d1.study s1 tables1 f1) i1) c1.sound c1.sound c1.joins m1 l1 g1 g1
  have hr2 := renamed_networks i2 (renamed_part (I := d2.study s2 tables2 f2) i2) c2.sound c2.sound c2.joins m2 l2 g2 g2
  have hr1' := renamed_networks i1 (renamed_part (I := d1.study s1 tables1 f1) i1) c1.sound c1.sound c1.joins l1 m1 g1 g1
  have hr2' := renamed_networks i2 (renamed_part (I := d2.study s2 tables2 f2) i2) c2.sound c2.sound c2.joins l2 m2 g2 g2
  have k1 := renamed_leastCost hr1 (fun _ _ ha => renamed_net_kept hr1 (m1.networkOk db1 c1.sound) (l1.networkOk db1 c1.sound) (m1.closed c1.sound)
    m1.ownSymbols ha)
  have k2 := renamed_leastCost hr2 (fun _ _ ha => renamed_net_kept hr2 (m2.networkOk db2 c2.sound) (l2.networkOk db2 c2.sound) (m2.closed c2.sound)
    m2.ownSymbols ha)
  have p1' : ((d1.study s1 tables1 f1).context net db1).PricesKept := by
    intro c hc e he
    obtain ⟨c', hc', rfl⟩ := List.mem_map.1 (hr1'.components.symm.subset hc)
    rw [context_contributions] at he
    exact (renamed_net_part hr1').noTiny (l1.networkOk db1 c1.sound) (m1.networkOk db1 c1.sound) (l1.closed c1.sound) hc'
      ((l1.checked hc').objective_ok he).2.2.1 0 0 le_rfl (p1 c' hc' e (by rw [context_contributions]; exact he))
  have p2' : ((d2.study s2 tables2 f2).context net db2).PricesKept := by
    intro c hc e he
    obtain ⟨c', hc', rfl⟩ := List.mem_map.1 (hr2'.components.symm.subset hc)
    rw [context_contributions] at he
    exact (renamed_net_part hr2').noTiny (l2.networkOk db2 c2.sound) (m2.networkOk db2 c2.sound) (l2.closed c2.sound) hc'
      ((l2.checked hc').objective_ok he).2.2.1 0 0 le_rfl (p2 c' hc' e (by rw [context_contributions]; exact he))
  obtain ⟨a1, a2, hadd⟩ := pricesAdd_context h c.sound c1.sound c2.sound l g g1 g2
  exact (c92_any_models a b _ _ _ _ a1 a2 hadd (shipped_prices c.sound l) (l.networkOk db c.sound) (l.closed c.sound) l.ownSymbols
    c.sound.scenarios).2.2.2.2 ha hb p1' p2' p _ _ _ ((k1 _).1 (st1.least z1)) ((k2 _).1 (st2.least z2)) (st.least z)

end Props
end Verif
