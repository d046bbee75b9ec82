import Verif.Lemmas.ScenariosKept
import Verif.Props.RepricedAny
import Verif.Props.StepsAny

/-!
# C81 for any models: several scenarios, against the scenarios one by one
-/

namespace Verif.Props
open Verif Verif.OptCtx

theorem leastCost_div {α : Type} {allowed : α → Prop} {cost : α → ℚ} {S : ℚ} (hS : 0 < S) (c : ℚ) :
    LeastCost allowed (fun y => cost y / S) (c / S) ↔ LeastCost allowed cost c := by
  unfold LeastCost
  refine and_congr (exists_congr fun y => and_congr Iff.rfl ?_) (forall_congr' fun y => imp_congr Iff.rfl ?_)
  · exact div_left_inj' hS.ne'
  · exact div_le_div_iff_of_pos_right hS

/-- the least average cost of choices that can be made separately -/
theorem leastCost_average {α β : Type} (S : Nat) {allowed : α → Prop} {cost : α → ℚ} {allowed' : Nat → β → Prop} {cost' : Nat → β → ℚ}
    (part : Nat → α → β) (join : (Nat → β) → α)
    (hp : ∀ σ, (allowed σ ↔ ∀ k < S, allowed' k (part k σ)) ∧ cost σ = average S fun k => cost' k (part k σ))
    (hj : ∀ τ, (allowed (join τ) ↔ ∀ k < S, allowed' k (τ k)) ∧ cost (join τ) = average S fun k => cost' k (τ k)) (b : β) (c : ℚ) :
    LeastCost allowed cost c ↔ ∃ cs : Nat → ℚ, (∀ k < S, LeastCost (allowed' k) (cost' k) (cs k)) ∧ c = average S cs := by
  have e : ∀ f : Nat → ℚ, average S f = ∑ k ∈ Finset.range S, f k / S := fun f => by unfold average; rw [Finset.sum_div]
  simp only [e] at hp hj
  rw [leastCost_sum S part join (cost' := fun k y => cost' k y / S) hp hj b c]
  constructor
  · rintro ⟨cs, h1, rfl⟩
    refine ⟨fun k => cs k * S, fun k hk => ?_, ?_⟩
    · have hS : (0 : ℚ) < S := by exact_mod_cast (by omega : 0 < S)
      rw [← leastCost_div hS, mul_div_cancel_right₀ _ hS.ne']
      exact h1 k hk
    · rw [e]
      refine Finset.sum_congr rfl fun k hk => ?_
      have hS : (0 : ℚ) < S := by have := Finset.mem_range.1 hk; exact_mod_cast (by omega : 0 < S)
      rw [mul_div_cancel_right₀ _ hS.ne']
  · rintro ⟨cs, h1, rfl⟩
    refine ⟨fun k => cs k / S, fun k hk => ?_, e cs⟩
    have hS : (0 : ℚ) < S := by exact_mod_cast (by omega : 0 < S)
    exact (leastCost_div hS _).2 (h1 k hk)

theorem list_average_swap {α : Type} (S : Nat) (l : List α) (f : α → ℚ) (g : α → Nat → ℚ) (h : ∀ a ∈ l, f a = average S (g a)) :
    (l.map f).sum = average S fun k => (l.map fun a => g a k).sum := by
  induction l with
  | nil => simp [average]
  | cons a l ih =>
    simp only [List.map_cons, List.sum_cons]
    rw [ih fun a ha => h a (List.mem_cons_of_mem _ ha), h a List.mem_cons_self]
    unfold average
    rw [Finset.sum_add_distrib, add_div]

theorem scenarios_same {A : Bool → Prop} {x : OptCtx} (hn : x.NetworkOk) (hcl : x.Closed) (ho : x.OwnSymbols) (hu : x.Separate) (hA : x.VarsAre A)
    (hS : 0 < x.scenarios) {xs : Nat → OptCtx} (h : ∀ k < x.scenarios, x.InScenario k (xs k)) {σ : TermKey → ℚ} {σs : Nat → TermKey → ℚ}
    (ha : ∀ k < x.scenarios, SeenIn A k σ (σs k)) :
    (x.MathFeasible σ ↔ ∀ k < x.scenarios, (xs k).MathFeasible (σs k)) ∧
      x.mathCost σ = average x.scenarios fun k => (xs k).mathCost (σs k) := by
  constructor
  · simp only [mathFeasible_iff]
    constructor
    · intro g k hk c hc
      rw [(h k hk).network] at hc
      rw [(h k hk).satisfied hn hcl ho hu hA (ha k hk) hc]
      exact fun t ht => (satisfied_iff.1 (g c hc)) k t hk ht
    · intro g c hc
      rw [satisfied_iff]
      intro k t hk ht
      have := g k hk c (by rw [(h k hk).network]; exact hc)
      rw [(h k hk).satisfied hn hcl ho hu hA (ha k hk) hc] at this
      exact this t ht
  · unfold OptCtx.mathCost
    rw [list_average_swap x.scenarios _ _ (fun c k => ((x.contributions c).map fun e => mden ((xs k).readIn (σs k) c) e 0 0).sum)]
    · unfold average
      congr 1
      refine Finset.sum_congr rfl fun k hk => ?_
      have hk := h k (Finset.mem_range.1 hk)
      beta_reduce
      rw [hk.network]
      have e : ∀ c, (xs k).contributions c = x.contributions c := by
        intro c
        unfold OptCtx.contributions
        rw [hk.strategy, hk.risk]
      simp only [e]
    · intro c hc
      refine list_average_swap x.scenarios _ _ (fun e k => mden ((xs k).readIn (σs k) c) e 0 0) fun e he => ?_
      exact (hu.objectives c hc e he).value hS h hn hcl hu hA ha hc (hA.named c hc e (.objective he)) (ho.objectives c hc e he) 0

theorem inScenario_seen (A : Bool → Prop) (k : Nat) (σ : TermKey → ℚ) : SeenIn A k σ (inScenario k σ) := by
  intro c n t b _
  cases b <;> rfl

/-- values for all scenarios from values for each of them -/
def assembled (τ : Nat → TermKey → ℚ) : TermKey → ℚ := fun k => τ ((k.scenario.getD 0).toNat) { k with scenario := k.scenario.map fun _ => 0 }

theorem assembled_seen (k : Nat) (τ : Nat → TermKey → ℚ) : SeenIn (· = true) k (assembled τ) (τ k) := by
  intro c n t b hb
  subst hb
  rfl

/-- **C81, any models.** Take a network of any models where bounds, constraints and what goes through ports have no expectation and costs are
expectations.  Values of the variables satisfy the study exactly when, in each scenario, what they are in this scenario satisfies the study with
this scenario alone; their cost is the average of these costs.  The least cost is never below the average of the least costs of the scenarios;
when all variables have one value for each scenario, it is this average. -/
theorem c81_any_models (x : OptCtx) (hn : x.NetworkOk) (hcl : x.Closed) (ho : x.OwnSymbols) (hu : x.Separate) (hS : 0 < x.scenarios) (xs : Nat → OptCtx)
    (h : ∀ k < x.scenarios, x.InScenario k (xs k)) :
    (∀ σ, (x.MathFeasible σ ↔ ∀ k < x.scenarios, (xs k).MathFeasible (inScenario k σ)) ∧
      x.mathCost σ = average x.scenarios fun k => (xs k).mathCost (inScenario k σ)) ∧
    (∀ c cs, LeastCost x.MathFeasible x.mathCost c → (∀ k < x.scenarios, LeastCost (xs k).MathFeasible (xs k).mathCost (cs k)) →
      average x.scenarios cs ≤ c) ∧
    (x.ChosenPerScenario → ∀ c, LeastCost x.MathFeasible x.mathCost c ↔
      ∃ cs : Nat → ℚ, (∀ k < x.scenarios, LeastCost (xs k).MathFeasible (xs k).mathCost (cs k)) ∧ c = average x.scenarios cs) := by
  have hT : x.VarsAre fun _ => True := ⟨fun _ _ _ _ => trivial, fun _ _ _ _ _ _ => trivial⟩
  have hp := fun σ => scenarios_same hn hcl ho hu hT hS h (σ := σ) (σs := fun k => inScenario k σ) fun k _ => inScenario_seen _ k σ
  refine ⟨hp, ?_, fun hch c => ?_⟩
  · rintro c cs ⟨⟨σ, hσ, rfl⟩, -⟩ hcs
    rw [(hp σ).2]
    unfold average
    refine div_le_div_of_nonneg_right (Finset.sum_le_sum fun k hk => ?_) (by positivity)
    have hk := Finset.mem_range.1 hk
    exact (hcs k hk).2 _ ((hp σ).1.1 hσ k hk)
  · exact leastCost_average x.scenarios inScenario assembled hp
      (fun τ => scenarios_same hn hcl ho hu ⟨hch.selected, hch.named⟩ hS h fun k _ => assembled_seen k τ) (fun _ => 0) c

mutual
theorem Data.getValue_inScenario (k : Int) (d : Data) (t : Option Int) (b : Bool) (n : String) :
    (∀ v, (Data.inScenario k d).getValue t (scenIf b 0) n = .ok v ↔ d.getValue t (scenIf b k) n = .ok v) := by
  intro v
  have hcol : ∀ z, (∀ j, applyScenarization (some (column k z)) 0 = .ok j ↔ applyScenarization z k = .ok j) := by
    intro z j
    unfold column
    cases z with
    | none => rfl
    | some z =>
      show (Dict.get (match Dict.get? z k with | some j => [((0 : Int), j)] | none => []) 0 : R Int) = .ok j ↔ (Dict.get z k : R Int) = .ok j
      unfold Dict.get
      cases hz : Dict.get? z k with
      | none => simp [Dict.get?]
      | some i => simp [Dict.get?]
  cases d with
  | const _ => rfl
  | timeSeries _ => rfl
  | scenarioSeries d z =>
    cases b with
    | false => rfl
    | true =>
      show (applyScenarization (some (column k z)) 0 >>= fun s => Dict.get d s) = .ok v ↔ (applyScenarization z k >>= fun s => Dict.get d s) = .ok v
      have := hcol z
      cases h1 : applyScenarization (some (column k z)) 0 with
      | ok j => rw [(this j).1 h1]
      | error e =>
        cases h2 : applyScenarization z k with
        | ok j => rw [(this j).2 h2] at h1; cases h1
        | error e' => exact ⟨fun h => (by cases h), fun h => (by cases h)⟩
  | timeScenarioSeries f z =>
    cases t with
    | none => exact ⟨fun h => (by cases h), fun h => (by cases h)⟩
    | some t =>
      cases b with
      | false => rfl
      | true =>
        show (applyScenarization (some (column k z)) 0 >>= fun s => Frame.iloc f t s) = .ok v ↔ (applyScenarization z k >>= fun s => Frame.iloc f t s) = .ok v
        have := hcol z
        cases h1 : applyScenarization (some (column k z)) 0 with
        | ok j => rw [(this j).1 h1]
        | error e =>
          cases h2 : applyScenarization z k with
          | ok j => rw [(this j).2 h2] at h1; cases h1
          | error e' => exact ⟨fun h => (by cases h), fun h => (by cases h)⟩
  | tree ds => exact Data.getTree_inScenario k ds t b n v
theorem Data.getTree_inScenario (k : Int) (ds : List (String × Data)) (t : Option Int) (b : Bool) (n : String) :
    (∀ v, Data.getTree (Data.allInScenario k ds) t (scenIf b 0) n = .ok v ↔ Data.getTree ds t (scenIf b k) n = .ok v) := by
  intro v
  cases ds with
  | nil => rfl
  | cons d ds =>
    obtain ⟨m, d⟩ := d
    show (if m = n then Data.getValue (Data.inScenario k d) t (scenIf b 0) "" else _) = .ok v ↔ (if m = n then Data.getValue d t (scenIf b k) "" else _) = .ok v
    split_ifs
    · exact Data.getValue_inScenario k d t b "" v
    · exact Data.getTree_inScenario k ds t b n v
end

theorem get?_mapValues {κ α β : Type} [DecidableEq κ] (f : α → β) (d : Dict κ α) (k : κ) :
    Dict.get? (d.map fun p => (p.1, f p.2)) k = (Dict.get? d k).map f := by
  induction d with
  | nil => rfl
  | cons p d ih =>
    obtain ⟨a, b⟩ := p
    simp only [List.map_cons, Dict.get?]
    split_ifs
    · rfl
    · exact ih

/-- **C81, the scenario.** The study with one scenario, whose data are read in the column that scenario `k` uses, is the study in scenario `k`
alone. -/
theorem c81_one_scenario (x : OptCtx) (k : Nat) :
    x.InScenario k { x with scenarios := 1, database := x.database.map fun d => (d.1, Data.inScenario k d.2) } where
  network := rfl
  length := rfl
  scenarios := rfl
  strategy := rfl
  risk := rfl
  data c _ n t := by
    show OptCtx.dataValue _ c.id n (atT (x.parIdx c.id n) t) (scenIf (x.parIdx c.id n).scenario 0) =
      x.dataValue c.id n (atT (x.parIdx c.id n) t) (scenIf (x.parIdx c.id n).scenario k)
    unfold OptCtx.dataValue
    rw [get?_mapValues]
    cases hd : Dict.get? x.database (c.id, n) with
    | none => rfl
    | some d =>
      have hb : ({ x with scenarios := 1, database := x.database.map fun d => (d.1, Data.inScenario k d.2) } : OptCtx).blockTime = x.blockTime := rfl
      simp only [Option.map_some, hb]
      have := Data.getValue_inScenario k d (Option.map x.blockTime (atT (x.parIdx c.id n) t)) (x.parIdx c.id n).scenario x.treeNode
      cases h1 : (Data.inScenario k d).getValue (Option.map x.blockTime (atT (x.parIdx c.id n) t)) (scenIf (x.parIdx c.id n).scenario 0) x.treeNode with
      | ok v => rw [(this v).1 h1]
      | error e =>
        cases h2 : d.getValue (Option.map x.blockTime (atT (x.parIdx c.id n) t)) (scenIf (x.parIdx c.id n).scenario k) x.treeNode with
        | ok v => rw [(this v).2 h2] at h1; cases h1
        | error e' => rfl

/-- the dependence of expressions is that of the study -/
theorem inScenario_dependence {x x' : OptCtx} {k : Nat} (h : x.InScenario k x') (c : Component) (e : Expr) : x'.dependence c e = x.dependence c e :=
  looser_dependence h.network c e

/-- what is kept of the study and of its scenarios -/
theorem scenarios_kept {A : Bool → Prop} {x : OptCtx} (hn : x.NetworkOk) (hcl : x.Closed) (ho : x.OwnSymbols) (hu : x.Separate) (hA : x.VarsAre A)
    (hb : x.SureBounds) {xs : Nat → OptCtx} (h : ∀ k < x.scenarios, x.InScenario k (xs k)) {σ : TermKey → ℚ} {σs : Nat → TermKey → ℚ}
    (ha : ∀ k < x.scenarios, SeenIn A k σ (σs k)) : x.KeptFeasible σ ↔ ∀ k < x.scenarios, (xs k).KeptFeasible (σs k) := by
  have inst : ∀ k < x.scenarios, ∀ c ∈ x.network.allComponents, ∀ v ∈ x.strategy.getVariables c.model, ∀ t : Nat,
      σs k (instanceAt c v t (0 : Nat)) = σ (instanceAt c v t k) :=
    fun k hk c hc v hv t => ha k hk _ _ _ _ (hA.selected c hc v hv)
  have bnd : ∀ k < x.scenarios, ∀ c ∈ x.network.allComponents, ∀ v ∈ x.strategy.getVariables c.model, ∀ t : Nat,
      (enforcedVar ((xs k).readIn (σs k) c) v (σs k (instanceAt c v t (0 : Nat))) t (0 : Nat) ↔ enforcedVar (x.readIn σ c) v (σ (instanceAt c v t k)) t k) := by
    intro k hk c hc v hv t
    rw [inst k hk c hc v hv t]
    have hb := fun b hb' => (h k hk).read hn hcl hu hA (ha k hk) hc (hA.named c hc b (.bound hv hb')) (ho.bounds c hc v hv b hb') (hu.bounds c hc v hv b hb') t
    have e1 : ∀ q, aboveOpt ((xs k).readIn (σs k) c) v.lowerBound q t (0 : Nat) ↔ aboveOpt (x.readIn σ c) v.lowerBound q t k := by
      intro q
      unfold aboveOpt
      cases hl : v.lowerBound with
      | none => rfl
      | some b => exact aboveBound_read (hb b (.inl hl)) rfl
    have e2 : ∀ q, belowOpt ((xs k).readIn (σs k) c) v.upperBound q t (0 : Nat) ↔ belowOpt (x.readIn σ c) v.upperBound q t k := by
      intro q
      unfold belowOpt
      cases hl : v.upperBound with
      | none => rfl
      | some b => exact belowBound_read (hb b (.inr hl)) rfl
    unfold enforcedVar
    cases v.dataType <;> simp only [e1, e2]
  have con : ∀ k < x.scenarios, ∀ c ∈ x.network.allComponents, ∀ z ∈ x.strategy.getConstraints c.model, ∀ t : Nat,
      ((aboveBound ((xs k).readIn (σs k) c) z.lowerBound ((xs k).keptValue (σs k) c z.expression t (0 : Nat)) t (0 : Nat) ∧
        belowBound ((xs k).readIn (σs k) c) z.upperBound ((xs k).keptValue (σs k) c z.expression t (0 : Nat)) t (0 : Nat)) ↔
       (aboveBound (x.readIn σ c) z.lowerBound (x.keptValue σ c z.expression t k) t k ∧
        belowBound (x.readIn σ c) z.upperBound (x.keptValue σ c z.expression t k) t k)) := by
    intro k hk c hc z hz t
    have hb := fun e he => (h k hk).read hn hcl hu hA (ha k hk) hc (hA.named c hc e (.constraint hz he)) (ho.constraints c hc z hz e he)
      (hu.constraints c hc z hz e he) t
    have hv := (h k hk).kept hn hcl hu hA (ha k hk) hc (hA.named c hc _ (.constraint hz (.inl rfl))) (ho.constraints c hc z hz _ (.inl rfl))
      (hu.constraints c hc z hz _ (.inl rfl)) t
    exact and_congr (aboveBound_read (hb _ (.inr (.inl rfl))) hv) (belowBound_read (hb _ (.inr (.inr rfl))) hv)
  have still : ∀ k < x.scenarios, ∀ c ∈ x.network.allComponents, ∀ z ∈ x.strategy.getConstraints c.model, (x.dependence c z.expression).scenario = false →
      ∀ t : Nat, t < x.T →
      ((aboveBound (x.readIn σ c) z.lowerBound (x.keptValue σ c z.expression t k) t k ∧
        belowBound (x.readIn σ c) z.upperBound (x.keptValue σ c z.expression t k) t k) ↔
       (aboveBound (x.readIn σ c) z.lowerBound (x.keptValue σ c z.expression t (0 : Nat)) t (0 : Nat) ∧
        belowBound (x.readIn σ c) z.upperBound (x.keptValue σ c z.expression t (0 : Nat)) t (0 : Nat))) := by
    intro k hk c hc z hz hd t ht
    have hv : x.keptValue σ c z.expression t k = x.keptValue σ c z.expression t (0 : Nat) :=
      keptValue_congr rfl (fun var => dependence_scenario hn var (ho.constraints c hc z hz _ (.inl rfl)) hd _ _ _) σ
    exact and_congr (aboveBound_read (hb c hc z hz hd _ (.inl rfl) σ t k ht hk) hv) (belowBound_read (hb c hc z hz hd _ (.inr rfl) σ t k ht hk) hv)
  constructor
  · rintro ⟨g1, g2⟩ k hk
    refine ⟨?_, ?_⟩
    · rw [(h k hk).network, (h k hk).strategy, (h k hk).T_eq, (h k hk).scenarios]
      intro c hc v hv t s ht hs
      obtain rfl : s = 0 := by omega
      exact (bnd k hk c hc v hv t).2 (g1 c hc v hv t k ht hk)
    · rw [(h k hk).network, (h k hk).strategy]
      rintro c hc z hz t s ⟨w1, w2, w3, w4⟩
      rw [(h k hk).T_eq] at w1
      rw [(h k hk).scenarios] at w2
      rw [inScenario_dependence (h k hk)] at w3
      obtain rfl : s = 0 := by omega
      rw [con k hk c hc z hz t]
      by_cases hd : (x.dependence c z.expression).scenario = false
      · rw [still k hk c hc z hz hd t w1]
        exact g2 c hc z hz t 0 ⟨w1, by omega, w3, fun _ => rfl⟩
      · exact g2 c hc z hz t k ⟨w1, hk, w3, fun q => absurd q hd⟩
  · intro g
    refine ⟨?_, ?_⟩
    · intro c hc v hv t s ht hs
      have := (g s hs).vars
      rw [(h s hs).network, (h s hs).strategy, (h s hs).T_eq, (h s hs).scenarios] at this
      exact (bnd s hs c hc v hv t).1 (this c hc v hv t 0 ht Nat.one_pos)
    · rintro c hc z hz t s ⟨w1, w2, w3, w4⟩
      have := (g s w2).constraints
      rw [(h s w2).network, (h s w2).strategy] at this
      refine (con s w2 c hc z hz t).1 (this c hc z hz t 0 ⟨?_, ?_, ?_, fun _ => rfl⟩)
      · rw [(h s w2).T_eq]; exact w1
      · rw [(h s w2).scenarios]; exact Nat.one_pos
      · rw [inScenario_dependence (h s w2)]; exact w3

/-- the cost that is counted for the study is the average of those of its scenarios, when no coefficient is tiny -/
theorem scenarios_counted {A : Bool → Prop} {x : OptCtx} (hn : x.NetworkOk) (hcl : x.Closed) (ho : x.OwnSymbols) (hu : x.Separate) (hA : x.VarsAre A)
    (hS : 0 < x.scenarios) {xs : Nat → OptCtx} (h : ∀ k < x.scenarios, x.InScenario k (xs k)) (hp : x.PricesKept)
    (hps : ∀ k < x.scenarios, (xs k).PricesKept) {σ : TermKey → ℚ} {σs : Nat → TermKey → ℚ} (ha : ∀ k < x.scenarios, SeenIn A k σ (σs k)) :
    x.keptCost σ = average x.scenarios fun k => (xs k).keptCost (σs k) := by
  have contr : ∀ k < x.scenarios, ∀ c, (xs k).contributions c = x.contributions c := by
    intro k hk c
    unfold OptCtx.contributions
    rw [(h k hk).strategy, (h k hk).risk]
  have big : ∀ {q : ℚ}, q = 0 ∨ 1 / 10 ^ 16 ≤ |q| → keep q = q := by
    rintro q (rfl | hq)
    · exact keep_zero
    · exact if_neg (not_lt.2 hq)
  unfold OptCtx.keptCost
  rw [list_average_swap x.scenarios _ _ (fun c k => ((x.contributions c).map fun e => (xs k).keptValue (σs k) c e 0 0).sum)]
  · unfold average
    congr 1
    refine Finset.sum_congr rfl fun k hk => ?_
    have hk := Finset.mem_range.1 hk
    beta_reduce
    rw [(h k hk).network]
    simp only [contr k hk]
  · intro c hc
    refine list_average_swap x.scenarios _ _ (fun e k => (xs k).keptValue (σs k) c e 0 0) fun e he => ?_
    exact (hu.objectives c hc e he).kept hS h hn hcl hu hA ha hc (hA.named c hc e (.objective he)) (ho.objectives c hc e he)
      (fun κ => big (coefficient_noTiny (hp c hc e he) κ))
      fun k hk κ => big (coefficient_noTiny (hps k hk c (by rw [(h k hk).network]; exact hc) e (by rw [contr k hk]; exact he)) κ)

/-- **C81, what the program keeps.** The same of what the program keeps of the study.  Limits are those of the scenarios, also with tiny
coefficients, which are dropped (bounds of a constraint must not depend on the scenario if its expression does not: only those of the first scenario
would count).  When no coefficient of the costs is tiny, neither with all scenarios nor with one, the cost that is counted is the average of those
of the scenarios; the least of them is never below the average of those of the scenarios, and it is this average when all variables have one value
for each scenario. -/
theorem c81_kept (x : OptCtx) (hn : x.NetworkOk) (hcl : x.Closed) (ho : x.OwnSymbols) (hu : x.Separate) (hb : x.SureBounds) (hS : 0 < x.scenarios)
    (xs : Nat → OptCtx) (h : ∀ k < x.scenarios, x.InScenario k (xs k)) :
    (∀ σ, x.KeptFeasible σ ↔ ∀ k < x.scenarios, (xs k).KeptFeasible (inScenario k σ)) ∧
    (x.PricesKept → (∀ k < x.scenarios, (xs k).PricesKept) →
      (∀ σ, x.keptCost σ = average x.scenarios fun k => (xs k).keptCost (inScenario k σ)) ∧
      (∀ c cs, LeastCost x.KeptFeasible x.keptCost c → (∀ k < x.scenarios, LeastCost (xs k).KeptFeasible (xs k).keptCost (cs k)) →
        average x.scenarios cs ≤ c) ∧
      (x.ChosenPerScenario → ∀ c, LeastCost x.KeptFeasible x.keptCost c ↔
        ∃ cs : Nat → ℚ, (∀ k < x.scenarios, LeastCost (xs k).KeptFeasible (xs k).keptCost (cs k)) ∧ c = average x.scenarios cs)) := by
  have hT : x.VarsAre fun _ => True := ⟨fun _ _ _ _ => trivial, fun _ _ _ _ _ _ => trivial⟩
  have hf := fun σ => scenarios_kept hn hcl ho hu hT hb h (σ := σ) (σs := fun k => inScenario k σ) fun k _ => inScenario_seen _ k σ
  refine ⟨hf, fun hp hps => ?_⟩
  have hc := fun σ => scenarios_counted hn hcl ho hu hT hS h hp hps (σ := σ) (σs := fun k => inScenario k σ) fun k _ => inScenario_seen _ k σ
  refine ⟨hc, ?_, fun hch c => ?_⟩
  · rintro c cs ⟨⟨σ, hσ, rfl⟩, -⟩ hcs
    rw [hc σ]
    unfold average
    refine div_le_div_of_nonneg_right (Finset.sum_le_sum fun k hk => ?_) (by positivity)
    have hk := Finset.mem_range.1 hk
    exact (hcs k hk).2 _ ((hf σ).1 hσ k hk)
  · exact leastCost_average x.scenarios inScenario assembled (fun σ => ⟨hf σ, hc σ⟩)
      (fun τ => ⟨scenarios_kept hn hcl ho hu ⟨hch.selected, hch.named⟩ hb h fun k _ => assembled_seen k τ,
        scenarios_counted hn hcl ho hu ⟨hch.selected, hch.named⟩ hS h hp hps fun k _ => assembled_seen k τ⟩) (fun _ => 0) c

/-- **C81 (partial), the problem given to the solver.** When the problem with several scenarios is built, and the problem for each scenario
alone: the optimum of the first is never below the average of those of the others; when all variables have one value for each scenario, it has an
optimum exactly when all the others have one, and it is then their average; a right solver answers so.

Missing: expressions that are not covered (`Expressible`), bounds of constraints that depend on the scenario when the expression does not
(`SureBounds`), and coefficients of costs below `1e-16` (`PricesKept`). -/
theorem c81_problem_partial (x : OptCtx) (hx : x.Expressible) (hcl : x.Closed) (ho : x.OwnSymbols) (hu : x.Separate) (hb : x.SureBounds)
    (hp : x.PricesKept) (xs : Nat → OptCtx) (h : ∀ k < x.scenarios, x.InScenario k (xs k)) (hxs : ∀ k < x.scenarios, (xs k).Expressible)
    (hps : ∀ k < x.scenarios, (xs k).PricesKept) (st : OptState) (sts : Nat → OptState)
    (hst : x.buildProblem = .ok st) (hsts : ∀ k < x.scenarios, (xs k).buildProblem = .ok (sts k)) (solve : Solver → Answer)
    (hs : RightSolver solve) :
    ((solve st.solver).status = 0 → (∀ k < x.scenarios, (solve (sts k).solver).status = 0) →
      average x.scenarios (fun k => (solve (sts k).solver).value) ≤ (solve st.solver).value) ∧
    (x.ChosenPerScenario → ((solve st.solver).status = 0 ↔ ∀ k < x.scenarios, (solve (sts k).solver).status = 0) ∧
      ((solve st.solver).status = 0 → (solve st.solver).value = average x.scenarios fun k => (solve (sts k).solver).value)) := by
  obtain ⟨-, hle, heq⟩ := (c81_kept x hx.network hcl ho hu hb hx.scenarios xs h).2 hp hps
  have hk := fun k hk c => kept_leastCost (hxs k hk) (hsts k hk) c
  refine ⟨fun h0 hall => hle _ _ ((kept_leastCost hx hst _).1 (hs.value _ h0)) fun k hk' => (hk k hk' _).1 (hs.value _ (hall k hk')), fun hch => ?_⟩
  have es : (solve st.solver).status = 0 ↔ ∀ k < x.scenarios, (solve (sts k).solver).status = 0 := by
    rw [hs.optimal]
    constructor
    · rintro ⟨c, hc⟩ k hk'
      obtain ⟨cs, q, -⟩ := (heq hch c).1 ((kept_leastCost hx hst _).1 hc)
      exact (hs.optimal _).2 ⟨_, (hk k hk' _).2 (q k hk')⟩
    · intro q
      exact ⟨_, (kept_leastCost hx hst _).2 ((heq hch _).2 ⟨fun k => (solve (sts k).solver).value, fun k hk' => (hk k hk' _).1 (hs.value _ (q k hk')), rfl⟩)⟩
  refine ⟨es, fun h0 => ?_⟩
  exact leastCost_unique ((kept_leastCost hx hst _).1 (hs.value _ h0)) ((heq hch _).2 ⟨fun k => (solve (sts k).solver).value,
    fun k hk' => (hk k hk' _).1 (hs.value _ (es.1 h0 k hk')), rfl⟩)

end Verif.Props
