import Verif.Spec.Units
import Verif.Props.UnitsAny

/-!
# C89 and C90 for what the command prints: larger systems, and systems in another unit
-/

namespace Verif.Props
open Verif Verif.Expr Verif.OptCtx Verif.Shipped

/-! ## A check of powers -/

/-- no variable, nothing from a port -/
def fixedIn (e : Expr) : Bool := e.subs.all fun
  | .var _ => false
  | .portField _ _ => false
  | _ => true

/-- the powers that occur -/
def powersTried : List ℤ := [-1, 0, 1]

mutual
/-- has power `w` -/
def hasPower (u : Units) : Expr → ℤ → Bool
  | .lit v, w => decide (v = 0) || !v.isFin || decide (w = 0)
  | .var n, w => decide (u.var n = w)
  | .par n, w => decide (u.par n = w)
  | .portField p f, w => decide (u.port p f = w)
  | .agg (.portField p f) _, w => decide (u.port p f = w)
  | .neg e, w => hasPower u e w
  | .add es, w => haveAllPower u es w
  | .mul l r, w => (fixedIn l || fixedIn r) && powersTried.any fun p => hasPower u l p && hasPower u r (w - p)
  | .div l r, w => fixedIn r && powersTried.any fun p => hasPower u r p && hasPower u l (w + p)
  | .shift e n, w => hasPower u e w && hasPower u n 0 && fixedIn n
  | .evalT e n, w => hasPower u e w && hasPower u n 0 && fixedIn n
  | .tsum e a b, w => hasPower u e w && hasPower u a 0 && fixedIn a && hasPower u b 0 && fixedIn b
  | .allsum e, w => hasPower u e w
  | .scen e _, w => hasPower u e w
  | _, _ => false
/-- all operands -/
def haveAllPower (u : Units) : List Expr → ℤ → Bool
  | [], _ => true
  | e :: es, w => hasPower u e w && haveAllPower u es w
end

theorem haveAllPower_iff {u : Units} {w : ℤ} : ∀ {es : List Expr}, haveAllPower u es w = true ↔ ∀ e ∈ es, hasPower u e w = true
  | [] => by simp [haveAllPower]
  | e :: es => by simp [haveAllPower, haveAllPower_iff (es := es)]

theorem fixedIn_fixed {e : Expr} (h : fixedIn e = true) : e.Fixed :=
  ⟨fun n hn => by simpa using List.all_eq_true.1 h _ hn, fun p f hn => by simpa using List.all_eq_true.1 h _ hn⟩

theorem hasPower_inUnits {u : Units} (e : Expr) : ∀ {w : ℤ}, hasPower u e w = true → e.InUnits u w := by
  induction e using Expr.ind with
  | lit v =>
    intro w h
    simp only [hasPower, Bool.or_eq_true, decide_eq_true_eq, Bool.not_eq_true'] at h
    rcases h with (rfl | h) | rfl
    · exact .zero w
    · exact .infinite w h
    · exact .number v
  | var n =>
    intro w h
    obtain rfl : u.var n = w := by simpa [hasPower] using h
    exact .unknown n
  | par n =>
    intro w h
    obtain rfl : u.par n = w := by simpa [hasPower] using h
    exact .parameter n
  | portField p f =>
    intro w h
    obtain rfl : u.port p f = w := by simpa [hasPower] using h
    exact .port p f
  | agg e a _ =>
    intro w h
    cases e with
    | portField p f =>
      obtain rfl : u.port p f = w := by simpa [hasPower] using h
      exact .total p f a
    | _ => simp [hasPower] at h
  | neg e ih => exact fun h => .neg (ih (by simpa [hasPower] using h))
  | add es ih =>
    intro w h
    simp only [hasPower, haveAllPower_iff] at h
    exact .add fun e he => ih e he (h e he)
  | mul l r ihl ihr =>
    intro w h
    simp only [hasPower, Bool.and_eq_true, Bool.or_eq_true, List.any_eq_true] at h
    obtain ⟨hf, p, -, a, b⟩ := h
    have := Expr.InUnits.mul (ihl a) (ihr b) (hf.imp fixedIn_fixed fixedIn_fixed)
    rwa [add_sub_cancel] at this
  | div l r ihl ihr =>
    intro w h
    simp only [hasPower, Bool.and_eq_true, List.any_eq_true] at h
    obtain ⟨hf, p, -, a, b⟩ := h
    have := Expr.InUnits.div (ihl b) (ihr a) (fixedIn_fixed hf)
    rwa [add_sub_cancel_right] at this
  | shift e n ih ihn =>
    intro w h
    simp only [hasPower, Bool.and_eq_true] at h
    exact .shift (ih h.1.1) (ihn h.1.2) (fixedIn_fixed h.2)
  | evalT e n ih ihn =>
    intro w h
    simp only [hasPower, Bool.and_eq_true] at h
    exact .evalT (ih h.1.1) (ihn h.1.2) (fixedIn_fixed h.2)
  | tsum e a b ih iha ihb =>
    intro w h
    simp only [hasPower, Bool.and_eq_true] at h
    exact .tsum (ih h.1.1.1.1) (iha h.1.1.1.2) (fixedIn_fixed h.1.1.2) (ihb h.1.2) (fixedIn_fixed h.2)
  | allsum e ih => exact fun h => .allsum (ih (by simpa [hasPower] using h))
  | scen e o ih => exact fun h => .scen (ih (by simpa [hasPower] using h))
  | cmp l r c _ _ => intro w h; simp [hasPower] at h
  | cvar c n => intro w h; simp [hasPower] at h
  | cpar c n => intro w h; simp [hasPower] at h
  | pvar c n ti si => intro w h; simp [hasPower] at h
  | ppar c n ti si => intro w h; simp [hasPower] at h

/-- the powers are consistent in the model, and costs have power `w` -/
def consistentModel (u : Units) (w : ℤ) (m : Model) : Bool :=
  m.variables_.values.all (fun v => (decide (v.dataType = .continuous) || decide (u.var v.name = 0)) &&
    v.lowerBound.toList.all (hasPower u · (u.var v.name)) && v.upperBound.toList.all (hasPower u · (u.var v.name))) &&
  m.allConstraints.all (fun k => powersTried.any fun z => hasPower u k.expression z && hasPower u k.lowerBound z && hasPower u k.upperBound z) &&
  m.objectives.all (hasPower u · w) &&
  m.portFieldsDefinitions.values.all fun d => hasPower u d.definition 1

/-- all constraints have power `w` -/
def onePowerModel (u : Units) (w : ℤ) (m : Model) : Bool :=
  m.allConstraints.all fun k => hasPower u k.expression w && hasPower u k.lowerBound w && hasPower u k.upperBound w

/-- powers when everything becomes larger, except variables named in `b` -/
def sizes (b : List String) : Units where
  var n := if n ∈ b then 0 else 1
  par n := if n ∈ energies ∨ n ∈ unitPrices then 1 else 0
  port _ _ := 1

/-- powers of the unit of energy -/
def energyUnit : Units where
  var n := if n ∈ unitCounts then 0 else 1
  par n := if n ∈ energies then 1 else if n ∈ energyPrices then -1 else 0
  port _ _ := 1

theorem shipped_sizes : ∀ e ∈ shippedModels, consistentModel (sizes unitCounts) 1 e.2.1 = true := by
  have : (shippedModels.all fun e => consistentModel (sizes unitCounts) 1 e.2.1) = true := by decide +kernel
  exact List.all_eq_true.1 this

theorem shipped_energyUnit : ∀ e ∈ shippedModels, consistentModel energyUnit 0 e.2.1 = true := by
  have : (shippedModels.all fun e => consistentModel energyUnit 0 e.2.1) = true := by decide +kernel
  exact List.all_eq_true.1 this

theorem shipped_oneSize : ∀ e ∈ shippedModels, e.1 ≠ "antares-historic.thermal" →
    consistentModel (sizes []) 1 e.2.1 = true ∧ onePowerModel (sizes []) 1 e.2.1 = true := by
  have : (shippedModels.all fun e => e.1 == "antares-historic.thermal" ||
    (consistentModel (sizes []) 1 e.2.1 && onePowerModel (sizes []) 1 e.2.1)) = true := by decide +kernel
  intro e he h
  have := List.all_eq_true.1 this e he
  simpa [h] using this

section
variable {I J : StudyInput} {net : Network} {db db' : DataBase}

theorem consistent_context {u : Units} {w : ℤ} (hs : I.Sound) (l : I.Linked net)
    (model : ∀ c ∈ net.allComponents, consistentModel u w c.model = true) (hu : ∀ p f, u.port p f = 1) :
    (I.context net db).Consistent (fun _ => u) w := by
  refine ⟨fun c hc v hv => ?_, fun c hc v hv b hb => ?_, fun c hc k hk => ?_, fun j hj q f d hq hd r hr => ?_, fun c hc e he => ?_⟩
  · rw [context_variables] at hv
    have := model c hc
    simp only [consistentModel, Bool.and_eq_true, List.all_eq_true, Bool.or_eq_true, decide_eq_true_eq] at this
    exact (this.1.1.1 v hv).1.1
  · rw [context_variables] at hv
    have := model c hc
    simp only [consistentModel, Bool.and_eq_true, List.all_eq_true] at this
    have := this.1.1.1 v hv
    rcases hb with hb | hb
    · exact hasPower_inUnits b (this.1.2 b (by simp [hb]))
    · exact hasPower_inUnits b (this.2 b (by simp [hb]))
  · rw [context_constraints] at hk
    have := model c hc
    simp only [consistentModel, Bool.and_eq_true, List.all_eq_true, List.any_eq_true] at this
    obtain ⟨z, -, hz⟩ := this.1.1.2 k hk
    refine ⟨z, fun b hb => ?_⟩
    rcases hb with rfl | rfl | rfl
    · exact hasPower_inUnits _ hz.1.1
    · exact hasPower_inUnits _ hz.1.2
    · exact hasPower_inUnits _ hz.2
  · have hcl := l.closed (db := db) hs j hj
    have hc : q.component ∈ net.allComponents := by
      rcases hq with rfl | rfl
      · exact hcl.1
      · exact hcl.2
    have := model _ hc
    simp only [consistentModel, Bool.and_eq_true, List.all_eq_true] at this
    unfold PortRef.fieldDef at hd
    obtain ⟨z, hz, rfl⟩ := Option.map_eq_some_iff.1 hd
    rw [hu]
    exact hasPower_inUnits _ (this.2 _ (List.mem_map.2 ⟨_, Dict.mem_of_get? hz, rfl⟩))
  · rw [context_contributions] at he
    have := model c hc
    simp only [consistentModel, Bool.and_eq_true, List.all_eq_true] at this
    exact hasPower_inUnits e (this.1.2 e he)

theorem onePower_context {b : List String} (hb : b = []) (model : ∀ c ∈ net.allComponents, onePowerModel (sizes b) 1 c.model = true) :
    (I.context net db).OnePower (fun _ => sizes b) 1 := by
  subst hb
  refine ⟨fun _ n => by simp [sizes], fun c hc k hk e he => ?_⟩
  rw [context_constraints] at hk
  have := model c hc
  simp only [onePowerModel, Bool.and_eq_true, List.all_eq_true] at this
  have := this k hk
  rcases he with rfl | rfl | rfl
  · exact hasPower_inUnits _ this.1.1
  · exact hasPower_inUnits _ this.1.2
  · exact hasPower_inUnits _ this.2

/-- a study with other values of the parameters makes a problem with other values of the parameters -/
theorem rescaled_context {k : ℚ} {u : Units} (h : I.SameParts J) (hv : ∀ c ∈ I.declared, ∀ n, ∀ t s : Nat, t < I.steps.length → s < I.scenarios →
      J.parameter c.id n t s = k ^ u.par n * I.parameter c.id n t s) (hs : I.Sound) (hs' : J.Sound) (l : I.Linked net)
    (hdb : buildDataBase I.load I.system = .ok db) (hdb' : buildDataBase J.load J.system = .ok db') :
    (I.context net db).Rescaled k (fun _ => u) (J.context net db') := by
  refine ⟨rfl, h.length, h.scenarios, rfl, rfl, fun c hc n t s h0 h1 => ?_⟩
  obtain ⟨ic, hic, e, -⟩ := l.rules hc
  obtain ⟨w, rfl⟩ := Int.eq_ofNat_of_zero_le h0
  have h1 : (w : Int) < (I.scenarios : Int) := h1
  have hw : w < I.scenarios := by exact_mod_cast h1
  have a : (I.context net db).parameterAt c.id n t w = I.parameter c.id n t w := l.dataValue_eq hs hdb hc n t w h0
  have b : (J.context net db').parameterAt c.id n t w = J.parameter c.id n t w := (sameParts_linked h l).dataValue_eq hs' hdb' hc n t w h0
  have := h.everywhere hs.block (id := ic.id) (s := w) (P := fun p p' => ∀ n, p' n = k ^ u.par n * p n)
    (fun t ht n => hv ic hic n t w ht hw) t n
  rw [← e] at this
  show (J.context net db').parameterAt c.id n t w = k ^ u.par n * (I.context net db).parameterAt c.id n t w
  rw [a, b]
  exact this

end

/-- two commands on studies whose parameters differ by powers of `k` -/
theorem rescaled_commands {solve : Solver → Answer} (hsolve : RightSolver solve) {os os' : Nat → SetOrder} (ho : ∀ i, (os i).Valid)
    (ho' : ∀ i, (os' i).Valid) {fuel fuel' : Nat} {d d' : Disk} {f f' : CliFlags} {paths paths' : List String} {comp comp' : String}
    {tables tables' : Option String} {ls ls' : List InputLibrary} {s s' : InputSystem} (h : ShippedCommand d f paths comp tables ls s)
    (hfuel : 3 * ls.length + 2 ≤ fuel) (h' : ShippedCommand d' f' paths' comp' tables' ls' s') (hfuel' : 3 * ls'.length + 2 ≤ fuel') {k : ℚ}
    (hk : 0 < k) (hsame : (d.study s tables f).SameParts (d'.study s' tables' f')) {u : Units} {w : ℤ} (hport : ∀ p f, u.port p f = 1)
    (hv : ∀ c ∈ (d.study s tables f).declared, ∀ n, ∀ t s0 : Nat, t < (d.study s tables f).steps.length → s0 < (d.study s tables f).scenarios →
      (d'.study s' tables' f').parameter c.id n t s0 = k ^ u.par n * (d.study s tables f).parameter c.id n t s0)
    (model : ∀ net, (d.study s tables f).Linked net → ∀ c ∈ net.allComponents, consistentModel u w c.model = true) :
    ∃ o o', mainOutput solve textParser os fuel d f = some (.ok o) ∧ mainOutput solve textParser os' fuel' d' f' = some (.ok o') ∧
      ((KeptRun textParser os fuel d f ∧ KeptRun textParser os' fuel' d' f') ∨ (∀ net db, (d.study s tables f).Linked net →
          ((d.study s tables f).context net db).OnePower (fun _ => u) w) →
        (o'.status = 0 ↔ o.status = 0) ∧ (o.status = 0 → o'.cost = k ^ w * o.cost)) := by
  obtain ⟨libs, sys, net, db, o, ⟨c1, c2, c3⟩, l1, b1, h1, s1, n1, -⟩ := shipped_run hsolve ho h hfuel
  obtain ⟨libs', sys', net', db', o', ⟨c1', c2', c3'⟩, l2, b2, h2, s2, n2, -⟩ := shipped_run hsolve ho' h' hfuel'
  refine ⟨o, o', h1, h2, fun hq => ?_⟩
  have l3 := sameParts_linked hsame l1
  have hid : s'.Renamed (fun n => n) s' := rearranged_refl s'
  have hren := renamed_networks hid (renamed_part (I := d'.study s' tables' f') hid) h'.sound h'.sound h'.joins l3 l2 b2 b2
  have hren' := renamed_networks hid (renamed_part (I := d'.study s' tables' f') hid) h'.sound h'.sound h'.joins l2 l3 b2 b2
  have hkeep : (((d.study s tables f).context net db).NoneTiny ∧ ((d'.study s' tables' f').context net db').NoneTiny) ∨
      ((d.study s tables f).context net db).OnePower (fun _ => u) w := by
    refine hq.imp (fun q => ⟨?_, ?_⟩) fun q => q net db l1
    · have := n1 q.1
      refine ⟨fun c hc e he => (this c hc).2 e (by rwa [context_contributions] at he), fun c hc z hz t s ht hs => ?_⟩
      rw [context_constraints] at hz
      exact (this c hc).1 z hz t s ht hs
    · have := n2 q.2
      have key : ∀ c' ∈ net'.allComponents, ∀ {e : Expr}, (∀ y ∈ e.subs, y.hasComponent = false) → ∀ t s : Nat,
          ((d'.study s' tables' f').context net' db').NoTiny c' e t s → ((d'.study s' tables' f').context net db').NoTiny (c'.called fun n => n) e t s :=
        fun c' hc' e he t s hno => (renamed_net_part hren').noTiny (l2.networkOk db' h'.sound) (l3.networkOk db' h'.sound) (l2.closed h'.sound) hc' he t s
          (by positivity) hno
      constructor
      · intro c hc e he
        obtain ⟨c', hc', rfl⟩ := List.mem_map.1 (hren'.components.symm.subset hc)
        rw [context_contributions] at he
        exact key c' hc' ((l2.checked hc').objective_ok he).2.2.1 0 0 ((this c' hc').2 e he)
      · intro c hc z hz t s ht hs
        obtain ⟨c', hc', rfl⟩ := List.mem_map.1 (hren'.components.symm.subset hc)
        rw [context_constraints] at hz
        exact key c' hc' ((l2.checked hc').constraint_ok hz).2.1 t s ((this c' hc').1 z hz t s ht hs)
  have key := renamed_leastCost hren (fun _ _ ha => renamed_net_kept hren (l3.networkOk db' h'.sound) (l2.networkOk db' h'.sound) (l3.closed h'.sound)
    l3.ownSymbols ha)
  have e := ((c89_any_models k hk _ w _ _ (rescaled_context hsame hv h.sound h'.sound l1 b1 b2) (consistent_context h.sound l1 (model net l1) hport)
    (l1.networkOk db h.sound) (l1.closed h.sound) l1.ownSymbols h.sound.scenarios).2.2 hkeep).2
  have hkw : (0 : ℚ) < k ^ w := zpow_pos hk w
  have hst : o'.status = 0 ↔ o.status = 0 := by
    rw [s1.solved, s2.solved]
    constructor
    · rintro ⟨c, hc⟩
      refine ⟨(k ^ w)⁻¹ * c, (e _).1 ?_⟩
      rw [mul_inv_cancel_left₀ hkw.ne']
      exact (key _).1 hc
    · rintro ⟨c, hc⟩
      exact ⟨k ^ w * c, (key _).2 ((e c).2 hc)⟩
  exact ⟨hst, fun h0 => leastCost_unique ((key _).1 (s2.least (hst.2 h0))) ((e _).2 (s1.least h0))⟩

theorem enlarged_values {k : ℚ} {I J : StudyInput} (h : I.Enlarged k J) (b : List String) : ∀ c ∈ I.declared, ∀ n, ∀ t s : Nat,
    t < I.steps.length → s < I.scenarios → J.parameter c.id n t s = k ^ (sizes b).par n * I.parameter c.id n t s := by
  intro c hc n t s ht hs
  show _ = k ^ (if n ∈ energies ∨ n ∈ unitPrices then (1 : ℤ) else 0) * _
  split
  · next hn => rw [zpow_one]; exact h.sizes c hc n hn t s ht hs
  · next hn => rw [zpow_zero, one_mul]; exact h.others c hc n (fun q => hn (.inl q)) (fun q => hn (.inr q)) t s ht hs

theorem otherUnit_values {k : ℚ} {I J : StudyInput} (h : I.InOtherUnit k J) : ∀ c ∈ I.declared, ∀ n, ∀ t s : Nat,
    t < I.steps.length → s < I.scenarios → J.parameter c.id n t s = k ^ energyUnit.par n * I.parameter c.id n t s := by
  intro c hc n t s ht hs
  show _ = k ^ (if n ∈ energies then (1 : ℤ) else if n ∈ energyPrices then -1 else 0) * _
  split
  · next hn => rw [zpow_one]; exact h.energies c hc n hn t s ht hs
  · next hn =>
    split
    · next hn' => rw [zpow_neg_one, h.prices c hc n hn' t s ht hs, div_eq_inv_mul]
    · next hn' => rw [zpow_zero, one_mul]; exact h.others c hc n hn hn' t s ht hs

theorem rescaled_enlarged {k : ℚ} {u : Units} (hu : ∀ n, u.var n = if n ∈ unitCounts then 0 else 1) (σ : TermKey → ℚ) :
    rescaled k (fun _ => u) σ = enlargedValues k σ := by
  funext κ
  show k ^ u.var κ.var * σ κ = if κ.var ∈ unitCounts then σ κ else k * σ κ
  rw [hu]
  split
  · rw [zpow_zero, one_mul]
  · rw [zpow_one]

/-- **C89, studies on the shipped models.** When everything is `k` times as large, `k > 0`, the values that are accepted are those that were with powers
and energies `k` times as large and the same numbers of units; they cost `k` times as much, and so the least cost is `k` times as large. -/
theorem c89_study (k : ℚ) (hk : 0 < k) (I J : StudyInput) (h : I.Enlarged k J) (hs : I.Sound) (hs' : J.Sound) {net : Network} {db db' : DataBase}
    (l : I.Linked net) (hdb : buildDataBase I.load I.system = .ok db) (hdb' : buildDataBase J.load J.system = .ok db') :
    (∀ σ, (J.Accepts (enlargedValues k σ) ↔ I.Accepts σ) ∧ J.cost (enlargedValues k σ) = k * I.cost σ) ∧
    ∀ c, LeastCost J.Accepts J.cost (k * c) ↔ LeastCost I.Accepts I.cost c := by
  have l' := sameParts_linked h.toSameParts l
  have e := c89_any_models k hk (fun _ => sizes unitCounts) 1 _ _ (rescaled_context h.toSameParts (enlarged_values h unitCounts) hs hs' l hdb hdb')
    (consistent_context hs l (fun c hc => by obtain ⟨ic, -, -, r, hr⟩ := l.rules hc; exact shipped_sizes _ hr) fun _ _ => rfl)
    (l.networkOk db hs) (l.closed hs) l.ownSymbols hs.scenarios
  rw [zpow_one] at e
  have a : (I.context net db).MathFeasible = I.Accepts := funext fun σ => propext (l.feasible_iff hs hdb σ)
  have b : (J.context net db').MathFeasible = J.Accepts := funext fun σ => propext (l'.feasible_iff hs' hdb' σ)
  have c : (I.context net db).mathCost = I.cost := funext fun σ => l.cost_eq hs hdb σ
  have d : (J.context net db').mathCost = J.cost := funext fun σ => l'.cost_eq hs' hdb' σ
  rw [a, b, c, d] at e
  refine ⟨fun σ => ?_, e.2.1⟩
  have := e.1 σ
  rwa [rescaled_enlarged (fun _ => rfl)] at this

/-- **C90, studies on the shipped models.** In another unit of energy, `k` of which make the first one, the values that are accepted are those that were
with powers and energies multiplied by `k` and the same numbers of units; they cost the same, and so the least cost is the same. -/
theorem c90_study (k : ℚ) (hk : 0 < k) (I J : StudyInput) (h : I.InOtherUnit k J) (hs : I.Sound) (hs' : J.Sound) {net : Network} {db db' : DataBase}
    (l : I.Linked net) (hdb : buildDataBase I.load I.system = .ok db) (hdb' : buildDataBase J.load J.system = .ok db') :
    (∀ σ, (J.Accepts (enlargedValues k σ) ↔ I.Accepts σ) ∧ J.cost (enlargedValues k σ) = I.cost σ) ∧
    ∀ c, LeastCost J.Accepts J.cost c ↔ LeastCost I.Accepts I.cost c := by
  have l' := sameParts_linked h.toSameParts l
  have e := c89_any_models k hk (fun _ => energyUnit) 0 _ _ (rescaled_context h.toSameParts (otherUnit_values h) hs hs' l hdb hdb')
    (consistent_context hs l (fun c hc => by obtain ⟨ic, -, -, r, hr⟩ := l.rules hc; exact shipped_energyUnit _ hr) fun _ _ => rfl)
    (l.networkOk db hs) (l.closed hs) l.ownSymbols hs.scenarios
  simp only [zpow_zero, one_mul] at e
  have a : (I.context net db).MathFeasible = I.Accepts := funext fun σ => propext (l.feasible_iff hs hdb σ)
  have b : (J.context net db').MathFeasible = J.Accepts := funext fun σ => propext (l'.feasible_iff hs' hdb' σ)
  have c : (I.context net db).mathCost = I.cost := funext fun σ => l.cost_eq hs hdb σ
  have d : (J.context net db').mathCost = J.cost := funext fun σ => l'.cost_eq hs' hdb' σ
  rw [a, b, c, d] at e
  refine ⟨fun σ => ?_, e.2.1⟩
  have := e.1 σ
  rwa [rescaled_enlarged (fun _ => rfl)] at this

/-- **C89, the command on systems without thermal clusters.** Two commands on studies on the shipped models, the second one with everything `k` times
as large, `k > 0`.  Both end without an error, print the same status, and the second one prints `k` times the cost of the first one when it
is 0. -/
theorem c89_command (solve : Solver → Answer) (hsolve : RightSolver solve) (os os' : Nat → SetOrder) (ho : ∀ i, (os i).Valid)
    (ho' : ∀ i, (os' i).Valid) (fuel fuel' : Nat) (d d' : Disk) (f f' : CliFlags) {paths paths' : List String} {comp comp' : String}
    {tables tables' : Option String} {ls ls' : List InputLibrary} {s s' : InputSystem} (h : ShippedCommand d f paths comp tables ls s)
    (hfuel : 3 * ls.length + 2 ≤ fuel) (h' : ShippedCommand d' f' paths' comp' tables' ls' s') (hfuel' : 3 * ls'.length + 2 ≤ fuel') (k : ℚ)
    (hk : 0 < k) (hr : (d.study s tables f).Enlarged k (d'.study s' tables' f')) (hth : (d.study s tables f).WithoutThermal) :
    ∃ o o', mainOutput solve textParser os fuel d f = some (.ok o) ∧ mainOutput solve textParser os' fuel' d' f' = some (.ok o') ∧
      (o'.status = 0 ↔ o.status = 0) ∧ (o.status = 0 → o'.cost = k * o.cost) := by
  have model : ∀ net, (d.study s tables f).Linked net → ∀ c ∈ net.allComponents,
      consistentModel (sizes []) 1 c.model = true ∧ onePowerModel (sizes []) 1 c.model = true := by
    intro net l c hc
    obtain ⟨ic, hic, -, r, hr⟩ := l.rules hc
    exact shipped_oneSize _ hr (hth ic hic)
  obtain ⟨o, o', h1, h2, e⟩ := rescaled_commands hsolve ho ho' h hfuel h' hfuel' hk hr.toSameParts (fun _ _ => rfl) (enlarged_values hr [])
    fun net l c hc => (model net l c hc).1
  have := e (.inr fun net db l => onePower_context rfl fun c hc => (model net l c hc).2)
  rw [zpow_one] at this
  exact ⟨o, o', h1, h2, this⟩

/-- **C89 (partial), the command.** As `c89_command`, on systems that may have thermal clusters, when no coefficient is tiny.

Partial: tiny coefficients in systems with thermal clusters (`c89_tiny`). -/
theorem c89_command_partial (solve : Solver → Answer) (hsolve : RightSolver solve) (os os' : Nat → SetOrder) (ho : ∀ i, (os i).Valid)
    (ho' : ∀ i, (os' i).Valid) (fuel fuel' : Nat) (d d' : Disk) (f f' : CliFlags) {paths paths' : List String} {comp comp' : String}
    {tables tables' : Option String} {ls ls' : List InputLibrary} {s s' : InputSystem} (h : ShippedCommand d f paths comp tables ls s)
    (hfuel : 3 * ls.length + 2 ≤ fuel) (h' : ShippedCommand d' f' paths' comp' tables' ls' s') (hfuel' : 3 * ls'.length + 2 ≤ fuel') (k : ℚ)
    (hk : 0 < k) (hr : (d.study s tables f).Enlarged k (d'.study s' tables' f')) :
    ∃ o o', mainOutput solve textParser os fuel d f = some (.ok o) ∧ mainOutput solve textParser os' fuel' d' f' = some (.ok o') ∧
      (KeptRun textParser os fuel d f → KeptRun textParser os' fuel' d' f' →
        (o'.status = 0 ↔ o.status = 0) ∧ (o.status = 0 → o'.cost = k * o.cost)) := by
  obtain ⟨o, o', h1, h2, e⟩ := rescaled_commands hsolve ho ho' h hfuel h' hfuel' hk hr.toSameParts (fun _ _ => rfl) (enlarged_values hr unitCounts)
    fun net l c hc => by
      obtain ⟨ic, -, -, r, hr⟩ := l.rules hc
      exact shipped_sizes _ hr
  refine ⟨o, o', h1, h2, fun q q' => ?_⟩
  have := e (.inl ⟨q, q'⟩)
  rwa [zpow_one] at this

/-- **C90 (partial), the command.** Two commands on studies on the shipped models that differ by the unit of energy only.  Both end without an error.
If no coefficient is tiny, they print the same status, and the same cost when it is 0.

Partial: tiny coefficients (`c90_tiny`). -/
theorem c90_command_partial (solve : Solver → Answer) (hsolve : RightSolver solve) (os os' : Nat → SetOrder) (ho : ∀ i, (os i).Valid)
    (ho' : ∀ i, (os' i).Valid) (fuel fuel' : Nat) (d d' : Disk) (f f' : CliFlags) {paths paths' : List String} {comp comp' : String}
    {tables tables' : Option String} {ls ls' : List InputLibrary} {s s' : InputSystem} (h : ShippedCommand d f paths comp tables ls s)
    (hfuel : 3 * ls.length + 2 ≤ fuel) (h' : ShippedCommand d' f' paths' comp' tables' ls' s') (hfuel' : 3 * ls'.length + 2 ≤ fuel') (k : ℚ)
    (hk : 0 < k) (hr : (d.study s tables f).InOtherUnit k (d'.study s' tables' f')) :
    ∃ o o', mainOutput solve textParser os fuel d f = some (.ok o) ∧ mainOutput solve textParser os' fuel' d' f' = some (.ok o') ∧
      (KeptRun textParser os fuel d f → KeptRun textParser os' fuel' d' f' →
        (o'.status = 0 ↔ o.status = 0) ∧ (o.status = 0 → o'.cost = o.cost)) := by
  obtain ⟨o, o', h1, h2, e⟩ := rescaled_commands hsolve ho ho' h hfuel h' hfuel' hk hr.toSameParts (fun _ _ => rfl) (otherUnit_values hr)
    fun net l c hc => by
      obtain ⟨ic, -, -, r, hr⟩ := l.rules hc
      exact shipped_energyUnit _ hr
  refine ⟨o, o', h1, h2, fun q q' => ?_⟩
  have := e (.inl ⟨q, q'⟩)
  rwa [zpow_zero, one_mul] at this

end Verif.Props
