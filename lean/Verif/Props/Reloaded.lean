import Verif.Spec.Reloaded
import Verif.Props.Without

/-!
# C96: an additional load costs at most the price of unsupplied energy
-/

namespace Verif.Props
open Verif Verif.Expr Verif.OptCtx Verif.Shipped StudyInput

theorem load_named : Rules.named "antares-historic.load" = some Rules.load := by
  unfold Rules.named
  simp [Rules.shipped, Rules.antares]

theorem sum_single {α : Type} (f : α → String) (a : ℚ) : ∀ {l : List α}, (l.map f).Nodup → ∀ {x : α}, x ∈ l →
    (l.map fun y => if f y = f x then a else 0).sum = a := by
  intro l
  induction l with
  | nil => intro _ x hx; cases hx
  | cons b l ih =>
    intro hd x hx
    rw [List.map_cons, List.nodup_cons] at hd
    rw [List.map_cons, List.sum_cons]
    rcases List.mem_cons.1 hx with rfl | hx
    · rw [if_pos rfl]
      have : (l.map fun y => if f y = f x then a else 0) = l.map fun _ => 0 := List.map_congr_left fun y hy => if_neg fun e : f y = f x => hd.1 (e ▸ List.mem_map_of_mem hy)
      rw [this]
      simp
    · rw [if_neg fun e : f b = f x => hd.1 (e ▸ List.mem_map_of_mem hx), ih hd.2 hx, zero_add]

theorem sum_map_minus {α : Type} (f g : α → ℚ) (l : List α) : (l.map fun x => f x - g x).sum = (l.map f).sum - (l.map g).sum := by
  induction l with
  | nil => simp
  | cons a l ih =>
    simp only [List.map_cons, List.sum_cons, ih]
    ring

section
variable {I J : StudyInput} {L A : String}

/-- the values `σ`, with the additional load of area `A` not supplied, and what a smaller load does not take spilled -/
def unsupplied (I J : StudyInput) (L A : String) (σ : TermKey → ℚ) : TermKey → ℚ := fun k =>
  if k.component = A then
    (if k.var = "unsupplied_energy" then σ k + max (I.moreLoad J L (k.time.getD 0) (k.scenario.getD 0)) 0
    else if k.var = "spillage" then σ k + max (-I.moreLoad J L (k.time.getD 0) (k.scenario.getD 0)) 0 else σ k)
  else σ k

theorem moreLoad_wrap (h : I.SameParts J) (t s : Int) : I.moreLoad J L (t % I.steps.length) s = I.moreLoad J L t s := by
  unfold StudyInput.moreLoad
  rw [parameter_wrap I]
  rw [← h.length, parameter_wrap J]

theorem reloaded_own (h : I.Reloaded J L A) (hs : I.Sound) (σ : TermKey → ℚ) {c : InputComponent} (hc : c ∈ I.declared) (hL : c.id ≠ L) (hA : c.id ≠ A) :
    Alike (LimitsLooser (Limits.named c.model)) (I.own σ c.id) (J.own (unsupplied I J L A σ) c.id) := by
  refine ⟨h.length, h.scenarios, ?_, fun t s hs' => ?_, fun _ _ _ _ _ => rfl⟩
  · funext n t s
    show unsupplied I J L A σ (J.instance_ c.id n t s) = _
    rw [h.toSameParts.instance_]
    exact if_neg hA
  · have e : ∀ n, J.parameter c.id n t s = I.parameter c.id n t s := fun n =>
      h.toSameParts.everywhere hs.block (P := fun p p' => p' n = p n) (fun t ht => h.others c hc hL n t s ht hs') t
    exact ⟨fun f _ => le_of_eq (congrArg f (funext fun n => (e n).symm)), fun f _ => le_of_eq (congrArg f (funext e)), fun n _ => e n⟩

theorem area_sends (port field : String) : Rules.area.sends port field = none := by
  unfold Rules.sends
  by_cases h1 : port = "balance_port"
  · by_cases h2 : field = "flow"
    · simp [Rules.area, h1, h2]
    · simp [Rules.area, h1, Ne.symm h2]
  · simp [Rules.area, Ne.symm h1]

theorem load_sends (field : String) : Rules.load.sends "balance_port" field =
    if field = "flow" then some fun r t s => - r.p "load" t s else none := by
  unfold Rules.sends
  by_cases h2 : field = "flow"
  · simp [Rules.load, h2]
  · simp [Rules.load, h2, Ne.symm h2]

theorem area_sent (hs : I.Sound) {c : InputComponent} (hc : c ∈ I.declared) (hm : c.model = "antares-historic.area") (σ : TermKey → ℚ) (port field : String) :
    I.sent σ c.id port field = none := by
  unfold StudyInput.sent
  rw [rulesOf_declared hs hc, hm, area_named]
  show Option.map _ (Rules.area.sends port field) = none
  rw [area_sends]
  rfl

theorem load_sent (hr : I.rulesOf L = some Rules.load) (σ : TermKey → ℚ) (field : String) :
    I.sent σ L "balance_port" field = if field = "flow" then some fun t s => - I.parameter L "load" t s else none := by
  unfold StudyInput.sent
  rw [hr]
  show Option.map _ (Rules.load.sends "balance_port" field) = _
  rw [load_sends]
  split <;> rfl

/-- what the other components send -/
theorem reloaded_sent (h : I.Reloaded J L A) (hs : I.Sound) (σ : TermKey → ℚ) {id : String} (hL : id ≠ L) (port field : String) :
    (I.sent σ id port field = none ∧ J.sent (unsupplied I J L A σ) id port field = none) ∨
      ∃ f g, I.sent σ id port field = some f ∧ J.sent (unsupplied I J L A σ) id port field = some g ∧
        ∀ (t : Int) (s : Nat), s < I.scenarios → g t s = f t s := by
  unfold StudyInput.sent
  rw [h.toSameParts.rulesOf]
  rcases hr : I.rulesOf id with _ | r
  · exact .inl ⟨rfl, rfl⟩
  obtain ⟨c, hc, rfl, hn⟩ := rulesOf_mem hr
  simp only [Option.bind_some]
  rcases hF : r.sends port field with _ | F
  · exact .inl ⟨rfl, rfl⟩
  refine .inr ⟨_, _, rfl, rfl, fun t s hs' => ?_⟩
  by_cases hA : c.id = A
  · obtain ⟨a, ha, rfl, hm⟩ := h.area
    have e := rulesOf_declared hs ha
    rw [← hA, hr, hm, area_named] at e
    cases e
    rw [area_sends] at hF
    cases hF
  · unfold Rules.sends at hF
    simp only [Option.bind_eq_some_iff] at hF
    obtain ⟨⟨p', fs⟩, h1, ⟨fl, d⟩, h2, h3⟩ := hF
    have e : d = some F := h3
    subst e
    exact (Rules.named_loose hn).sends _ _ (List.mem_of_find?_eq_some h1) _ _ (List.mem_of_find?_eq_some h2) _ _ hs.scenarios
      (reloaded_own h hs σ hc hL hA) t s hs'

theorem reloaded_carried (h : I.Reloaded J L A) (hs : I.Sound) (σ : TermKey → ℚ) {q : InputConnection} (h1 : q.component1 ≠ L) (h2 : q.component2 ≠ L)
    (field : String) (t : Int) {s : Nat} (hs' : s < I.scenarios) : J.carried (unsupplied I J L A σ) q field t s = I.carried σ q field t s := by
  unfold StudyInput.carried
  rcases reloaded_sent h hs σ h1 q.port1 field with ⟨a, b⟩ | ⟨f, g, a, b, e⟩
  · rw [a, b]
    rcases reloaded_sent h hs σ h2 q.port2 field with ⟨a, b⟩ | ⟨f, g, a, b, e⟩
    · rw [a, b]
    · rw [a, b]
      exact e t s hs'
  · rw [a, b]
    exact e t s hs'

/-- the ids of the load and of the area are different -/
theorem reloaded_ne (h : I.Reloaded J L A) (hs : I.Sound) : A ≠ L := by
  intro e
  obtain ⟨a, ha, ea, hm⟩ := h.area
  obtain ⟨l, hl, el, hm'⟩ := h.load
  have := rulesOf_declared hs ha
  have e' := rulesOf_declared hs hl
  rw [ea, e, ← el, e', hm, hm', area_named, load_named] at this
  have := congrArg (fun r : Option Rules => r.map fun r => r.parameters.length) this
  simp [Rules.area, Rules.load] at this

theorem reloaded_rules (h : I.Reloaded J L A) (hs : I.Sound) : I.rulesOf L = some Rules.load := by
  obtain ⟨l, hl, rfl, hm⟩ := h.load
  rw [rulesOf_declared hs hl, hm, load_named]

/-- what the connection of the load carries -/
theorem load_carried (K : StudyInput) (hr : K.rulesOf L = some Rules.load) (hA : ∀ port field, K.sent σ A port field = none) {q : InputConnection}
    (hq : q ∈ [(⟨L, "balance_port", A, "balance_port"⟩ : InputConnection), ⟨A, "balance_port", L, "balance_port"⟩]) (field : String) (t s : Int) :
    K.carried σ q field t s = if field = "flow" then - K.parameter L "load" t s else 0 := by
  simp only [List.mem_cons, List.not_mem_nil, or_false] at hq
  unfold StudyInput.carried
  rcases hq with rfl | rfl
  · rw [hA, load_sent hr]
    by_cases hf : field = "flow"
    · simp [hf]
    · simp [hf]
  · rw [hA, load_sent hr]
    by_cases hf : field = "flow"
    · simp [hf]
    · simp [hf]

/-- what components other than the load receive -/
theorem reloaded_received (h : I.Reloaded J L A) (hs : I.Sound) (σ : TermKey → ℚ) {i : String} (hi : i ≠ L) (port field : String) (t : Int) {s : Nat}
    (hs' : s < I.scenarios) : (J.readings (unsupplied I J L A σ) i).received port field t s = (I.readings σ i).received port field t s -
      if i = A ∧ port = "balance_port" ∧ field = "flow" then I.moreLoad J L t s else 0 := by
  obtain ⟨q, hq, hf⟩ := h.connection
  have hne := reloaded_ne h hs
  have hrL := reloaded_rules h hs
  have hrJ : J.rulesOf L = some Rules.load := (h.toSameParts.rulesOf L).trans hrL
  have aI : ∀ τ port field, I.sent τ A port field = none := by
    obtain ⟨a, ha, rfl, hm⟩ := h.area
    exact fun τ => area_sent hs ha hm τ
  have aJ : ∀ τ port field, J.sent τ A port field = none := by
    intro τ port field
    have : J.rulesOf A = some Rules.area := by
      rw [h.toSameParts.rulesOf]
      obtain ⟨a, ha, rfl, hm⟩ := h.area
      rw [rulesOf_declared hs ha, hm, area_named]
    unfold StudyInput.sent
    rw [this]
    show Option.map _ (Rules.area.sends port field) = none
    rw [area_sends]
    rfl
  show (J.system.connections.map _).sum = (I.system.connections.map _).sum - _
  rw [h.connections]
  have key := sum_filter_zero I.system.connections (fun k => decide (k.component1 = L ∨ k.component2 = L))
    (fun c => ((if c.component1 = i ∧ c.port1 = port then J.carried (unsupplied I J L A σ) c field t s else 0) +
        (if c.component2 = i ∧ c.port2 = port then J.carried (unsupplied I J L A σ) c field t s else 0)) -
      ((if c.component1 = i ∧ c.port1 = port then I.carried σ c field t s else 0) +
        (if c.component2 = i ∧ c.port2 = port then I.carried σ c field t s else 0))) (by
    intro c _ hp
    have hp : ¬(c.component1 = L ∨ c.component2 = L) := by simpa using hp
    push Not at hp
    rw [reloaded_carried h hs σ hp.1 hp.2 field t hs']
    exact sub_self _)
  rw [hf, List.map_cons, List.map_nil, List.sum_cons, List.sum_nil, add_zero, sum_map_minus] at key
  rw [load_carried I hrL (aI _) hq, load_carried J hrJ (aJ _) hq] at key
  have d : (((if q.component1 = i ∧ q.port1 = port then if field = "flow" then -J.parameter L "load" t s else 0 else 0) +
      if q.component2 = i ∧ q.port2 = port then if field = "flow" then -J.parameter L "load" t s else 0 else 0) -
      ((if q.component1 = i ∧ q.port1 = port then if field = "flow" then -I.parameter L "load" t s else 0 else 0) +
        if q.component2 = i ∧ q.port2 = port then if field = "flow" then -I.parameter L "load" t s else 0 else 0)) =
      -if i = A ∧ port = "balance_port" ∧ field = "flow" then I.moreLoad J L t s else 0 := by
    clear key hf
    unfold StudyInput.moreLoad
    simp only [List.mem_cons, List.not_mem_nil, or_false] at hq
    by_cases hf : field = "flow"
    · by_cases hp : port = "balance_port"
      · by_cases hA : i = A
        · subst hA hp hf
          rcases hq with rfl | rfl <;> simp [Ne.symm hne] <;> ring
        · rcases hq with rfl | rfl <;> simp [hf, hp, hA, Ne.symm hi, Ne.symm hA]
      · rcases hq with rfl | rfl <;> simp [hp, Ne.symm hp]
    · simp [hf]
  rw [d] at key
  linarith

end

/-- **C96, the study.** When a load that is connected to an area is changed, the difference can always be left unsupplied or spilled: whatever values were
accepted, values that cost exactly the price of the difference more are accepted now.  So the least cost increases by at most this price. -/
theorem c96_study (I J : StudyInput) (L A : String) (h : I.Reloaded J L A) (hs : I.Sound) :
    (∀ σ, I.Accepts σ → ∃ σ', J.Accepts σ' ∧ J.cost σ' = I.cost σ + I.slackPrice J L A ∧ ∀ k, k.component ≠ A → σ' k = σ k) ∧
    ∀ c c', LeastCost I.Accepts I.cost c → LeastCost J.Accepts J.cost c' → c' ≤ c + I.slackPrice J L A := by
  have hne := reloaded_ne h hs
  have key : ∀ σ, I.Accepts σ → ∃ σ', J.Accepts σ' ∧ J.cost σ' = I.cost σ + I.slackPrice J L A ∧ ∀ k, k.component ≠ A → σ' k = σ k := by
    intro σ hσ
    have alike : ∀ c ∈ I.declared, c.id ≠ L → c.id ≠ A →
        Alike (LimitsLooser (Limits.named c.model)) (I.readings σ c.id) (J.readings (unsupplied I J L A σ) c.id) := by
      intro c hc hL hA
      have o := reloaded_own h hs σ hc hL hA
      refine ⟨o.T, o.S, o.v, o.p, fun port field t s hs' => ?_⟩
      rw [reloaded_received h hs σ hL port field t hs', if_neg fun e => hA e.1, sub_zero]
    have inst : ∀ n, n = "unsupplied_energy" ∨ n = "spillage" → ∀ t s : Int, I.instance_ A n t s = ⟨A, n, some (t % I.steps.length), some s⟩ := by
      intro n hn t s
      obtain ⟨a, ha, rfl, hm⟩ := h.area
      unfold StudyInput.instance_
      rw [rulesOf_declared hs ha, hm, area_named]
      rcases hn with rfl | rfl <;> simp [Rules.area]
    have v1 : ∀ t s : Int, (J.readings (unsupplied I J L A σ) A).v "unsupplied_energy" t s =
        (I.readings σ A).v "unsupplied_energy" t s + max (I.moreLoad J L t s) 0 := by
      intro t s
      show unsupplied I J L A σ (J.instance_ A _ t s) = σ (I.instance_ A _ t s) + _
      rw [h.toSameParts.instance_, inst _ (.inl rfl), ← moreLoad_wrap h.toSameParts t s]
      simp [unsupplied]
    have v2 : ∀ t s : Int, (J.readings (unsupplied I J L A σ) A).v "spillage" t s =
        (I.readings σ A).v "spillage" t s + max (-I.moreLoad J L t s) 0 := by
      intro t s
      show unsupplied I J L A σ (J.instance_ A _ t s) = σ (I.instance_ A _ t s) + _
      rw [h.toSameParts.instance_, inst _ (.inr rfl), ← moreLoad_wrap h.toSameParts t s]
      simp [unsupplied]
    refine ⟨unsupplied I J L A σ, ?_, ?_, fun k hk => if_neg hk⟩
    · unfold StudyInput.Accepts
      rw [h.length, h.scenarios, h.toSameParts.forall_declared fun id m => ∀ r, Rules.named m = some r → ∀ t s : Nat, t < I.steps.length → s < I.scenarios →
        r.accepts (J.readings (unsupplied I J L A σ) id) t s]
      intro c hc r hr t s ht hs'
      by_cases hL : c.id = L
      · have := reloaded_rules h hs
        rw [← hL, rulesOf_declared hs hc, hr] at this
        cases this
        trivial
      by_cases hA : c.id = A
      · obtain ⟨a, ha, ea, hm⟩ := h.area
        have e := rulesOf_declared hs ha
        rw [ea, ← hA, rulesOf_declared hs hc, hr, hm, area_named] at e
        cases e
        obtain ⟨a1, a2, a3⟩ := hσ c hc _ hr t s ht hs'
        rw [hA] at a1 a2 a3 ⊢
        refine ⟨?_, ?_, ?_⟩
        · rw [v2]; exact add_nonneg a1 (le_max_right _ _)
        · rw [v1]; exact add_nonneg a2 (le_max_right _ _)
        · rw [v1, v2, reloaded_received h hs σ hne _ _ _ hs', if_pos ⟨rfl, rfl, rfl⟩, ← a3]
          have : max (I.moreLoad J L t s) 0 - max (-I.moreLoad J L t s) 0 = I.moreLoad J L t s := by
            rcases le_total 0 (I.moreLoad J L t s) with hd | hd
            · rw [max_eq_left hd, max_eq_right (by linarith), sub_zero]
            · rw [max_eq_right hd, max_eq_left (by linarith), zero_sub, neg_neg]
          linarith
      · exact (Rules.named_loose hr).accepts _ _ hs.scenarios (alike c hc hL hA) t s hs' (hσ c hc r hr t s ht hs')
    · unfold StudyInput.cost
      have e : J.declared.map (fun c => ((Rules.named c.model).map fun r => r.cost (J.readings (unsupplied I J L A σ) c.id)).getD 0) =
          I.declared.map fun c => ((Rules.named c.model).map fun r => r.cost (J.readings (unsupplied I J L A σ) c.id)).getD 0 := by
        have := congrArg (List.map fun q : String × String => ((Rules.named q.2).map fun r => r.cost (J.readings (unsupplied I J L A σ) q.1)).getD 0) h.components
        simpa [List.map_map, Function.comp_def] using this
      obtain ⟨a, ha, ea, hm⟩ := h.area
      rw [e, ← sum_single (fun c : InputComponent => c.id) (I.slackPrice J L A) hs.ids ha, ← List.sum_map_add]
      refine congrArg List.sum (List.map_congr_left fun c hc => ?_)
      rw [ea]
      by_cases hL : c.id = L
      · have := reloaded_rules h hs
        rw [← hL, rulesOf_declared hs hc] at this
        rw [this, if_neg fun e => hne (e.symm.trans hL)]
        exact (add_zero _).symm
      by_cases hA : c.id = A
      · have e := rulesOf_declared hs ha
        rw [ea, ← hA, rulesOf_declared hs hc, hm, area_named] at e
        rw [e, if_pos hA, hA]
        have p : ∀ n, ∀ t s : Nat, t < I.steps.length → s < I.scenarios → J.parameter A n t s = I.parameter A n t s := fun n t s ht hs' => by
          rw [← hA]
          exact h.others c hc hL n t s ht hs'
        show (∑ s ∈ Finset.range J.scenarios, ∑ t ∈ Finset.range J.steps.length, (J.parameter A "spillage_cost" t s *
            (J.readings (unsupplied I J L A σ) A).v "spillage" t s + J.parameter A "ens_cost" t s *
            (J.readings (unsupplied I J L A σ) A).v "unsupplied_energy" t s)) / J.scenarios =
          (∑ s ∈ Finset.range I.scenarios, ∑ t ∈ Finset.range I.steps.length, (I.parameter A "spillage_cost" t s *
            (I.readings σ A).v "spillage" t s + I.parameter A "ens_cost" t s * (I.readings σ A).v "unsupplied_energy" t s)) / I.scenarios +
          I.slackPrice J L A
        unfold StudyInput.slackPrice
        rw [h.length, h.scenarios, ← add_div, ← Finset.sum_add_distrib]
        congr 1
        refine Finset.sum_congr rfl fun s hs' => ?_
        rw [← Finset.sum_add_distrib]
        refine Finset.sum_congr rfl fun t ht => ?_
        rw [p _ t s (Finset.mem_range.1 ht) (Finset.mem_range.1 hs'), p _ t s (Finset.mem_range.1 ht) (Finset.mem_range.1 hs'), v1, v2]
        ring
      · rw [if_neg hA, add_zero]
        cases hr : Rules.named c.model with
        | none => rfl
        | some r => exact (Rules.named_loose hr).cost _ _ hs.scenarios (alike c hc hL hA)
  refine ⟨key, fun c c' hc hc' => ?_⟩
  obtain ⟨⟨σ, hσ, rfl⟩, -⟩ := hc
  obtain ⟨σ', h1, h2, -⟩ := key σ hσ
  rw [← h2]
  exact hc'.2 σ' h1

theorem reloaded_symm {I J : StudyInput} {L A : String} (h : I.Reloaded J L A) : J.Reloaded I L A where
  components := h.components.symm
  connections := h.connections.symm
  length := h.length.symm
  scenarios := h.scenarios.symm
  load := by
    by_contra hn
    push Not at hn
    obtain ⟨c, hc, e⟩ := h.load
    exact (h.toSameParts.forall_declared fun id m => id = L → m ≠ "antares-historic.load").1 hn c hc e.1 e.2
  area := by
    by_contra hn
    push Not at hn
    obtain ⟨c, hc, e⟩ := h.area
    exact (h.toSameParts.forall_declared fun id m => id = A → m ≠ "antares-historic.area").1 hn c hc e.1 e.2
  connection := by
    rw [h.connections]
    exact h.connection
  others c hc hL n t s ht hs := by
    rw [h.length] at ht
    rw [h.scenarios] at hs
    exact (h.toSameParts.forall_declared fun id _ => id ≠ L → I.parameter id n t s = J.parameter id n t s).2
      (fun c hc hL => (h.others c hc hL n t s ht hs).symm) c hc hL

/-- **C96, both ways.** The least cost does not increase by more than the price of the difference, nor decrease by more than the price of the opposite
difference; and one study has a least cost exactly when the other one has. -/
theorem c96_both (I J : StudyInput) (L A : String) (h : I.Reloaded J L A) (hs : I.Sound) (hs' : J.Sound) :
    (∀ c c', LeastCost I.Accepts I.cost c → LeastCost J.Accepts J.cost c' → c' - c ≤ I.slackPrice J L A ∧ c - c' ≤ J.slackPrice I L A) ∧
    ∀ {net net' : Network} {db db' : DataBase}, I.Linked net → buildDataBase I.load I.system = .ok db → J.Linked net' →
      buildDataBase J.load J.system = .ok db' → ((∃ c, LeastCost I.Accepts I.cost c) ↔ ∃ c, LeastCost J.Accepts J.cost c) := by
  have one : ∀ {I J : StudyInput}, I.Reloaded J L A → I.Sound → J.Sound → ∀ {net net' : Network} {db db' : DataBase}, I.Linked net →
      buildDataBase I.load I.system = .ok db → J.Linked net' → buildDataBase J.load J.system = .ok db' →
      (∃ c, LeastCost I.Accepts I.cost c) → ∃ c, LeastCost J.Accepts J.cost c := by
    intro I J h hs hs' net net' db db' l b l' b' hc
    rw [(c93_study I hs l b).1] at hc
    rw [(c93_study J hs' l' b').1]
    obtain ⟨⟨σ, hσ⟩, m, hm⟩ := hc
    obtain ⟨σ', h1, -⟩ := (c96_study I J L A h hs).1 σ hσ
    refine ⟨⟨σ', h1⟩, m - J.slackPrice I L A, fun τ hτ => ?_⟩
    obtain ⟨τ', h2, h3, -⟩ := (c96_study J I L A (reloaded_symm h) hs').1 τ hτ
    have := hm τ' h2
    linarith
  refine ⟨fun c c' hc hc' => ⟨?_, ?_⟩, fun l b l' b' => ⟨one h hs hs' l b l' b', one (reloaded_symm h) hs' hs l' b' l b⟩⟩
  · have := (c96_study I J L A h hs).2 c c' hc hc'
    linarith
  · have := (c96_study J I L A (reloaded_symm h) hs').2 c' c hc' hc
    linarith

/-- **C96 (partial), the command.** Take two commands on shipped libraries and complete studies that differ only by the series of a load, which is connected
to an area.  Both end without an error.  When no coefficient is tiny, both print status 0 or none does; and then the cost does not increase by more than
the price of not supplying the additional load and spilling what is not taken any more, nor decrease by more than the price of the opposite.

Partial: tiny coefficients. -/
theorem c96_command_partial (solve : Solver → Answer) (hsolve : RightSolver solve) (os os' : Nat → SetOrder) (ho : ∀ i, (os i).Valid)
    (ho' : ∀ i, (os' i).Valid) (fuel fuel' : Nat) (d d' : Disk) (f f' : CliFlags) {paths paths' : List String} {comp comp' : String}
    {tables tables' : Option String} {ls ls' : List InputLibrary} {s s' : InputSystem} (h : ShippedCommand d f paths comp tables ls s)
    (hfuel : 3 * ls.length + 2 ≤ fuel) (h' : ShippedCommand d' f' paths' comp' tables' ls' s') (hfuel' : 3 * ls'.length + 2 ≤ fuel') (L A : String)
    (hr : (d.study s tables f).Reloaded (d'.study s' tables' f') L A) :
    ∃ o o', mainOutput solve textParser os fuel d f = some (.ok o) ∧ mainOutput solve textParser os' fuel' d' f' = some (.ok o') ∧
      (KeptRun textParser os fuel d f → KeptRun textParser os' fuel' d' f' → (o.status = 0 ↔ o'.status = 0) ∧
        (o.status = 0 → o'.cost - o.cost ≤ (d.study s tables f).slackPrice (d'.study s' tables' f') L A ∧
          o.cost - o'.cost ≤ (d'.study s' tables' f').slackPrice (d.study s tables f) L A)) := by
  obtain ⟨net, db, o, l, b, r, -, k, st⟩ := shipped_prints hsolve ho h hfuel
  obtain ⟨net', db', o', l', b', r', -, k', st'⟩ := shipped_prints hsolve ho' h' hfuel'
  refine ⟨o, o', r, r', fun hk hk' => ?_⟩
  have st := st (k hk)
  have st' := st' (k' hk')
  obtain ⟨e1, e2⟩ := c96_both _ _ L A hr h.sound h'.sound
  have same : o.status = 0 ↔ o'.status = 0 := by
    rw [st.solved, st'.solved]
    exact e2 l b l' b'
  exact ⟨same, fun z => e1 _ _ (st.least z) (st'.least (same.1 z))⟩

end Verif.Props
