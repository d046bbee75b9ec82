import Verif.Spec.Solved
import Verif.Props.SolvedAny
import Verif.Props.BetweenShipped

/-!
# C93 for what the command prints: a study that can be satisfied is solved, unless its cost has no lower bound
-/

namespace Verif.Props
open Verif Verif.Expr Verif.OptCtx Verif.Shipped

theorem shipped_additive : ∀ e ∈ shippedModels, mixedModel amounts e.2.1 = true := by
  have : (shippedModels.all fun e => mixedModel amounts e.2.1) = true := by decide +kernel
  exact List.all_eq_true.1 this

section
variable {I J : StudyInput} {net : Network} {db db' : DataBase}

theorem shipped_additive_context (hs : I.Sound) (l : I.Linked net) : (I.context net db).Additive fun _ n => n ∈ amounts :=
  additive_context hs l fun c hc => by
    obtain ⟨ic, hic, -, r, hr⟩ := l.rules hc
    exact shipped_additive _ hr

/-- other amounts in a study make other amounts in its problem -/
theorem otherAmounts_context (h : I.OtherAmounts J) (hs : I.Sound) (hs' : J.Sound) (l : I.Linked net)
    (hdb : buildDataBase I.load I.system = .ok db) (hdb' : buildDataBase J.load J.system = .ok db') :
    (I.context net db).OtherAmounts (fun _ n => n ∈ amounts) (J.context net db') := by
  refine ⟨rfl, h.length, h.scenarios, rfl, rfl, fun c hc n hn t s h0 h1 => ?_⟩
  obtain ⟨ic, hic, e, -⟩ := l.rules hc
  have h1 : s < I.scenarios := h1
  have hpos : (0 : Int) < I.steps.length := by
    have := List.length_pos_iff.2 hs.block
    omega
  have p0 := Int.emod_nonneg t hpos.ne'
  have p1 := Int.emod_lt_of_pos t hpos
  have key := h.others ic hic n hn (t % I.steps.length).toNat s.toNat (by omega) (by omega)
  rw [← e, Int.toNat_of_nonneg p0, Int.toNat_of_nonneg h0, StudyInput.parameter_wrap I, ← h.length, StudyInput.parameter_wrap J] at key
  have a1 : (I.context net db).parameterAt c.id n t s = I.parameter c.id n t s := l.dataValue_eq hs hdb hc n t s h0
  have a2 : (J.context net db').parameterAt c.id n t s = J.parameter c.id n t s :=
    (sameParts_linked h.toSameParts l).dataValue_eq hs' hdb' hc n t s h0
  rw [a1, a2, key]

end

/-- **C93, studies on the shipped models.** There is a cheapest way to satisfy a study exactly when it can be satisfied and the costs of doing so have a
lower bound.  If there is one for `I`, there is one for the study `J` with other loads, capacities and other amounts exactly when `J` can be satisfied. -/
theorem c93_study (I : StudyInput) (hs : I.Sound) {net : Network} {db : DataBase} (l : I.Linked net)
    (hdb : buildDataBase I.load I.system = .ok db) :
    ((∃ c, LeastCost I.Accepts I.cost c) ↔ (∃ σ, I.Accepts σ) ∧ ∃ m, ∀ σ, I.Accepts σ → m ≤ I.cost σ) ∧
    ∀ J : StudyInput, I.OtherAmounts J → J.Sound → ∀ db', buildDataBase J.load J.system = .ok db' →
      (∃ c, LeastCost I.Accepts I.cost c) → ((∃ c, LeastCost J.Accepts J.cost c) ↔ ∃ σ, J.Accepts σ) := by
  have e := c93_any_models _ (I.context net db) (shipped_additive_context hs l) (l.networkOk db hs) (l.closed hs) l.ownSymbols hs.scenarios
  have a1 : (I.context net db).MathFeasible = I.Accepts := funext fun σ => propext (l.feasible_iff hs hdb σ)
  have b1 : (I.context net db).mathCost = I.cost := funext fun σ => l.cost_eq hs hdb σ
  rw [a1, b1] at e
  refine ⟨e.1, fun J h hs' db' hdb' => ?_⟩
  have l' := sameParts_linked h.toSameParts l
  have a2 : (J.context net db').MathFeasible = J.Accepts := funext fun σ => propext (l'.feasible_iff hs' hdb' σ)
  have b2 : (J.context net db').mathCost = J.cost := funext fun σ => l'.cost_eq hs' hdb' σ
  have := (c93_amounts _ _ _ (otherAmounts_context h hs hs' l hdb hdb') (shipped_additive_context hs l) (l.networkOk db hs) (l.closed hs) l.ownSymbols
    hs.scenarios).1
  rwa [a1, b1, a2, b2] at this

/-- **C93, one command.** A command on shipped libraries and a complete study ends without an error.  It prints status 0 exactly when what it keeps of
the study can be satisfied and the costs of doing so have a lower bound; when no coefficient is tiny, what it keeps is the study. -/
theorem c93_command (solve : Solver → Answer) (hsolve : RightSolver solve) (os : Nat → SetOrder) (ho : ∀ i, (os i).Valid) (fuel : Nat) (d : Disk)
    (f : CliFlags) {paths : List String} {comp : String} {tables : Option String} {ls : List InputLibrary} {s : InputSystem}
    (h : ShippedCommand d f paths comp tables ls s) (hfuel : 3 * ls.length + 2 ≤ fuel) :
    ∃ net db o, (d.study s tables f).Linked net ∧ buildDataBase (d.study s tables f).load s = .ok db ∧
      mainOutput solve textParser os fuel d f = some (.ok o) ∧
      (o.status = 0 ↔ (∃ σ, ((d.study s tables f).context net db).KeptFeasible σ) ∧
        ∃ m, ∀ σ, ((d.study s tables f).context net db).KeptFeasible σ → m ≤ ((d.study s tables f).context net db).keptCost σ) ∧
      (KeptRun textParser os fuel d f → (o.status = 0 ↔ (∃ σ, (d.study s tables f).Accepts σ) ∧
        ∃ m, ∀ σ, (d.study s tables f).Accepts σ → m ≤ (d.study s tables f).cost σ)) := by
  obtain ⟨net, db, o, l, b, r, st, k, st'⟩ := shipped_prints hsolve ho h hfuel
  refine ⟨net, db, o, l, b, r, ?_, fun hk => ?_⟩
  · rw [st.solved]
    exact (c93_any_models _ _ (shipped_additive_context h.sound l) (l.networkOk db h.sound) (l.closed h.sound) l.ownSymbols h.sound.scenarios).2.1
  · rw [(st' (k hk)).solved]
    exact (c93_study _ h.sound l b).1

/-- **C93, two commands.** Take two commands on shipped libraries and complete studies, that of the second one with other loads, capacities and other
amounts.  Both end without an error.  If the first one prints status 0, the second one prints status 0 exactly when what it keeps of its study can be
satisfied; when no coefficient is tiny, exactly when its study can be satisfied. -/
theorem c93_two_commands (solve : Solver → Answer) (hsolve : RightSolver solve) (os os' : Nat → SetOrder) (ho : ∀ i, (os i).Valid)
    (ho' : ∀ i, (os' i).Valid) (fuel fuel' : Nat) (d d' : Disk) (f f' : CliFlags) {paths paths' : List String} {comp comp' : String}
    {tables tables' : Option String} {ls ls' : List InputLibrary} {s s' : InputSystem} (h : ShippedCommand d f paths comp tables ls s)
    (hfuel : 3 * ls.length + 2 ≤ fuel) (h' : ShippedCommand d' f' paths' comp' tables' ls' s') (hfuel' : 3 * ls'.length + 2 ≤ fuel')
    (hr : (d.study s tables f).OtherAmounts (d'.study s' tables' f')) :
    ∃ o net' db' o', mainOutput solve textParser os fuel d f = some (.ok o) ∧
      (d'.study s' tables' f').Linked net' ∧ buildDataBase (d'.study s' tables' f').load s' = .ok db' ∧
      mainOutput solve textParser os' fuel' d' f' = some (.ok o') ∧
      (o.status = 0 → (o'.status = 0 ↔ ∃ σ, ((d'.study s' tables' f').context net' db').KeptFeasible σ)) ∧
      (o.status = 0 → KeptRun textParser os fuel d f → KeptRun textParser os' fuel' d' f' → (o'.status = 0 ↔ ∃ σ, (d'.study s' tables' f').Accepts σ)) := by
  obtain ⟨net, db, o, l, b, r, st, k, sm⟩ := shipped_prints hsolve ho h hfuel
  obtain ⟨net', db', o', l', b', r', st', k', sm'⟩ := shipped_prints hsolve ho' h' hfuel'
  have l3 := sameParts_linked hr.toSameParts l
  have hsame : s'.Renamed (fun n => n) s' := rearranged_refl s'
  have hren := renamed_networks hsame (renamed_part (I := d'.study s' tables' f') hsame) h'.sound h'.sound h'.joins l3 l' b' b'
  have same := fun σ : TermKey → ℚ => renamed_net_kept hren (l3.networkOk db' h'.sound) (l'.networkOk db' h'.sound) (l3.closed h'.sound)
    l3.ownSymbols (σ := σ) (σ' := σ) fun _ _ _ _ _ => rfl
  have a1 : ((d'.study s' tables' f').context net' db').KeptFeasible = ((d'.study s' tables' f').context net db').KeptFeasible :=
    funext fun σ => propext (same σ).1
  have a2 : ((d'.study s' tables' f').context net' db').keptCost = ((d'.study s' tables' f').context net db').keptCost := funext fun σ => (same σ).2
  refine ⟨o, net', db', o', r, l', b', r', fun z => ?_, fun z hk hk' => ?_⟩
  · rw [st'.solved, a1, a2]
    exact (c93_amounts _ _ _ (otherAmounts_context hr h.sound h'.sound l b b') (shipped_additive_context h.sound l) (l.networkOk db h.sound)
      (l.closed h.sound) l.ownSymbols h.sound.scenarios).2 (st.solved.1 z)
  · rw [(sm' (k' hk')).solved]
    exact (c93_study _ h.sound l b).2 _ hr h'.sound _ b' ((sm (k hk)).solved.1 z)

end Verif.Props
