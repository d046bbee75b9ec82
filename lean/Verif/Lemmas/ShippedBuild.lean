import Verif.Lemmas.ShippedFit
import Verif.Lemmas.Expanded
import Verif.Props.Components

/-! # Complete studies over the shipped libraries: every step succeeds -/

namespace Verif
open Verif.Expr Verif.OptCtx Verif.Shipped Verif.Props

/-! ## Data -/

theorem buildData_ok {load : String → R Frame} (hl : ∀ n f, load n = .ok f → f.Rectangular) {p : InputParam}
    (hp : p.Readable load) : ∃ d, buildData load p none = .ok d := by
  unfold InputParam.Readable at hp
  unfold buildData
  cases hv : p.value with
  | number v =>
    rw [hv] at hp
    simp only at hp
    exact ⟨.const v, by simp [hp.1, hp.2]⟩
  | name n =>
    rw [hv] at hp
    simp only at hp
    obtain ⟨hdep, f, hf, hw, hr⟩ := hp
    simp only [hf, ok_bind]
    cases ht : p.timeDependent with
    | true =>
      cases hs : p.scenarioDependent with
      | true => exact ⟨_, rfl⟩
      | false =>
        have hrows : ∀ row ∈ f.rows, ∃ v, pyIndex row 0 = .ok v := by
          intro row hrow
          have := hl n f hf row hrow
          rw [hw hs] at this
          match row, this with
          | [v], _ => exact ⟨v, rfl⟩
        obtain ⟨vs, hvs, -⟩ := appendAll_of (Q := fun _ _ => True) (fun row hrow => (hrows row hrow).imp fun _ h => ⟨h, trivial⟩)
        simp [Frame.toTimeSeries, hw hs, hvs]
    | false =>
      cases hs : p.scenarioDependent with
      | true =>
        have := hr ht
        match hrows : f.rows, this with
        | [row], _ => simp [Frame.toScenarioSeries, hrows]
      | false => simp [ht, hs] at hdep

theorem addParams_ok {load : String → R Frame} (hl : ∀ n f, load n = .ok f → f.Rectangular) (c : String) (ps : List InputParam) :
    ∀ db, (∀ p ∈ ps, p.Readable load) → ∃ db', addParams load c ps db = .ok db' := by
  induction ps with
  | nil => exact fun db _ => ⟨db, rfl⟩
  | cons p ps ih =>
    intro db h
    obtain ⟨d, hd⟩ := buildData_ok hl (h p (by simp))
    obtain ⟨db', h'⟩ := ih (db.addData c p.id d) fun q hq => h q (by simp [hq])
    exact ⟨db', by simp only [addParams, hd, ok_bind, h']⟩

theorem addComponents_ok {load : String → R Frame} (hl : ∀ n f, load n = .ok f → f.Rectangular) (cs : List InputComponent) :
    ∀ db, (∀ c ∈ cs, ∀ p ∈ c.parameters, p.Readable load) → ∃ db', addComponents load cs db = .ok db' := by
  induction cs with
  | nil => exact fun db _ => ⟨db, rfl⟩
  | cons c cs ih =>
    intro db h
    obtain ⟨d, hd⟩ := addParams_ok hl c.id c.parameters db (h c (by simp))
    obtain ⟨db', h'⟩ := ih d fun q hq => h q (by simp [hq])
    exact ⟨db', by simp only [addComponents, hd, ok_bind, h']⟩

theorem StudyInput.Complete.data {I : StudyInput} {libs : Dict String Library} (hs : I.Sound) (h : I.Complete libs) :
    ∃ db, buildDataBase I.load I.system = .ok db :=
  addComponents_ok hs.tables _ _ fun c hc => h.readable c (mem_declared.2 hc)

/-! ## Components and connections -/

theorem shipped_named {ref : String} {r : Rules} (h : Rules.named ref = some r) : ∃ m, (ref, m, r) ∈ shippedModels := by
  unfold Rules.named at h
  simp only [Option.map_eq_some_iff] at h
  obtain ⟨e, he, rfl⟩ := h
  have hm := List.mem_of_find?_eq_some he
  have hn : e.1 = ref := by simpa using List.find?_some he
  subst hn
  simp only [Rules.shipped, Rules.antares, Rules.andromede, Rules.pypsa, List.map_cons, List.map_nil, List.cons_append, List.nil_append,
    List.mem_cons, List.not_mem_nil, or_false] at hm
  rcases hm with rfl | rfl | rfl | rfl | rfl | rfl | rfl | rfl | rfl | rfl | rfl | rfl | rfl | rfl | rfl | rfl | rfl
  · exact ⟨antaresAreaModel, by simp [shippedModels]⟩
  · exact ⟨antaresLoadModel, by simp [shippedModels]⟩
  · exact ⟨antaresLinkModel, by simp [shippedModels]⟩
  · exact ⟨antaresRenewableModel, by simp [shippedModels]⟩
  · exact ⟨antaresThermalModel, by simp [shippedModels]⟩
  · exact ⟨antaresShortTermStorageModel, by simp [shippedModels]⟩
  · exact ⟨andromedeDsrModel, by simp [shippedModels]⟩
  · exact ⟨andromedeElectrolyserModel, by simp [shippedModels]⟩
  · exact ⟨andromedeBatteryModel, by simp [shippedModels]⟩
  · exact ⟨pypsaBusModel, by simp [shippedModels]⟩
  · exact ⟨pypsaLoadModel, by simp [shippedModels]⟩
  · exact ⟨pypsaGeneratorModel, by simp [shippedModels]⟩
  · exact ⟨pypsaLinkModel, by simp [shippedModels]⟩
  · exact ⟨pypsaStorageUnitModel, by simp [shippedModels]⟩
  · exact ⟨pypsaStoreModel, by simp [shippedModels]⟩
  · exact ⟨pypsaGlobalConstraintCo2MaxModel, by simp [shippedModels]⟩
  · exact ⟨pypsaGlobalConstraintCo2EqModel, by simp [shippedModels]⟩

/-- where the shipped models are -/
theorem shipped_place : ∀ e ∈ shippedModels, ∃ f l, (f, l) ∈ [(antaresInput, antaresLibrary), (andromedeInput, andromedeLibrary),
    (pypsaInput, pypsaLibrary)] ∧ Rules.libraryOf e.1 = f.id ∧ '.' ∉ f.id.toList ∧ ∃ name, e.1 = f.id ++ "." ++ name ∧ '.' ∉ name.toList ∧
      Dict.get? l.models name = some e.2.1 := by
  intro e he
  simp only [shippedModels, List.mem_cons, List.not_mem_nil, or_false] at he
  rcases he with rfl | rfl | rfl | rfl | rfl | rfl | rfl | rfl | rfl | rfl | rfl | rfl | rfl | rfl | rfl | rfl | rfl
  · exact ⟨_, _, .head _, by decide, by decide, "area", by decide, by decide, rfl⟩
  · exact ⟨_, _, .head _, by decide, by decide, "load", by decide, by decide, rfl⟩
  · exact ⟨_, _, .head _, by decide, by decide, "link", by decide, by decide, rfl⟩
  · exact ⟨_, _, .head _, by decide, by decide, "renewable", by decide, by decide, rfl⟩
  · exact ⟨_, _, .head _, by decide, by decide, "thermal", by decide, by decide, rfl⟩
  · exact ⟨_, _, .head _, by decide, by decide, "short-term-storage", by decide, by decide, rfl⟩
  · exact ⟨_, _, .tail _ (.head _), by decide, by decide, "dsr", by decide, by decide, rfl⟩
  · exact ⟨_, _, .tail _ (.head _), by decide, by decide, "electrolyser", by decide, by decide, rfl⟩
  · exact ⟨_, _, .tail _ (.head _), by decide, by decide, "battery", by decide, by decide, rfl⟩
  · exact ⟨_, _, .tail _ (.tail _ (.head _)), by decide, by decide, "bus", by decide, by decide, rfl⟩
  · exact ⟨_, _, .tail _ (.tail _ (.head _)), by decide, by decide, "load", by decide, by decide, rfl⟩
  · exact ⟨_, _, .tail _ (.tail _ (.head _)), by decide, by decide, "generator", by decide, by decide, rfl⟩
  · exact ⟨_, _, .tail _ (.tail _ (.head _)), by decide, by decide, "link", by decide, by decide, rfl⟩
  · exact ⟨_, _, .tail _ (.tail _ (.head _)), by decide, by decide, "storage_unit", by decide, by decide, rfl⟩
  · exact ⟨_, _, .tail _ (.tail _ (.head _)), by decide, by decide, "store", by decide, by decide, rfl⟩
  · exact ⟨_, _, .tail _ (.tail _ (.head _)), by decide, by decide, "global_constraint_co2_max", by decide, by decide, rfl⟩
  · exact ⟨_, _, .tail _ (.tail _ (.head _)), by decide, by decide, "global_constraint_co2_eq", by decide, by decide, rfl⟩

theorem shipped_library {libs : Dict String Library} (hl : ShippedLibraries libs) {f : InputLibrary} {l : Library}
    (hf : (f, l) ∈ [(antaresInput, antaresLibrary), (andromedeInput, andromedeLibrary), (pypsaInput, pypsaLibrary)]) {l' : Library}
    (h : Dict.get? libs f.id = some l') : l' = l := by
  obtain ⟨g, hg, hid, hr⟩ := hl _ _ h
  have ha : resolveLib textParser [] antaresInput = .ok antaresLibrary := by decide +kernel
  have hb : resolveLib textParser [] andromedeInput = .ok andromedeLibrary := by decide +kernel
  have hc : resolveLib textParser [] pypsaInput = .ok pypsaLibrary := by decide +kernel
  have n1 : antaresInput.id ≠ andromedeInput.id := by decide
  have n2 : antaresInput.id ≠ pypsaInput.id := by decide
  have n3 : andromedeInput.id ≠ pypsaInput.id := by decide
  simp only [List.mem_cons, Prod.mk.injEq, List.not_mem_nil, or_false] at hf hg
  rcases hf with ⟨rfl, rfl⟩ | ⟨rfl, rfl⟩ | ⟨rfl, rfl⟩ <;> rcases hg with rfl | rfl | rfl
  · rw [ha] at hr; cases hr; rfl
  · exact absurd hid.symm n1
  · exact absurd hid.symm n2
  · exact absurd hid n1
  · rw [hb] at hr; cases hr; rfl
  · exact absurd hid.symm n3
  · exact absurd hid n2
  · exact absurd hid n3
  · rw [hc] at hr; cases hr; rfl

theorem shipped_designated {libs : Dict String Library} (hl : ShippedLibraries libs) {ref : String} {m : Model} {r : Rules}
    (h : (ref, m, r) ∈ shippedModels) (hlib : (Dict.get? libs (Rules.libraryOf ref)).isSome = true) : Designates libs ref m := by
  obtain ⟨f, l, hf, h1, h2, name, h3, h4, h5⟩ := shipped_place _ h
  dsimp only at h1 h3 h5
  rw [h1] at hlib
  obtain ⟨l', hl'⟩ := Option.isSome_iff_exists.1 hlib
  have := shipped_library hl hf hl'
  subst this
  exact ⟨f.id, name, l', h3, h2, h4, hl', h5⟩

theorem shipped_type {ref : String} {m : Model} {r : Rules} (h : (ref, m, r) ∈ shippedModels) {port : String}
    {fs : List (String × Option (Readings → Int → Int → ℚ))} (hp : (port, fs) ∈ r.ports) :
    ∃ p, m.ports.get? port = some p ∧ p.portType.fields = fs.map (·.1) ∧ p.portType.fields = [p.portType.id] := by
  obtain ⟨-, hst, hch⟩ := shippedModels_ok _ h
  obtain ⟨ds, ws, hfit, -⟩ := shippedModels_fit _ h
  dsimp only at hst hch hfit
  have hin : (port, fs.map (·.1)) ∈ m.ports.map fun (n, p) => (n, p.portType.fields) := by
    rw [hst.ports]
    exact List.mem_map.2 ⟨_, hp, rfl⟩
  obtain ⟨⟨n', p'⟩, hm, hme⟩ := List.mem_map.1 hin
  simp only [Prod.mk.injEq] at hme
  obtain ⟨rfl, hme⟩ := hme
  refine ⟨p', Dict.get?_of_mem hch.portsNodup hm, hme, ?_⟩
  have := List.all_eq_true.1 hfit.types _ hm
  simpa using this

theorem StudyInput.Complete.resolves {I : StudyInput} {libs : Dict String Library} (hl : ShippedLibraries libs) (hs : I.Sound) (h : I.Complete libs) :
    ∃ sys net, resolveSystem I.system libs = .ok sys ∧ buildNetwork sys = .ok net := by
  have hcomp : ∀ c ∈ I.declared, ∃ k, resolveComponent libs c = .ok k ∧ (k.id = c.id ∧ ∃ r, (c.model, k.model, r) ∈ shippedModels) := by
    intro c hc
    obtain ⟨⟨r, hr⟩, hlib⟩ := h.models c hc
    obtain ⟨m, hm⟩ := shipped_named hr
    exact ⟨⟨m, c.id⟩, (resolveComponent_ok_iff libs c ⟨m, c.id⟩).2 ⟨rfl, shipped_designated hl hm hlib⟩, rfl, r, hm⟩
  obtain ⟨comps, hc1, hc2⟩ := appendAll_of (xs := I.system.components) fun c hc => hcomp c (by simp [StudyInput.declared, hc])
  obtain ⟨nodes, hn1, hn2⟩ := appendAll_of (xs := I.system.nodes) fun c hc => hcomp c (by simp [StudyInput.declared, hc])
  have hall : List.Forall₂ (fun (c : InputComponent) (k : Component) => k.id = c.id ∧ ∃ r, (c.model, k.model, r) ∈ shippedModels)
      (I.system.components ++ I.system.nodes) (comps ++ nodes) := List.rel_append hc2 hn2
  have nd : ((comps ++ nodes).map (·.id)).Nodup := by
    have e : (comps ++ nodes).map (·.id) = (I.system.components ++ I.system.nodes).map (·.id) := by
      generalize comps ++ nodes = a at hall
      generalize I.system.components ++ I.system.nodes = b at hall
      clear hc1 hc2 hn1 hn2
      induction hall with
      | nil => rfl
      | cons h1 _ ih => simp [h1.1, ih]
    rw [e]
    have := hs.ids
    unfold StudyInput.declared at this
    rw [List.map_append] at this ⊢
    exact List.nodup_append_comm.1 this
  have hfind : ∀ id r, I.rulesOf id = some r → ∃ k, componentById (comps ++ nodes) id = some k ∧ ∃ ref, (ref, k.model, r) ∈ shippedModels := by
    intro id r hr
    unfold StudyInput.rulesOf at hr
    rw [Option.bind_eq_some_iff] at hr
    obtain ⟨ic, hic, hr⟩ := hr
    have hmem := List.mem_of_find?_eq_some hic
    have hid : ic.id = id := by simpa using List.find?_some hic
    obtain ⟨k, hk, hkid, r', hr'⟩ := forall₂_mem_left hall (StudyInput.mem_declared.1 hmem)
    have : r' = r := by
      have := (shippedModels_ok _ hr').1
      dsimp only at this
      rw [this] at hr
      exact Option.some.inj hr
    subst this
    exact ⟨k, (componentById_some nd _ _).2 ⟨hk, by rw [hkid, hid]⟩, _, hr'⟩
  have hconn : ∀ k ∈ I.system.connections, ∃ p, resolveConnection (comps ++ nodes) k = .ok p ∧ True := by
    intro k hk
    obtain ⟨r1, r2, fs1, fs2, h1, h2, hp1, hp2, hf, hone⟩ := h.connections k hk
    obtain ⟨k1, hk1, ref1, hm1⟩ := hfind _ _ h1
    obtain ⟨k2, hk2, ref2, hm2⟩ := hfind _ _ h2
    unfold resolveConnection
    rw [hk1, hk2]
    dsimp only
    obtain ⟨p1, g1, e1, i1⟩ := shipped_type hm1 hp1
    obtain ⟨p2, g2, e2, i2⟩ := shipped_type hm2 hp2
    have hty : p2.portType = p1.portType := by
      have : p2.portType.fields = p1.portType.fields := by rw [e1, e2, hf]
      have hid : p2.portType.id = p1.portType.id := by
        rw [i1, i2] at this
        simpa using this
      rcases hq1 : p1.portType with ⟨a, b⟩
      rcases hq2 : p2.portType with ⟨a', b'⟩
      rw [hq1, hq2] at this hid
      simp only at this hid
      rw [this, hid]
    have hdef : ∀ {ref : String} {c : Component} {r : Rules} (port f : String), (ref, c.model, r) ∈ shippedModels →
        (PortRef.fieldDef ⟨c, port⟩ f).isSome = (r.sends port f).isSome := by
      intro ref c r port f hm
      have := StudyInput.Linked.sends_eq hm port f
      unfold PortRef.fieldDef
      cases hg : r.sends port f with
      | none => rw [hg] at this; dsimp only at this; simp [this]
      | some g => rw [hg] at this; obtain ⟨d, hd, -⟩ := this; simp [hd]
    obtain ⟨c, hc⟩ := (c21_accepted_iff ⟨k1, k.port1⟩ ⟨k2, k.port2⟩ (shippedModels_ok _ hm1).2.2.portsKeyed
      (shippedModels_ok _ hm2).2.2.portsKeyed).1.2 ⟨p1.portType, by simp [PortRef.type?, g1], by simp [PortRef.type?, g2, hty], by
        intro f hf
        rw [e1] at hf
        have := hone f hf
        rw [← hdef k.port1 f hm1, ← hdef k.port2 f hm2] at this
        cases ha : PortRef.fieldDef ⟨k1, k.port1⟩ f <;> cases hb : PortRef.fieldDef ⟨k2, k.port2⟩ f <;> simp_all⟩
    exact ⟨c, hc, trivial⟩
  obtain ⟨cs, hcs, -⟩ := appendAll_of hconn
  have hsys : resolveSystem I.system libs = .ok ⟨Dict.ofItems (comps.map fun c => (c.id, c)), Dict.ofItems (nodes.map fun c => (c.id, c)), cs⟩ := by
    simp only [resolveSystem, hc1, hn1, hcs, ok_bind]
  have hd : ((I.system.components ++ I.system.nodes).map (·.id)).Nodup := by
    have := hs.ids
    unfold StudyInput.declared at this
    rw [List.map_append] at this ⊢
    exact List.nodup_append_comm.1 this
  obtain ⟨net, hnet, -⟩ := c46_network_partial libs I.system _ hd hsys
  exact ⟨_, net, hsys, hnet⟩

/-! ## The problem -/

namespace StudyInput.Linked
variable {I : StudyInput} {net : Network} {db : DataBase} {libs : Dict String Library}

/-- the value of a parameter of a component -/
theorem par_value (h : I.Linked net) (hs : I.Sound) (hdb : buildDataBase I.load I.system = .ok db) {c : Component}
    (hc : c ∈ net.allComponents) (n : String) (t s : Int) (hs0 : 0 ≤ s) :
    mden ((I.context net db).constants c) (.par n) t s = I.parameter c.id n t s :=
  h.dataValue_eq hs hdb hc n t s hs0

theorem _root_.Verif.StudyInput.parameter_block (I : StudyInput) (hb : I.steps ≠ []) (id n : String) (t s : Int) :
    ∃ u : Nat, u < I.steps.length ∧ I.parameter id n t s = I.parameter id n u s := by
  have hpos : (0 : Int) < I.steps.length := by
    have := List.length_pos_iff.2 hb
    omega
  refine ⟨(t % I.steps.length).toNat, ?_, ?_⟩
  · have := Int.emod_lt_of_pos t hpos
    have := Int.emod_nonneg t hpos.ne'
    omega
  · unfold StudyInput.parameter StudyInput.step
    have h0 := Int.emod_nonneg t hpos.ne'
    rw [Int.toNat_of_nonneg h0, Int.emod_emod_of_dvd _ (dvd_refl _)]

/-- the values of the parameters of a component make sense -/
theorem needed (h : I.Linked net) (hs : I.Sound) (hI : I.Complete libs) (hdb : buildDataBase I.load I.system = .ok db) {c : Component}
    (hc : c ∈ net.allComponents) : ∃ ref r, (ref, c.model, r) ∈ shippedModels ∧ ∀ t s : Nat, t < I.steps.length → s < I.scenarios →
      Needed ref ((I.context net db).constants c).readings t s ∧ Needed ref (I.own (fun _ => 0) c.id) t s := by
  obtain ⟨ic, hic, hid, r, hr⟩ := h.rules hc
  refine ⟨_, r, hr, fun t s ht hs' => ?_⟩
  have hn : Needed ic.model (I.own (fun _ => 0) c.id) t s := by
    intro d hd
    rw [hid]
    exact hI.values ic hic d hd t s ht hs'
  refine ⟨?_, hn⟩
  intro d hd
  refine needs_congr hd ?_ (hn d hd)
  intro n
  exact (h.par_value hs hdb hc n t s (by omega)).symm

theorem buildable (h : I.Linked net) (hs : I.Sound) (hI : I.Complete libs) (hdb : buildDataBase I.load I.system = .ok db) :
    (I.context net db).Buildable := by
  have hvars := fun m => context_variables I net db m
  have hTpos : 0 < I.steps.length := List.length_pos_iff.2 hs.block
  have fit : ∀ c ∈ net.allComponents, ∃ ds ws, c.model.FitsWith ds ws ∧
      (∀ v ∈ c.model.variables_.values, ∀ t s : Nat, t < I.steps.length → s < I.scenarios →
        ∃ q, aboveOpt ((I.context net db).constants c) v.lowerBound q t s ∧ belowOpt ((I.context net db).constants c) v.upperBound q t s) ∧
      ∀ e, fitsB (leafB c.model) ds ws e = true → (I.context net db).Usable c e := by
    intro c hc
    obtain ⟨ref, r, hr, hneed⟩ := h.needed hs hI hdb hc
    obtain ⟨ds, ws, hf, hroom, hds, hws⟩ := shippedModels_fit _ hr
    refine ⟨ds, ws, hf, fun v hv t s ht hs' => hroom v hv _ t s (hneed t s ht hs').1, ?_⟩
    intro e he
    refine usable_of (hvars c.model) ?_ ?_ e he
    · intro n hn t s h0 h1
      rw [h.par_value hs hdb hc n t s h0]
      obtain ⟨u, hu, e⟩ := I.parameter_block hs.block c.id n t s
      rw [e]
      obtain ⟨s', rfl⟩ := Int.eq_ofNat_of_zero_le h0
      exact hds n hn _ _ _ (hneed u s' hu (by simpa [StudyInput.context] using h1)).2
    · intro n hn
      have hw := List.all_eq_true.1 hf.whole n hn
      dsimp only at hw
      split at hw
      · rename_i p hp
        refine ⟨⟨p, hp, ?_⟩, ?_⟩
        · rcases hpp : p.structure_ with ⟨a, b⟩
          rw [hpp] at hw
          simp only [Bool.and_eq_true, Bool.not_eq_true'] at hw
          rw [hw.1, hw.2]
        · obtain ⟨z, hz⟩ := hws n hn _ _ _ (hneed 0 0 hTpos hs.scenarios).1
          exact ⟨z, hz⟩
      · cases hw
  refine ⟨h.networkOk db hs, h.dataOk hs hdb, hs.scenarios, ?_, ?_, ?_, ?_, ?_, ?_⟩
  · intro c hc
    obtain ⟨ds, ws, hf, -⟩ := fit c hc
    refine ⟨fun n p hp => ?_, (h.checked hc).parsNodup⟩
    have := List.all_eq_true.1 hf.parameters _ (Dict.mem_of_get? hp)
    simpa using this
  · intro c hc n p hp
    obtain ⟨ic, hic, hid, r, hr⟩ := h.rules hc
    obtain ⟨q, hq, hqn⟩ := hI.parameters ic hic r (shippedModels_ok _ hr).1 _ (par_rule hr hp)
    dsimp only at hqn
    subst hqn
    obtain ⟨d, hd, ht, hsc, htree, hent⟩ := (c46_data_partial I.load hs.tables I.system db hdb (paramsNodup hs)).1 ic (mem_declared.1 hic) q hq
    have hd' : Dict.get? db (c.id, q.id) = some d := by rw [hid]; exact getData_ok hd
    obtain ⟨ic', hic', q', hq', hid', hqid, hb⟩ := buildDataBase_from hdb hd'
    have hvary := hs.varying ic hic q hq r (shippedModels_ok _ hr).1 _ (par_rule hr hp) rfl
    dsimp only at hvary
    refine ⟨d, hd', ?_, ?_⟩
    · cases d with
      | const v => rfl
      | timeSeries d => exact hvary.1 (ht ▸ rfl)
      | scenarioSeries d z => exact hvary.2 (hsc ▸ rfl)
      | timeScenarioSeries f z =>
        show (p.structure_.time && p.structure_.scenario) = true
        rw [hvary.1 (ht ▸ rfl), hvary.2 (hsc ▸ rfl)]
        rfl
      | tree d => cases htree
    · intro t ht' s hs'
      obtain ⟨v, hv⟩ := hI.covered ic hic q hq t ht' s hs'
      refine ⟨v, ?_⟩
      have hg : d.getValue (some t) (some (s : Int)) (I.context net db).treeNode = .ok v :=
        (getValue_entry d htree (buildData_nonNeg hb) t s (hs.steps t ht') (by omega) _ "" v).2 (by rw [hent]; exact hv)
      rw [← hg]
      have a1 : ∀ u, d.getValue (atT p.structure_ t) u (I.context net db).treeNode = d.getValue (some t) u (I.context net db).treeNode := by
        intro u
        by_cases hi : p.structure_.time = true
        · simp only [atT, hi, if_true]
        · apply (c24_ignores d).1
          rw [ht]
          cases hn : q.timeDependent with
          | false => rfl
          | true => exact absurd (hvary.1 hn) hi
      rw [a1]
      by_cases hi : p.structure_.scenario = true
      · simp only [atS, hi, if_true]
      · apply (c24_ignores d).2
        rw [hsc]
        cases hn : q.scenarioDependent with
        | false => rfl
        | true => exact absurd (hvary.2 hn) hi
  · intro k hk r hr
    obtain ⟨ic, -, h1, -, h2, -, hm⟩ := forall₂_mem_right h.conns hk
    have hmem : r.component ∈ net.allComponents := by
      rcases hr with rfl | rfl
      · exact (getComponent_mem h1).1
      · exact (getComponent_mem h2).1
    refine ⟨hmem, fun f d hd => ?_⟩
    obtain ⟨ds, ws, hf, -, huse⟩ := fit _ hmem
    apply huse
    unfold PortRef.fieldDef at hd
    simp only [Option.map_eq_some_iff] at hd
    obtain ⟨d', hd', rfl⟩ := hd
    exact List.all_eq_true.1 hf.definitions _ (Dict.mem_of_get? hd')
  · intro c hc v hv
    rw [hvars] at hv
    obtain ⟨ds, ws, hf, hroom, -⟩ := fit c hc
    have := List.all_eq_true.1 hf.vars v hv
    simp only [Bool.and_eq_true] at this
    exact ⟨boundFits_of this.1, boundFits_of this.2, hroom v hv⟩
  · intro c hc k hk
    rw [context_constraints] at hk
    obtain ⟨ds, ws, hf, -, huse⟩ := fit c hc
    have := List.all_eq_true.1 hf.constraints k hk
    simp only [Bool.and_eq_true] at this
    obtain ⟨⟨⟨⟨a, b⟩, c⟩, d⟩, e⟩ := this
    refine ⟨huse _ a, boundFits_of b, boundFits_of c, ?_, ?_⟩
    · intro hh; rw [hh] at d; cases d
    · intro hh; rw [hh] at e; cases e
  · intro c hc e he
    rw [context_contributions] at he
    obtain ⟨ds, ws, hf, -, huse⟩ := fit c hc
    have := (h.checked hc).objective_ok he
    exact ⟨huse e (List.all_eq_true.1 hf.objectives e he), this.2.1, this.2.2.2⟩

end StudyInput.Linked

end Verif
