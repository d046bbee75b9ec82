import Verif.Spec.Data
import Verif.Lemmas.Basic
import Verif.Lemmas.Dict
import Mathlib.Data.List.Induction

/-! # Properties C23 to C25: data -/

namespace Verif
namespace Props

/-! ## C24 -/

theorem getTree_eq (ds : List (String × Data)) (t s : Option Int) (node : String) :
    Data.getTree ds t s node = match Dict.get? ds node with
      | some d => d.getValue t s ""
      | none => .error (.keyError "") := by
  induction ds with
  | nil => rfl
  | cons p ds ih =>
    obtain ⟨k, d⟩ := p
    simp only [Data.getTree, Dict.get?]
    split <;> simp_all

theorem treeEntry_eq (ds : List (String × Data)) (t s : Int) (node : String) :
    Data.treeEntry ds t s node = (Dict.get? ds node).bind fun d => d.entry t s node := by
  induction ds with
  | nil => rfl
  | cons p ds ih =>
    obtain ⟨k, d⟩ := p
    simp only [Data.treeEntry, Dict.get?]
    split <;> simp_all

theorem pyIndex_ok_iff {α} (l : List α) (i : Int) (hi : 0 ≤ i) (x : α) : pyIndex l i = .ok x ↔ atPos l i = some x := by
  unfold pyIndex atPos
  simp only [not_lt.2 hi, if_false, hi, if_true]
  cases l[i.toNat]? <;> simp

theorem get_ok_iff' {α β} [DecidableEq α] (d : Dict α β) (k : α) (v : β) : d.get k = .ok v ↔ d.get? k = some v := by
  unfold Dict.get
  cases d.get? k <;> simp

theorem applyScenarization_ok_iff (z : Option Scenarization) (s s' : Int) :
    applyScenarization z s = .ok s' ↔ dataScenario z s = some s' := by
  cases z with
  | none => simp [applyScenarization, dataScenario]
  | some z => exact get_ok_iff' z s s'

theorem getValue_entry (d : Data) (hd : d.isTree = false) (hn : d.NonNegScenarios) (t s : Int) (ht : 0 ≤ t) (hs : 0 ≤ s)
    (node node' : String) (v : Num) : d.getValue (some t) (some s) node = .ok v ↔ d.entry t s node' = some v := by
  cases d with
  | const w => simp [Data.getValue, Data.entry]
  | timeSeries d => simp only [Data.getValue, Data.entry]; exact get_ok_iff' d t v
  | scenarioSeries d z =>
    simp only [Data.getValue, Data.entry, bind_ok_iff, applyScenarization_ok_iff, get_ok_iff', Option.bind_eq_some_iff]
  | timeScenarioSeries f z =>
    simp only [Data.getValue, Data.entry, bind_ok_iff, applyScenarization_ok_iff, Option.bind_eq_some_iff, Frame.iloc]
    refine exists_congr fun s' => and_congr_right fun hz => ?_
    have hs' : 0 ≤ s' := by
      cases z with
      | none => simp only [dataScenario, Option.some.injEq] at hz; omega
      | some z => exact hn s s' hz
    refine exists_congr fun row => ?_
    rw [pyIndex_ok_iff _ _ ht, pyIndex_ok_iff _ _ hs']
  | tree ds => cases hd

/-- **C24 (partial)**, entries: reading data at a timestep and scenario (not negative) gives the value stored for them,
and fails exactly when none is stored.  `entry` is the stored table: constant data have one entry for everything, the
scenario goes through the scenarization when there is one, tree data are read in the requested node.
Missing: negative indices of time-scenario tables and trees inside trees, for which it is false (below). -/
theorem c24_entry_partial (d : Data) (hd : d.Plain) (t s : Int) (ht : 0 ≤ t) (hs : 0 ≤ s) (node : String) (v : Num) :
    d.getValue (some t) (some s) node = .ok v ↔ d.entry t s node = some v := by
  by_cases h : d.isTree = true
  · cases d with
    | tree ds =>
      simp only [Data.getValue, Data.entry, getTree_eq, treeEntry_eq]
      cases hk : Dict.get? ds node with
      | none => simp
      | some d =>
        have := hd _ (Dict.mem_of_get? hk)
        simp only [Option.bind_some]
        exact getValue_entry d this.1 this.2 t s ht hs _ _ v
    | _ => cases h
  · have h : d.isTree = false := by simpa using h
    refine getValue_entry d h ?_ t s ht hs node node v
    cases d <;> first | exact hd | cases h

mutual
theorem getValue_noTime (d : Data) (h : d.needsTime = false) (t t' s : Option Int) (node : String) :
    d.getValue t s node = d.getValue t' s node := by
  match d with
  | .const v => rfl
  | .timeSeries d => cases h
  | .scenarioSeries d z => rfl
  | .timeScenarioSeries f z => cases h
  | .tree ds => exact getTree_noTime ds h t t' s node
theorem getTree_noTime (ds : List (String × Data)) (h : Data.treeNeedsTime ds = false) (t t' s : Option Int)
    (node : String) : Data.getTree ds t s node = Data.getTree ds t' s node := by
  match ds with
  | [] => rfl
  | (k, d) :: ds =>
    simp only [Data.treeNeedsTime, Bool.or_eq_false_iff] at h
    simp only [Data.getTree]
    rw [getValue_noTime d h.1 t t' s "", getTree_noTime ds h.2 t t' s node]
end

mutual
theorem getValue_noScenario (d : Data) (h : d.needsScenario = false) (t s s' : Option Int) (node : String) :
    d.getValue t s node = d.getValue t s' node := by
  match d with
  | .const v => rfl
  | .timeSeries d => rfl
  | .scenarioSeries d z => cases h
  | .timeScenarioSeries f z => cases h
  | .tree ds => exact getTree_noScenario ds h t s s' node
theorem getTree_noScenario (ds : List (String × Data)) (h : Data.treeNeedsScenario ds = false) (t s s' : Option Int)
    (node : String) : Data.getTree ds t s node = Data.getTree ds t s' node := by
  match ds with
  | [] => rfl
  | (k, d) :: ds =>
    simp only [Data.treeNeedsScenario, Bool.or_eq_false_iff] at h
    simp only [Data.getTree]
    rw [getValue_noScenario d h.1 t s s' "", getTree_noScenario ds h.2 t s s' node]
end

/-- C24, ignored indices: data that do not depend on time give the same result at every timestep and without timestep;
same for scenarios. -/
theorem c24_ignores (d : Data) :
    (d.needsTime = false → ∀ t t' s node, d.getValue t s node = d.getValue t' s node) ∧
    (d.needsScenario = false → ∀ t s s' node, d.getValue t s node = d.getValue t s' node) :=
  ⟨fun h t t' s node => getValue_noTime d h t t' s node, fun h t s s' node => getValue_noScenario d h t s s' node⟩

/-- C24, missing indices: data that depend on time reject a missing timestep with `KeyError`; same for scenarios.  (For
trees this is about the node that is read, so the statement is about plain data.) -/
theorem c24_missing_index (d : Data) (hd : d.isTree = false) (node : String) :
    (d.needsTime = true → ∀ s, ∃ m, d.getValue none s node = .error (.keyError m)) ∧
    (d.needsScenario = true → ∀ t, ∃ m, d.getValue t none node = .error (.keyError m)) := by
  cases d with
  | const v => exact ⟨fun h => (by cases h), fun h => (by cases h)⟩
  | timeSeries d => exact ⟨fun _ s => ⟨_, rfl⟩, fun h => (by cases h)⟩
  | scenarioSeries d z => exact ⟨fun h => (by cases h), fun _ t => ⟨_, rfl⟩⟩
  | timeScenarioSeries f z =>
    exact ⟨fun _ s => ⟨_, rfl⟩, fun _ t => (by cases t <;> exact ⟨_, rfl⟩)⟩
  | tree ds => cases hd

/-- C24, trees: a tree returns what the data of the requested node return (read without node), and rejects an unknown
node. -/
theorem c24_tree (ds : List (String × Data)) (t s : Option Int) (node : String) :
    (∀ d, Dict.get? ds node = some d → (Data.tree ds).getValue t s node = d.getValue t s "") ∧
    (Dict.get? ds node = none → ∃ m, (Data.tree ds).getValue t s node = .error (.keyError m)) := by
  simp only [Data.getValue, getTree_eq]
  exact ⟨fun d h => by rw [h], fun h => ⟨"", by rw [h]⟩⟩

/-- **C24** is violated: a time-scenario table read before its first line returns the last line instead of failing
(a time series fails). -/
theorem c24_negative_timestep :
    (∃ (f : Frame), ∀ node s, Data.entry (.timeScenarioSeries f none) (-1) s node = none ∧
      Data.getValue (.timeScenarioSeries f none) (some (-1)) (some 0) node = .ok 2) ∧
    ∀ d : Dict Int Num, d.get? (-1) = none → ∃ m, (Data.timeSeries d).getValue (some (-1)) none "" = .error (.keyError m) := by
  refine ⟨⟨⟨1, [[1], [2]]⟩, fun node s => ⟨rfl, rfl⟩⟩, fun d h => ⟨"", ?_⟩⟩
  simp only [Data.getValue, Dict.get, h]

/-- **C24** is violated: in a tree whose data at node "a" are again a tree, the inner tree is not read at "a". -/
theorem c24_nested_tree : ∃ d : Data, d.entry 0 0 "a" = some 1 ∧ d.getValue (some 0) (some 0) "a" = .ok 2 :=
  ⟨.tree [("a", .tree [("a", .const 1), ("", .const 2)])], rfl, rfl⟩

/-- a tree with a time series and a scenarized table: read at node "b", timestep 1, scenario (year) 7 -/
example : let d := Data.tree [("a", .timeSeries [(0, 5)]), ("b", .timeScenarioSeries ⟨2, [[1, 2], [3, 4]]⟩ (some [(7, 1)]))]
    d.Plain ∧ d.entry 1 7 "b" = some 4 ∧ d.getValue (some 1) (some 7) "b" = .ok 4 ∧ d.entry 1 0 "b" = none ∧
    d.entry 1 7 "a" = none := by
  refine ⟨?_, rfl, rfl, rfl, rfl⟩
  intro p hp
  simp only [List.mem_cons, List.not_mem_nil, or_false] at hp
  rcases hp with rfl | rfl
  · exact ⟨rfl, trivial⟩
  · refine ⟨rfl, fun y s h => ?_⟩
    have := Dict.mem_of_get? h
    simp only [List.mem_singleton, Prod.mk.injEq] at this
    omega

/-! ## C23 -/

mutual
theorem needs_of_check (d : Data) (t s : Bool) (h : d.checkRequirement t s = true) :
    (d.needsTime = true → t = true) ∧ (d.needsScenario = true → s = true) := by
  match d with
  | .const v => exact ⟨fun h => (by cases h), fun h => (by cases h)⟩
  | .timeSeries d => exact ⟨fun _ => h, fun h => (by cases h)⟩
  | .scenarioSeries d z => exact ⟨fun h => (by cases h), fun _ => h⟩
  | .timeScenarioSeries f z =>
    simp only [Data.checkRequirement, Bool.and_eq_true] at h
    exact ⟨fun _ => h.1, fun _ => h.2⟩
  | .tree ds => exact treeNeeds_of_check ds t s h
theorem treeNeeds_of_check (ds : List (String × Data)) (t s : Bool) (h : Data.checkTree ds t s = true) :
    (Data.treeNeedsTime ds = true → t = true) ∧ (Data.treeNeedsScenario ds = true → s = true) := by
  match ds with
  | [] => exact ⟨fun h => (by cases h), fun h => (by cases h)⟩
  | (k, d) :: ds =>
    simp only [Data.checkTree, Bool.and_eq_true] at h
    have h1 := needs_of_check d t s h.1
    have h2 := treeNeeds_of_check ds t s h.2
    simp only [Data.treeNeedsTime, Data.treeNeedsScenario, Bool.or_eq_true]
    exact ⟨fun h => h.elim h1.1 h2.1, fun h => h.elim h1.2 h2.2⟩
end

theorem checkParams_ok (db : DataBase) (c : Component) (ps : List Parameter) (h : db.checkParams c ps = .ok ()) :
    ∀ p ∈ ps, ∃ d q, db.getData c.id p.name = .ok d ∧ c.model.parameters.get? p.name = some q ∧
      d.checkRequirement q.structure_.time q.structure_.scenario = true := by
  induction ps with
  | nil => intro p hp; cases hp
  | cons p ps ih =>
    simp only [DataBase.checkParams, bind_ok_iff] at h
    obtain ⟨d, hd, q, hq, h⟩ := h
    split_ifs at h with hc
    intro p' hp'
    rcases List.mem_cons.1 hp' with rfl | hp'
    · exact ⟨d, q, hd, (get_ok_iff' _ _ _).1 hq, by simpa using hc⟩
    · exact ih h p' hp'

theorem checkComponents_ok (db : DataBase) (cs : List Component) (h : db.checkComponents cs = .ok ()) :
    ∀ c ∈ cs, db.checkParams c c.model.parameters.values = .ok () := by
  induction cs with
  | nil => intro c hc; cases hc
  | cons c cs ih =>
    simp only [DataBase.checkComponents, bind_ok_iff] at h
    obtain ⟨_, h1, h2⟩ := h
    intro c' hc'
    rcases List.mem_cons.1 hc' with rfl | hc'
    · exact h1
    · exact ih h2 c' hc'

/-- **C23 (partial).** After a successful consistency check, for every component (not node) of the network and every
parameter of its model: data are registered; and reading them with a timestep whenever the parameter is declared
time-dependent, and a scenario whenever it is declared scenario-dependent, gives exactly what reading with both indices
gives, so no index is ever missing.  With C24: the only failures left are indices outside the stored series.
Missing: nodes, for which it is false (next theorem). -/
theorem c23_reads_partial (db : DataBase) (n : Network) (h : db.requirementsConsistency n = .ok ()) (c : Component)
    (hc : c ∈ n.components.values) (hk : c.model.ParamsKeyed) (name : String) (p : Parameter)
    (hp : c.model.parameters.get? name = some p) :
    ∃ d, db.getData c.id name = .ok d ∧
      ∀ (t s : Option Int) (node : String), (p.structure_.time = true → t.isSome) → (p.structure_.scenario = true → s.isSome) →
        ∀ t' s', (∀ u, t = some u → t' = u) → (∀ w, s = some w → s' = w) →
          d.getValue t s node = d.getValue (some t') (some s') node := by
  have hmem : p ∈ c.model.parameters.values :=
    List.mem_map.2 ⟨_, Dict.mem_of_get? hp, rfl⟩
  obtain ⟨d, q, hd, hq, hreq⟩ := checkParams_ok db c _ (checkComponents_ok db _ h c hc) p hmem
  have hname := hk name p hp
  rw [hname] at hd hq
  rw [hp] at hq
  cases hq
  refine ⟨d, hd, fun t s node ht hs t' s' htt hss => ?_⟩
  obtain ⟨n1, n2⟩ := needs_of_check d _ _ hreq
  have e1 : d.getValue t s node = d.getValue (some t') s node := by
    cases ht' : d.needsTime with
    | false => exact getValue_noTime d ht' _ _ _ _
    | true =>
      obtain ⟨u, rfl⟩ := Option.isSome_iff_exists.1 (ht (n1 ht'))
      rw [htt u rfl]
  have e2 : d.getValue (some t') s node = d.getValue (some t') (some s') node := by
    cases hs' : d.needsScenario with
    | false => exact getValue_noScenario d hs' _ _ _ _
    | true =>
      obtain ⟨u, rfl⟩ := Option.isSome_iff_exists.1 (hs (n2 hs'))
      rw [hss u rfl]
  rw [e1, e2]

/-- C23, converse: when every parameter of every component has data that need no index its declaration does not
provide, the check succeeds. -/
theorem c23_accepts (db : DataBase) (n : Network) (hk : ∀ c ∈ n.components.values, c.model.ParamsKeyed)
    (hu : ∀ c ∈ n.components.values, c.model.parameters.keys.Nodup)
    (h : ∀ c ∈ n.components.values, ∀ name p, c.model.parameters.get? name = some p →
      ∃ d, db.getData c.id name = .ok d ∧ d.checkRequirement p.structure_.time p.structure_.scenario = true) :
    db.requirementsConsistency n = .ok () := by
  unfold DataBase.requirementsConsistency
  have hparams : ∀ c ∈ n.components.values, ∀ ps : List Parameter, (∀ p ∈ ps, p ∈ c.model.parameters.values) →
      db.checkParams c ps = .ok () := by
    intro c hc ps
    induction ps with
    | nil => intro _; rfl
    | cons p ps ih =>
      intro hps
      obtain ⟨⟨k, p'⟩, hkp, rfl⟩ := List.mem_map.1 (hps p (by simp))
      have hget := Dict.get?_of_mem (hu c hc) hkp
      have hname := hk c hc _ _ hget
      obtain ⟨d, hd, hreq⟩ := h c hc _ _ hget
      simp only [DataBase.checkParams, hname, hd, (get_ok_iff' _ _ _).2 hget, ok_bind, hreq, Bool.not_true,
        Bool.false_eq_true, if_false]
      exact ih fun p hp => hps p (by simp [hp])
  generalize n.components.values = cs at hparams
  induction cs with
  | nil => rfl
  | cons c cs ih =>
    simp only [DataBase.checkComponents]
    rw [hparams c (by simp) _ fun p hp => hp]
    exact ih fun c hc => hparams c (by simp [hc])

/-- **C23** is violated for nodes: the check passes for a network whose node has a parameter without data. -/
theorem c23_nodes_not_checked : ∃ (db : DataBase) (n : Network) (node : Component) (p : Parameter),
    db.requirementsConsistency n = .ok () ∧ node ∈ n.nodes.values ∧ node.model.parameters.get? "spillage_cost" = some p ∧
    n.getComponent node.id = .ok node ∧ ∃ m, db.getData node.id "spillage_cost" = .error (.keyError m) := by
  let m : Model := { id := "NODE", parameters := [("spillage_cost", ⟨"spillage_cost", .continuous, ⟨false, false⟩⟩)] }
  exact ⟨[], { id := "n", nodes := [("N", ⟨m, "N"⟩)] }, ⟨m, "N"⟩, ⟨"spillage_cost", .continuous, ⟨false, false⟩⟩, rfl,
    by simp [Dict.values], rfl, rfl, "", rfl⟩

/-- a network that passes the check with a time-dependent parameter given by a time series and by a constant -/
example : let m : Model := { id := "LOAD", parameters := [("demand", ⟨"demand", .continuous, ⟨true, false⟩⟩)] }
    let n : Network := { id := "n", components := [("A", ⟨m, "A"⟩), ("B", ⟨m, "B"⟩)] }
    DataBase.requirementsConsistency [(("A", "demand"), .timeSeries [(0, 1)]), (("B", "demand"), .const 2)] n = .ok () ∧
    m.ParamsKeyed ∧
    DataBase.requirementsConsistency [(("A", "demand"), .scenarioSeries [(0, 1)] none), (("B", "demand"), .const 2)] n =
      .error (.valueError "Data inconsistency") := by
  refine ⟨rfl, ?_, rfl⟩
  intro k p h
  have := Dict.mem_of_get? h
  simp only [List.mem_singleton, Prod.mk.injEq] at this
  obtain ⟨rfl, rfl⟩ := this
  rfl

/-! ## C25 -/

/-- the data base after a history of `add_data` -/
def addAll (ops : List ((String × String) × Data)) : DataBase :=
  ops.foldl (fun db w => DataBase.addData db w.1.1 w.1.2 w.2) []

/-- C25: after any history of `add_data`, `get_data` returns the last data added for the component and parameter, and
raises `KeyError` if none was; `get_value` reads these data. -/
theorem c25_last_write (ops : List ((String × String) × Data)) (c p : String) :
    (∀ d, lastWrite ops (c, p) = some d → (addAll ops).getData c p = .ok d ∧
      ∀ t s, (addAll ops).getValue c p t s = d.getValue (some t) (some s) "") ∧
    (lastWrite ops (c, p) = none → (∃ m, (addAll ops).getData c p = .error (.keyError m)) ∧
      ∀ t s, ∃ m, (addAll ops).getValue c p t s = .error (.keyError m)) := by
  have key : Dict.get? (addAll ops) (c, p) = lastWrite ops (c, p) := by
    unfold addAll lastWrite
    induction ops using List.reverseRecOn with
    | nil => rfl
    | append_singleton ops w ih =>
      rw [List.foldl_append, List.foldl_cons, List.foldl_nil, DataBase.addData, Dict.get?_set, List.reverse_append,
        List.reverse_singleton, List.singleton_append, List.find?_cons]
      by_cases h : w.1 = (c, p)
      · simp [h]
      · have h' : ¬ (w.1.1, w.1.2) = (c, p) := h
        simp only [h', if_false, h, decide_false]
        exact ih
  constructor
  · intro d hd
    rw [hd] at key
    exact ⟨(get_ok_iff' _ _ _).2 key, fun t s => by simp only [DataBase.getValue, key]⟩
  · intro hd
    rw [hd] at key
    exact ⟨⟨"", by simp only [DataBase.getData, Dict.get, key]⟩, fun t s => ⟨"Index not found.", by simp only [DataBase.getValue, key]⟩⟩

/-- a parameter written twice, with another one in between -/
example : lastWrite [(("A", "p"), Data.const 1), (("B", "p"), .const 2), (("A", "p"), .const 3)] ("A", "p") =
    some (.const 3) := rfl

end Props
end Verif
