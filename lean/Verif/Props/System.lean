import Verif.Props.Data
import Verif.Lemmas.CopyOk
import Verif.Lemmas.CopyEval

/-! # Properties C26 and C46: scenario builder and systems -/

namespace Verif
namespace Props

/-! ## C26: the scenario builder file -/

/-- two lines for the same group and year -/
theorem addYear_ok_iff (z z' : Scenarization) (y s : Int) :
    z.addYear y s = .ok z' ↔ Dict.get? z y = none ∧ z' = Dict.set z y s := by
  unfold Scenarization.addYear
  have := Dict.contains_false_iff (d := z) (k := y)
  cases h : Dict.contains z y with
  | true =>
    have : ¬ Dict.get? z y = none := fun hn => by rw [this.2 hn] at h; cases h
    simp [this]
  | false => simp [this.1 h, eq_comm]

theorem resolveLoop_ok (rs : List BuilderLine) (out zs : Dict String Scenarization)
    (h : resolveScenarizationLoop rs out = .ok zs) :
    (rs.map fun r => (r.name, r.year)).Nodup ∧
    (∀ r ∈ rs, ∀ z, out.get? r.name = some z → Dict.get? z r.year = none) ∧
    (∀ g, (zs.get? g = none ↔ out.get? g = none ∧ ∀ r ∈ rs, r.name ≠ g)) ∧
    (∀ g y s, ((zs.get? g).bind fun z => Dict.get? z y) = some s ↔
      ((out.get? g).bind fun z => Dict.get? z y) = some s ∨ ⟨g, y, s⟩ ∈ rs) := by
  induction rs generalizing out with
  | nil => cases h; simp
  | cons r rs ih =>
    obtain ⟨g0, y0, s0⟩ := r
    have step : ∃ z', resolveScenarizationLoop rs (out.set g0 z') = .ok zs ∧
        (∀ z, out.get? g0 = some z → Dict.get? z y0 = none) ∧
        (∀ y, Dict.get? z' y = if y0 = y then some s0 else (out.get? g0).bind fun z => Dict.get? z y) := by
      simp only [resolveScenarizationLoop] at h
      cases hg : out.get? g0 with
      | none =>
        rw [hg] at h
        refine ⟨_, h, fun z hz => (by cases hz), fun y => ?_⟩
        simp [Dict.get?]
      | some z =>
        rw [hg] at h
        simp only [bind_ok_iff] at h
        obtain ⟨z', hz', h⟩ := h
        obtain ⟨h1, rfl⟩ := (addYear_ok_iff _ _ _ _).1 hz'
        refine ⟨_, h, fun w hw => (by cases hw; exact h1), fun y => ?_⟩
        rw [Dict.get?_set]
        rfl
    obtain ⟨z', hz, hnone, hz'⟩ := step
    obtain ⟨i1, i2, i3, i4⟩ := ih _ hz
    refine ⟨?_, ?_, ?_, ?_⟩
    · rw [List.map_cons, List.nodup_cons]
      refine ⟨?_, i1⟩
      intro hmem
      obtain ⟨r, hr, he⟩ := List.mem_map.1 hmem
      simp only [Prod.mk.injEq] at he
      have := i2 r hr z' (by rw [Dict.get?_set, if_pos he.1.symm])
      rw [hz', he.2] at this
      simp at this
    · intro r hr z hzr
      rcases List.mem_cons.1 hr with rfl | hr
      · exact hnone z hzr
      · by_cases hname : g0 = r.name
        · have := i2 r hr z' (by rw [Dict.get?_set, if_pos hname])
          rw [hz'] at this
          split_ifs at this
          rw [hname, hzr] at this
          exact this
        · exact i2 r hr z (by rw [Dict.get?_set, if_neg hname]; exact hzr)
    · intro g
      rw [i3 g, Dict.get?_set]
      by_cases hg : g0 = g
      · simp [hg]
      · simp [hg]
    · intro g y s
      rw [i4 g y s, Dict.get?_set]
      by_cases hg : g0 = g
      · subst hg
        simp only [if_true, Option.bind_some, hz', List.mem_cons, BuilderLine.mk.injEq, true_and]
        by_cases hy : y0 = y
        · subst hy
          have hn : ((out.get? g0).bind fun z => Dict.get? z y0) = none := by
            cases hg : out.get? g0 with
            | none => rfl
            | some z => exact hnone z hg
          simp [hn, eq_comm]
        · simp [hy, Ne.symm hy]
      · simp only [hg, if_false, List.mem_cons, BuilderLine.mk.injEq, Ne.symm hg, false_and, false_or]

/-- C26, scenario builder: a builder file is accepted exactly when no (group, year) pair appears twice, otherwise it is
refused with `ValueError`; then the groups are those of the file and each year of a group has the scenario of its line. -/
theorem c26_builder (rows : List BuilderLine) :
    ((∃ zs, resolveScenarization rows = .ok zs) ↔ (rows.map fun r => (r.name, r.year)).Nodup) ∧
    (∀ x, resolveScenarization rows = .error x → ∃ m, x = .valueError m) ∧
    ∀ zs, resolveScenarization rows = .ok zs →
      (∀ g, (∃ z, zs.get? g = some z) ↔ ∃ r ∈ rows, r.name = g) ∧
      ∀ g y s, ((zs.get? g).bind fun z => Dict.get? z y) = some s ↔ ⟨g, y, s⟩ ∈ rows := by
  have err : ∀ (rs : List BuilderLine) (out : Dict String Scenarization) (x : Err),
      resolveScenarizationLoop rs out = .error x → (∃ m, x = .valueError m) ∧
        ¬ ((rs.map fun r => (r.name, r.year)).Nodup ∧ ∀ r ∈ rs, ∀ z, out.get? r.name = some z → Dict.get? z r.year = none) := by
    intro rs
    induction rs with
    | nil => intro out x h; cases h
    | cons r rs ih =>
      intro out x h
      simp only [resolveScenarizationLoop] at h
      cases hg : out.get? r.name with
      | none =>
        rw [hg] at h
        obtain ⟨h1, h2⟩ := ih _ _ h
        refine ⟨h1, fun ⟨hn, ho⟩ => h2 ⟨?_, ?_⟩⟩
        · exact (List.nodup_cons.1 hn).2
        · intro r' hr' z hz
          rw [Dict.get?_set] at hz
          split_ifs at hz with he
          · cases hz
            have hne : r.year ≠ r'.year := fun hy =>
              (List.nodup_cons.1 hn).1 (List.mem_map.2 ⟨r', hr', by simp only [he, hy]⟩)
            simp [Dict.get?, hne]
          · exact ho r' (by simp [hr']) z hz
      | some z =>
        rw [hg] at h
        cases hy : z.addYear r.year r.scenario with
        | error e =>
          simp only [hy, error_bind] at h
          cases h
          unfold Scenarization.addYear at hy
          split_ifs at hy with hc
          cases hy
          refine ⟨⟨_, rfl⟩, fun ⟨_, ho⟩ => ?_⟩
          have := ho r (by simp) z hg
          rw [← Dict.contains_false_iff] at this
          rw [this] at hc
          cases hc
        | ok z' =>
          simp only [hy, ok_bind] at h
          obtain ⟨h1, h2⟩ := ih _ _ h
          refine ⟨h1, fun ⟨hn, ho⟩ => h2 ⟨(List.nodup_cons.1 hn).2, ?_⟩⟩
          intro r' hr' w hw
          obtain ⟨hz, rfl⟩ := (addYear_ok_iff _ _ _ _).1 hy
          rw [Dict.get?_set] at hw
          split_ifs at hw with he
          · cases hw
            have hne : r.year ≠ r'.year := fun hy =>
              (List.nodup_cons.1 hn).1 (List.mem_map.2 ⟨r', hr', by simp only [he, hy]⟩)
            rw [Dict.get?_set, if_neg hne]
            exact ho r' (by simp [hr']) z (by rw [← he]; exact hg)
          · exact ho r' (by simp [hr']) w hw
  refine ⟨⟨?_, ?_⟩, fun x h => (err _ _ _ h).1, ?_⟩
  · rintro ⟨zs, h⟩; exact (resolveLoop_ok _ _ _ h).1
  · intro hn
    cases h : resolveScenarization rows with
    | ok zs => exact ⟨zs, rfl⟩
    | error x => exact absurd ⟨hn, fun r _ z hz => by cases hz⟩ (err _ _ _ h).2
  · intro zs h
    obtain ⟨-, -, h3, h4⟩ := resolveLoop_ok _ _ _ h
    constructor
    · intro g
      have := h3 g
      rw [← Option.ne_none_iff_exists', ne_eq, this]
      simp
    · intro g y s
      rw [h4 g y s]
      simp

/-! ## C26: parameters -/

theorem updateGroup_some (zs : Dict String Scenarization) {g : Option String} (h : hasGroup g)
    (z z' : Option Scenarization) : updateGroup zs g z = updateGroup zs g z' := by
  obtain ⟨n, rfl, hn⟩ := h
  simp [updateGroup, hn]

theorem updateGroup_none (zs : Dict String Scenarization) {g : Option String} (h : ¬ hasGroup g)
    (z : Option Scenarization) : updateGroup zs g z = .ok z := by
  cases g with
  | none => rfl
  | some n =>
    have : n = "" := by by_contra hn; exact h ⟨n, rfl, hn⟩
    simp [updateGroup, this]

theorem addScenarizedParams_keys (load : String → R Frame) (zs : Dict String Scenarization) (cid : String)
    (ps : List InputParam) (z : Option Scenarization) (db db' : DataBase)
    (h : addScenarizedParams load zs cid ps z db = .ok db') (k : String × String)
    (hk : ∀ p ∈ ps, k ≠ (cid, p.id)) : Dict.get? db' k = Dict.get? db k := by
  induction ps generalizing z db with
  | nil => cases h; rfl
  | cons p ps ih =>
    simp only [addScenarizedParams, bind_ok_iff] at h
    obtain ⟨z', _, d, _, h⟩ := h
    rw [ih z' _ h fun q hq => hk q (by simp [hq]), DataBase.addData, Dict.get?_set_ne]
    exact fun he => hk p (by simp) he.symm

theorem addScenarizedParams_param (load : String → R Frame) (zs : Dict String Scenarization) (cid : String)
    (pre : List InputParam) (p : InputParam) (post : List InputParam) (z : Option Scenarization) (db db' : DataBase)
    (h : addScenarizedParams load zs cid (pre ++ p :: post) z db = .ok db')
    (hg : hasGroup p.scenarioGroup ∨ ∀ q ∈ pre, ¬ hasGroup q.scenarioGroup) (hlast : ∀ q ∈ post, q.id ≠ p.id) :
    ∃ z' d, updateGroup zs p.scenarioGroup z = .ok z' ∧ buildData load p z' = .ok d ∧
      Dict.get? db' (cid, p.id) = some d := by
  induction pre generalizing z db with
  | nil =>
    simp only [List.nil_append, addScenarizedParams, bind_ok_iff] at h
    obtain ⟨z', hz, d, hd, h⟩ := h
    refine ⟨z', d, hz, hd, ?_⟩
    rw [addScenarizedParams_keys load zs cid post z' _ _ h _ fun q hq he => hlast q hq (Prod.mk.inj he).2.symm]
    exact Dict.get?_set_self _ _ _
  | cons q pre ih =>
    simp only [List.cons_append, addScenarizedParams, bind_ok_iff] at h
    obtain ⟨z1, hz1, d, _, h⟩ := h
    obtain ⟨z', d', hz', hd', hget⟩ := ih z1 _ h (hg.imp id fun hp x hx => hp x (by simp [hx]))
    refine ⟨z', d', ?_, hd', hget⟩
    rcases hg with hg | hg
    · rw [updateGroup_some zs hg z z1]; exact hz'
    · rw [updateGroup_none zs (hg q (by simp))] at hz1
      cases hz1
      exact hz'

/-- **C26 (partial).** In a data base built with a scenario builder, the data of a parameter of a component are those
described by its declaration, with the scenarization of its own group if it has one, else of its component's group, else
none; this group is one of the builder's.  Hypothesis: no parameter declared before it in the same component has a group
of its own, unless it has one.  Missing: the other case and the nodes, for which it is false (next theorems).
(Components and parameters are distinct, so that no later declaration replaces this one.) -/
theorem c26_parameters_partial (load : String → R Frame) (inp : InputSystem) (rows : List BuilderLine) (db : DataBase)
    (h : buildScenarizedDataBase load inp rows = .ok db)
    (hu : (inp.components.flatMap fun c => c.parameters.map fun p => (c.id, p.id)).Nodup)
    (c : InputComponent) (hc : c ∈ inp.components) (pre : List InputParam) (p : InputParam) (post : List InputParam)
    (hp : c.parameters = pre ++ p :: post)
    (hg : hasGroup p.scenarioGroup ∨ ∀ q ∈ pre, ¬ hasGroup q.scenarioGroup) :
    ∃ zs d, resolveScenarization rows = .ok zs ∧ db.getData c.id p.id = .ok d ∧
      buildData load p (expectedScenarization zs c p) = .ok d ∧
      (hasGroup (paramGroup c p) → ∃ z, expectedScenarization zs c p = some z) := by
  simp only [buildScenarizedDataBase, bind_ok_iff] at h
  obtain ⟨zs, hzs, h⟩ := h
  obtain ⟨preC, postC, hsplit⟩ := List.append_of_mem hc
  rw [hsplit] at h hu
  -- keys written by the later components
  have hkeys : ∀ (cs : List InputComponent) (db db' : DataBase) (k : String × String),
      addScenarizedComponents load zs cs db = .ok db' → (∀ c ∈ cs, ∀ p ∈ c.parameters, k ≠ (c.id, p.id)) →
      Dict.get? db' k = Dict.get? db k := by
    intro cs
    induction cs with
    | nil => intro db db' k h _; cases h; rfl
    | cons c cs ih =>
      intro db db' k h hk
      simp only [addScenarizedComponents, bind_ok_iff] at h
      obtain ⟨z, _, db1, h1, h2⟩ := h
      rw [ih db1 db' k h2 fun c hc => hk c (by simp [hc])]
      exact addScenarizedParams_keys load zs c.id _ z db db1 h1 k (hk c (by simp))
  have hskip : ∀ (cs : List InputComponent) (db₀ : DataBase), addScenarizedComponents load zs (cs ++ c :: postC) db₀ = .ok db →
      ∃ db1, addScenarizedComponents load zs (c :: postC) db1 = .ok db := by
    intro cs
    induction cs with
    | nil => intro db h; exact ⟨db, h⟩
    | cons c cs ih =>
      intro db h
      simp only [List.cons_append, addScenarizedComponents, bind_ok_iff] at h
      obtain ⟨z, _, db1, _, h2⟩ := h
      exact ih db1 h2
  obtain ⟨db1, h1⟩ := hskip preC [] h
  simp only [addScenarizedComponents, bind_ok_iff] at h1
  obtain ⟨z, hz, db2, h2, h3⟩ := h1
  rw [List.flatMap_append, List.flatMap_cons, List.nodup_append] at hu
  obtain ⟨-, hu, -⟩ := hu
  rw [List.nodup_append] at hu
  obtain ⟨hu1, -, hu2⟩ := hu
  have hlast : ∀ q ∈ post, q.id ≠ p.id := by
    intro q hq he
    rw [hp, List.map_append, List.map_cons, List.nodup_append, List.nodup_cons] at hu1
    exact hu1.2.1.1 (List.mem_map.2 ⟨q, hq, by rw [he]⟩)
  rw [hp] at h2
  obtain ⟨z', d, hz', hd, hget⟩ := addScenarizedParams_param load zs c.id pre p post z db1 db2 h2 hg hlast
  have hfin : Dict.get? db (c.id, p.id) = some d := by
    rw [hkeys postC db2 db _ h3, hget]
    intro c' hc' p' hp' he
    refine hu2 (c.id, p.id) (List.mem_map.2 ⟨p, by simp [hp], rfl⟩) (c.id, p.id) ?_ rfl
    exact List.mem_flatMap.2 ⟨c', hc', List.mem_map.2 ⟨p', hp', he.symm⟩⟩
  -- the scenarization used is the expected one
  have upd : ∀ (g : Option String) (w w' : Option Scenarization), updateGroup zs g w = .ok w' →
      (hasGroup g → ∃ z, w' = some z ∧ ∀ n, g = some n → zs.get? n = some z) ∧ (¬ hasGroup g → w' = w) := by
    intro g w w' h
    constructor
    · rintro ⟨n, rfl, hn⟩
      simp only [updateGroup, hn, if_false, bind_ok_iff, Except.ok.injEq] at h
      obtain ⟨z, hz, rfl⟩ := h
      exact ⟨z, rfl, fun m hm => by cases hm; exact (get_ok_iff' _ _ _).1 hz⟩
    · intro hn
      rw [updateGroup_none zs hn] at h
      exact (Except.ok.inj h).symm
  have hgroup : ∀ g : Option String, hasGroup g ↔ ¬ (g = none ∨ g = some "") := by
    intro g
    cases g with
    | none => simp [hasGroup]
    | some n => simp [hasGroup]
  have hexp : z' = expectedScenarization zs c p ∧ (hasGroup (paramGroup c p) → ∃ z, expectedScenarization zs c p = some z) := by
    by_cases hpg : hasGroup p.scenarioGroup
    · have hpar : paramGroup c p = p.scenarioGroup := by
        unfold paramGroup; rw [if_neg ((hgroup _).1 hpg)]
      obtain ⟨zz, rfl, hzz⟩ := (upd _ _ _ hz').1 hpg
      obtain ⟨n, hn, hne⟩ := hpg
      have : expectedScenarization zs c p = some zz := by
        unfold expectedScenarization
        rw [hpar, hn]
        simp [hne, hzz n hn]
      exact ⟨this.symm, fun _ => ⟨zz, this⟩⟩
    · have hpar : paramGroup c p = c.scenarioGroup := by
        unfold paramGroup; rw [if_pos (by by_contra hx; exact hpg ((hgroup _).2 hx))]
      have hzz := (upd _ _ _ hz').2 hpg
      subst hzz
      by_cases hcg : hasGroup c.scenarioGroup
      · obtain ⟨zz, rfl, hzz⟩ := (upd _ _ _ hz).1 hcg
        obtain ⟨n, hn, hne⟩ := hcg
        have : expectedScenarization zs c p = some zz := by
          unfold expectedScenarization
          rw [hpar, hn]
          simp [hne, hzz n hn]
        exact ⟨this.symm, fun _ => ⟨zz, this⟩⟩
      · have hzz := (upd _ _ _ hz).2 hcg
        subst hzz
        have : expectedScenarization zs c p = none := by
          unfold expectedScenarization
          rw [hpar]
          cases hcs : c.scenarioGroup with
          | none => rfl
          | some n =>
            have : n = "" := by by_contra hn; exact hcg ⟨n, hcs, hn⟩
            simp [this]
        exact ⟨this.symm, fun hh => absurd (hpar ▸ hh) hcg⟩
  exact ⟨zs, d, hzs, (get_ok_iff' _ _ _).2 hfin, hexp.1 ▸ hd, hexp.2⟩

/-- **C26** is violated: the group of a parameter leaks to the parameters declared after it.  `q` has no group and neither
has its component, yet its data get the scenarization of the group of `p`. -/
theorem c26_group_leaks : ∃ (load : String → R Frame) (inp : InputSystem) (rows : List BuilderLine) (db : DataBase)
    (c : InputComponent) (q : InputParam) (zs : Dict String Scenarization),
    buildScenarizedDataBase load inp rows = .ok db ∧ c ∈ inp.components ∧ q ∈ c.parameters ∧
    paramGroup c q = none ∧ resolveScenarization rows = .ok zs ∧ expectedScenarization zs c q = none ∧
    ∃ f z, db.getData c.id q.id = .ok (.timeScenarioSeries f (some z)) := by
  let q : InputParam := ⟨"q", true, true, .name "b", none⟩
  let c : InputComponent := ⟨"C", "lib.m", none, [⟨"p", true, true, .name "a", some "g"⟩, q]⟩
  exact ⟨fun _ => .ok ⟨1, [[1]]⟩, { components := [c] }, [⟨"g", 0, 0⟩], _, c, q, [("g", [(0, 0)])], rfl, by simp,
    by simp [c], rfl, rfl, rfl, ⟨1, [[1]]⟩, [(0, 0)], rfl⟩

/-- **C26** is violated: the parameters of nodes are ignored (whereas `build_data_base` reads them). -/
theorem c26_nodes_ignored : ∃ (load : String → R Frame) (inp : InputSystem) (db db' : DataBase) (c : InputComponent)
    (p : InputParam), buildScenarizedDataBase load inp [] = .ok db ∧ buildDataBase load inp = .ok db' ∧ c ∈ inp.nodes ∧
    p ∈ c.parameters ∧ db'.getData c.id p.id = .ok (.const 1) ∧ ∃ m, db.getData c.id p.id = .error (.keyError m) := by
  let p : InputParam := ⟨"p", false, false, .number 1, none⟩
  let c : InputComponent := ⟨"N", "lib.m", none, [p]⟩
  exact ⟨fun _ => .error .indexError, { nodes := [c] }, [], _, c, p, rfl, rfl, by simp, by simp [c], rfl, "", rfl⟩

/-- a component with a group, a parameter without one, then a parameter with its own: both are as expected -/
example : let c : InputComponent := ⟨"C", "lib.m", some "g", [⟨"p", true, true, .name "a", none⟩, ⟨"q", true, true, .name "b", some "h"⟩]⟩
    let db := buildScenarizedDataBase (fun _ => .ok ⟨1, [[1]]⟩) { components := [c] } [⟨"g", 0, 0⟩, ⟨"h", 0, 1⟩, ⟨"g", 1, 1⟩]
    ∃ d, db = .ok d ∧ d.getData "C" "p" = .ok (.timeScenarioSeries ⟨1, [[1]]⟩ (some [(0, 0), (1, 1)])) ∧
      d.getData "C" "q" = .ok (.timeScenarioSeries ⟨1, [[1]]⟩ (some [(0, 1)])) :=
  ⟨_, rfl, rfl, rfl⟩

/-! ## C46: resolved systems -/

theorem splitDots_ne (l : List Char) : splitDots l ≠ [] := by
  induction l with
  | nil => simp [splitDots]
  | cons c cs ih =>
    unfold splitDots
    split_ifs
    · simp
    · cases h : splitDots cs <;> simp

theorem splitDots_one (l w : List Char) : splitDots l = [w] ↔ l = w ∧ '.' ∉ w := by
  induction l generalizing w with
  | nil => simp only [splitDots, List.cons.injEq, and_true]; constructor
           · rintro rfl; simp
           · rintro ⟨rfl, _⟩; rfl
  | cons c cs ih =>
    unfold splitDots
    split_ifs with hc
    · subst hc
      simp only [List.cons.injEq, splitDots_ne, and_false, false_iff]
      rintro ⟨rfl, h⟩; simp at h
    · cases h : splitDots cs with
      | nil => exact absurd h (splitDots_ne cs)
      | cons x xs =>
        simp only [List.cons.injEq]
        constructor
        · rintro ⟨rfl, rfl⟩
          obtain ⟨rfl, hx⟩ := (ih x).1 h
          exact ⟨rfl, by simp [Ne.symm hc, hx]⟩
        · rintro ⟨rfl, hw⟩
          have := (ih cs).2 ⟨rfl, fun hm => hw (by simp [hm])⟩
          rw [h] at this
          cases this
          exact ⟨rfl, rfl⟩

theorem splitDots_two (l a b : List Char) : splitDots l = [a, b] ↔ l = a ++ '.' :: b ∧ '.' ∉ a ∧ '.' ∉ b := by
  induction l generalizing a with
  | nil => simp [splitDots]
  | cons c cs ih =>
    unfold splitDots
    split_ifs with hc
    · subst hc
      simp only [List.cons.injEq, splitDots_one]
      constructor
      · rintro ⟨rfl, rfl, hb⟩; simp [hb]
      · rintro ⟨h, ha, hb⟩
        cases a with
        | nil => simp at h; exact ⟨rfl, h, hb⟩
        | cons x a => simp at h; rw [← h.1] at ha; simp at ha
    · cases h : splitDots cs with
      | nil => exact absurd h (splitDots_ne cs)
      | cons x xs =>
        simp only [List.cons.injEq]
        constructor
        · rintro ⟨rfl, rfl⟩
          obtain ⟨rfl, hx, hb⟩ := (ih x).1 h
          exact ⟨rfl, by simp [Ne.symm hc, hx], hb⟩
        · rintro ⟨hl, ha, hb⟩
          cases a with
          | nil => simp at hl; exact absurd hl.1 hc
          | cons y a =>
            simp only [List.cons_append, List.cons.injEq] at hl
            obtain ⟨rfl, rfl⟩ := hl
            have := (ih a).2 ⟨rfl, fun hm => ha (by simp [hm]), hb⟩
            rw [h] at this
            cases this
            exact ⟨rfl, rfl⟩

theorem resolveComponent_ok_iff (libs : Dict String Library) (c : InputComponent) (k : Component) :
    resolveComponent libs c = .ok k ↔ k.id = c.id ∧ Designates libs c.model k.model := by
  unfold resolveComponent
  constructor
  · intro h
    split at h
    · rename_i lib name hs
      simp only [bind_ok_iff, Except.ok.injEq, get_ok_iff'] at h
      obtain ⟨l, hl, m, hm, rfl⟩ := h
      obtain ⟨h1, h2, h3⟩ := (splitDots_two _ _ _).1 hs
      refine ⟨rfl, String.ofList lib, String.ofList name, l, ?_, by simpa using h2, by simpa using h3, hl, hm⟩
      apply String.toList_inj.1
      simp [h1]
    · cases h
  · rintro ⟨hid, lib, name, l, hs, h2, h3, hl, hm⟩
    have : splitDots c.model.toList = [lib.toList, name.toList] := by
      rw [splitDots_two]
      refine ⟨?_, h2, h3⟩
      rw [hs]; simp
    rw [this]
    simp only [bind_ok_iff, Except.ok.injEq, get_ok_iff', String.ofList_toList]
    exact ⟨l, hl, k.model, hm, by cases k; simp_all⟩

theorem componentById_some {all : List Component} (nd : (all.map (·.id)).Nodup) (id : String) (c : Component) :
    componentById all id = some c ↔ c ∈ all ∧ c.id = id := by
  unfold componentById
  have hk : (all.map fun c => (c.id, c)).map Prod.fst = all.map (·.id) := by simp
  rw [Dict.ofItems_of_nodup (by rw [hk]; exact nd), Dict.get?_eq_some_iff (by rw [Dict.keys, hk]; exact nd)]
  simp only [List.mem_map, Prod.mk.injEq]
  constructor
  · rintro ⟨x, hx, rfl, rfl⟩; exact ⟨hx, rfl⟩
  · rintro ⟨hx, rfl⟩; exact ⟨c, hx, rfl, rfl⟩

theorem connectAll_ok (cs : List PortsConnection) (n : Network)
    (h : ∀ c ∈ cs, PortsConnection.make c.port1 c.port2 = .ok c) :
    connectAll cs n = .ok { n with connections := n.connections ++ cs } := by
  induction cs generalizing n with
  | nil => simp [connectAll]
  | cons c cs ih =>
    simp only [connectAll, Network.connect, h c (by simp), ok_bind]
    rw [ih _ fun c hc => h c (by simp [hc])]
    simp

theorem make_ports {r1 r2 : PortRef} {c : PortsConnection} (h : PortsConnection.make r1 r2 = .ok c) :
    c.port1 = r1 ∧ c.port2 = r2 := by
  unfold PortsConnection.make at h
  split at h
  · split_ifs at h
    simp only [bind_ok_iff, Except.ok.injEq] at h
    obtain ⟨_, _, rfl⟩ := h
    exact ⟨rfl, rfl⟩
  · cases h

theorem addNodes_eq (cs : List Component) (n : Network) (h : (n.nodes.keys ++ cs.map (·.id)).Nodup) :
    cs.foldl (fun n c => n.addNode c) n = { n with nodes := n.nodes ++ cs.map fun c => (c.id, c) } := by
  have : ∀ (cs : List Component) (n : Network), cs.foldl (fun n c => n.addNode c) n =
      { n with nodes := (cs.map fun c => (c.id, c)).foldl (fun d kv => Dict.set d kv.1 kv.2) n.nodes } := by
    intro cs
    induction cs with
    | nil => intro n; rfl
    | cons c cs ih => intro n; rw [List.foldl_cons, ih]; rfl
  rw [this, Dict.foldl_set_of_nodup]
  simpa [Function.comp_def] using h

theorem addComps_eq (cs : List Component) (n : Network) (h : (n.components.keys ++ cs.map (·.id)).Nodup) :
    cs.foldl (fun n c => n.addComponent c) n = { n with components := n.components ++ cs.map fun c => (c.id, c) } := by
  have : ∀ (cs : List Component) (n : Network), cs.foldl (fun n c => n.addComponent c) n =
      { n with components := (cs.map fun c => (c.id, c)).foldl (fun d kv => Dict.set d kv.1 kv.2) n.components } := by
    intro cs
    induction cs with
    | nil => intro n; rfl
    | cons c cs ih => intro n; rw [List.foldl_cons, ih]; rfl
  rw [this, Dict.foldl_set_of_nodup]
  simpa [Function.comp_def] using h

/-- components created from declarations -/
def Declared (libs : Dict String Library) (ic : InputComponent) (c : Component) : Prop :=
  c.id = ic.id ∧ Designates libs ic.model c.model

/-- **C46 (partial), network.** If a system with distinct ids is resolved, then building its network succeeds; the network
has exactly the declared components and nodes, in order, each with the declared model, and exactly the declared
connections, in order, between the components and ports with the declared ids.  Missing: systems in which ids are used
twice, for which it is false (`c46_duplicate_component`). -/
theorem c46_network_partial (libs : Dict String Library) (inp : InputSystem) (sys : System)
    (hd : ((inp.components ++ inp.nodes).map (·.id)).Nodup) (h : resolveSystem inp libs = .ok sys) :
    ∃ n, buildNetwork sys = .ok n ∧
      List.Forall₂ (Declared libs) inp.components n.components.values ∧
      List.Forall₂ (Declared libs) inp.nodes n.nodes.values ∧
      n.components.keys = inp.components.map (·.id) ∧ n.nodes.keys = inp.nodes.map (·.id) ∧
      List.Forall₂ (fun ic c => n.getComponent ic.component1 = .ok c.port1.component ∧ c.port1.portId = ic.port1 ∧
        n.getComponent ic.component2 = .ok c.port2.component ∧ c.port2.portId = ic.port2 ∧
        PortsConnection.make c.port1 c.port2 = .ok c) inp.connections n.connections := by
  simp only [resolveSystem, bind_ok_iff, Except.ok.injEq] at h
  obtain ⟨comps, hc, nodes, hn, cnx, hx, rfl⟩ := h
  have fc := appendAll_ok_iff.1 hc
  have fn := appendAll_ok_iff.1 hn
  have fx := appendAll_ok_iff.1 hx
  have dc : List.Forall₂ (Declared libs) inp.components comps := fc.imp fun a b h => (resolveComponent_ok_iff libs a b).1 h
  have dn : List.Forall₂ (Declared libs) inp.nodes nodes := fn.imp fun a b h => (resolveComponent_ok_iff libs a b).1 h
  have ids : ∀ {l : List InputComponent} {k : List Component}, List.Forall₂ (Declared libs) l k → k.map (·.id) = l.map (·.id) := by
    intro l k h
    induction h with
    | nil => rfl
    | cons h1 _ ih => simp [h1.1, ih]
  have nd : ((comps ++ nodes).map (·.id)).Nodup := by
    rw [List.map_append, ids dc, ids dn, ← List.map_append]; exact hd
  have ndc : (comps.map (·.id)).Nodup := by rw [List.map_append, List.nodup_append] at nd; exact nd.1
  have ndn : (nodes.map (·.id)).Nodup := by rw [List.map_append, List.nodup_append] at nd; exact nd.2.1
  have oc : Dict.ofItems (comps.map fun c => (c.id, c)) = comps.map fun c => (c.id, c) :=
    Dict.ofItems_of_nodup (by simpa [Function.comp_def] using ndc)
  have on : Dict.ofItems (nodes.map fun c => (c.id, c)) = nodes.map fun c => (c.id, c) :=
    Dict.ofItems_of_nodup (by simpa [Function.comp_def] using ndn)
  have fold1 : ∀ (l : List Component) (n : Network), List.foldl (fun n (x : String × Component) => n.addNode ⟨x.2.model, x.1⟩) n
      (l.map fun c => (c.id, c)) = l.foldl (fun n c => n.addNode c) n := by
    intro l
    induction l with
    | nil => intro n; rfl
    | cons c l ih => intro n; simp only [List.map_cons, List.foldl_cons]; rw [ih]
  have hmake : ∀ c ∈ cnx, PortsConnection.make c.port1 c.port2 = .ok c := by
    intro c hcm
    obtain ⟨ic, -, hic⟩ := forall₂_mem_right fx hcm
    unfold resolveConnection at hic
    split at hic
    · obtain ⟨h1, h2⟩ := make_ports hic
      rw [h1, h2]; exact hic
    · cases hic
  let n : Network := ⟨"study", nodes.map fun c => (c.id, c), comps.map fun c => (c.id, c), cnx⟩
  have hb : buildNetwork ⟨Dict.ofItems (comps.map fun c => (c.id, c)), Dict.ofItems (nodes.map fun c => (c.id, c)), cnx⟩ = .ok n := by
    unfold buildNetwork
    dsimp only
    rw [oc, on]
    have hv : Dict.values (comps.map fun c => (c.id, c)) = comps := by simp [Dict.values, Function.comp_def]
    rw [hv]
    rw [show List.foldl (fun n (x : String × Component) => match x with | (id, c) => n.addNode ⟨c.model, id⟩) ({ id := "study" } : Network)
      (nodes.map fun c => (c.id, c)) = nodes.foldl (fun n c => n.addNode c) { id := "study" } from fold1 nodes _]
    rw [addNodes_eq _ _ (by simpa [Dict.keys] using ndn), addComps_eq _ _ (by simpa [Dict.keys] using ndc)]
    rw [connectAll_ok _ _ hmake]
    simp [n]
  have hvc : n.components.values = comps := by simp [n, Dict.values, Function.comp_def]
  have hvn : n.nodes.values = nodes := by simp [n, Dict.values, Function.comp_def]
  refine ⟨n, hb, hvc ▸ dc, hvn ▸ dn, ?_, ?_, ?_⟩
  · rw [← ids dc]; simp [n, Dict.keys, Function.comp_def]
  · rw [← ids dn]; simp [n, Dict.keys, Function.comp_def]
  · have hget : ∀ id c, componentById (comps ++ nodes) id = some c → n.getComponent id = .ok c := by
      intro id c hcb
      obtain ⟨hm, rfl⟩ := (componentById_some nd _ _).1 hcb
      unfold Network.getComponent
      have kc : Dict.keys n.components = comps.map (·.id) := by simp [n, Dict.keys, Function.comp_def]
      have kn : Dict.keys n.nodes = nodes.map (·.id) := by simp [n, Dict.keys, Function.comp_def]
      rcases List.mem_append.1 hm with hm | hm
      · rw [Dict.get?_of_mem (d := n.components) (v := c) (by rw [kc]; exact ndc) (List.mem_map.2 ⟨c, hm, rfl⟩)]
      · have : n.components.get? c.id = none := by
          rw [Dict.get?_eq_none_iff, kc]
          intro hmm
          rw [List.map_append, List.nodup_append] at nd
          exact nd.2.2 _ hmm _ (List.mem_map.2 ⟨c, hm, rfl⟩) rfl
        rw [this]
        exact (get_ok_iff' _ _ _).2 (Dict.get?_of_mem (d := n.nodes) (by rw [kn]; exact ndn) (List.mem_map.2 ⟨c, hm, rfl⟩))
    refine List.Forall₂.imp ?_ fx
    intro ic c hic
    have hic' := hic
    unfold resolveConnection at hic
    split at hic
    · rename_i c1 c2 h1 h2
      obtain ⟨e1, e2⟩ := make_ports hic
      rw [e1, e2]
      exact ⟨hget _ _ h1, rfl, hget _ _ h2, rfl, hic⟩
    · cases hic

/-- **C46**, rejection: a system that uses a model which is not in the libraries, or a connection to an undeclared
component, is refused. -/
theorem c46_unknown_rejected (libs : Dict String Library) (inp : InputSystem) (sys : System) :
    ((∃ c ∈ inp.components ++ inp.nodes, ∀ m, ¬ Designates libs c.model m) → resolveSystem inp libs ≠ .ok sys) ∧
    ((∃ x ∈ inp.connections, ¬ (x.component1 ∈ (inp.components ++ inp.nodes).map (·.id) ∧
        x.component2 ∈ (inp.components ++ inp.nodes).map (·.id))) → resolveSystem inp libs ≠ .ok sys) := by
  constructor
  · rintro ⟨c, hc, hno⟩ h
    simp only [resolveSystem, bind_ok_iff, Except.ok.injEq] at h
    obtain ⟨comps, hc', nodes, hn', -⟩ := h
    rcases List.mem_append.1 hc with hc | hc
    · obtain ⟨k, -, hk⟩ := forall₂_mem_left (appendAll_ok_iff.1 hc') hc
      exact hno _ ((resolveComponent_ok_iff libs c k).1 hk).2
    · obtain ⟨k, -, hk⟩ := forall₂_mem_left (appendAll_ok_iff.1 hn') hc
      exact hno _ ((resolveComponent_ok_iff libs c k).1 hk).2
  · rintro ⟨x, hx, hno⟩ h
    simp only [resolveSystem, bind_ok_iff, Except.ok.injEq] at h
    obtain ⟨comps, hc', nodes, hn', cnx, hx', -⟩ := h
    obtain ⟨k, -, hk⟩ := forall₂_mem_left (appendAll_ok_iff.1 hx') hx
    have hids : ∀ {l : List InputComponent} {k : List Component}, appendAll (resolveComponent libs) l = .ok k →
        k.map (·.id) = l.map (·.id) := by
      intro l k h
      have := appendAll_ok_iff.1 h
      clear h
      induction this with
      | nil => rfl
      | cons h1 _ ih => simp [((resolveComponent_ok_iff libs _ _).1 h1).1, ih]
    have hmem : ∀ id c, componentById (comps ++ nodes) id = some c → id ∈ (inp.components ++ inp.nodes).map (·.id) := by
      intro id c hcb
      rw [List.map_append, ← hids hc', ← hids hn', ← List.map_append]
      have hk : id ∈ Dict.keys (Dict.ofItems ((comps ++ nodes).map fun c => (c.id, c))) := Dict.mem_keys_iff.2 ⟨c, hcb⟩
      have : ∀ (l : List (String × Component)) (d : Dict String Component),
          id ∈ Dict.keys (l.foldl (fun d kv => Dict.set d kv.1 kv.2) d) → id ∈ d.keys ∨ id ∈ l.map Prod.fst := by
        intro l
        induction l with
        | nil => intro d h; exact .inl h
        | cons y l ih =>
          intro d h
          rcases ih _ h with h | h
          · rcases Dict.mem_keys_set.1 h with rfl | h
            · exact .inr (by simp)
            · exact .inl h
          · exact .inr (by simp at h; simp [h])
      rcases this _ _ hk with h | h
      · cases h
      · simpa using h
    unfold resolveConnection at hk
    split at hk
    · rename_i c1 c2 h1 h2
      exact hno ⟨hmem _ _ h1, hmem _ _ h2⟩
    · cases hk

/-- **C46** is violated: of two components declared with the same id, one disappears without an error. -/
theorem c46_duplicate_component : ∃ (libs : Dict String Library) (inp : InputSystem) (sys : System) (n : Network),
    resolveSystem inp libs = .ok sys ∧ buildNetwork sys = .ok n ∧ inp.components.length = 2 ∧ n.components.values.length = 1 := by
  let m : Model := { id := "m" }
  exact ⟨[("lib", { id := "lib", models := [("m", m)] })], { components := [⟨"A", "lib.m", none, []⟩, ⟨"A", "lib.m", none, []⟩] },
    _, _, rfl, rfl, rfl, rfl⟩

/-! ### Data -/

theorem get?_enum (vs : List Num) (t : Int) :
    Dict.get? (Dict.ofItems ((List.range vs.length).zip vs |>.map fun p => (((p.1 : Nat) : Int), p.2))) t = atPos vs t := by
  have hk : (((List.range vs.length).zip vs).map fun p => (((p.1 : Nat) : Int), p.2)).map Prod.fst =
      (List.range vs.length).map fun i => ((i : Nat) : Int) := by
    rw [List.map_map]
    have : (Prod.fst ∘ fun p : Nat × Num => (((p.1 : Nat) : Int), p.2)) = (fun i : Nat => (i : Int)) ∘ Prod.fst := rfl
    rw [this, ← List.map_map, List.map_fst_zip (by simp)]
  have nd : ((((List.range vs.length).zip vs).map fun p => (((p.1 : Nat) : Int), p.2)).map Prod.fst).Nodup := by
    rw [hk]
    exact List.Nodup.map (fun a b h => by simpa using h) List.nodup_range
  rw [Dict.ofItems_of_nodup nd]
  ext v
  rw [Dict.get?_eq_some_iff nd]
  unfold atPos
  simp only [List.mem_map, Prod.mk.injEq, Prod.exists]
  constructor
  · rintro ⟨i, w, hm, rfl, rfl⟩
    rw [List.mem_iff_getElem?] at hm
    obtain ⟨j, hj⟩ := hm
    rw [List.getElem?_zip_eq_some] at hj
    obtain ⟨h1, h2⟩ := hj
    rw [List.getElem?_range] at h1
    · cases h1; simpa using h2
    · rw [List.getElem?_eq_some_iff] at h2; exact h2.1
  · intro h
    split_ifs at h with h0
    refine ⟨t.toNat, v, ?_, by omega, rfl⟩
    rw [List.mem_iff_getElem?]
    refine ⟨t.toNat, ?_⟩
    rw [List.getElem?_zip_eq_some]
    refine ⟨?_, h⟩
    rw [List.getElem?_range]
    exact (List.getElem?_eq_some_iff.1 h).1

/-- data built from a declaration -/
theorem buildData_entry (load : String → R Frame) (hl : ∀ n f, load n = .ok f → f.Rectangular) (p : InputParam) (d : Data)
    (h : buildData load p none = .ok d) :
    d.needsTime = p.timeDependent ∧ d.needsScenario = p.scenarioDependent ∧ d.isTree = false ∧
    ∀ t s node, d.entry t s node = declaredEntry load p t s := by
  unfold buildData at h
  unfold declaredEntry
  cases hv : p.value with
  | number v =>
    rw [hv] at h
    simp only at h
    split_ifs at h with hf
    cases h
    simp only [Bool.or_eq_true, not_or, Bool.not_eq_true] at hf
    exact ⟨hf.1.symm, hf.2.symm, rfl, fun t s node => rfl⟩
  | name n =>
    rw [hv] at h
    simp only [bind_ok_iff] at h
    obtain ⟨f, hf, h⟩ := h
    have hr := hl n f hf
    simp only [hf]
    split_ifs at h with h1 h2 h3
    · cases h
      simp only [Bool.and_eq_true] at h1
      refine ⟨h1.1.symm, h1.2.symm, rfl, fun t s node => ?_⟩
      simp [Data.entry, dataScenario, h1.1, h1.2]
    · simp only [bind_ok_iff, Except.ok.injEq] at h
      obtain ⟨ts, hts, rfl⟩ := h
      have h3 : p.scenarioDependent = false := by simpa [h2] using h1
      refine ⟨h2.symm, h3.symm, rfl, fun t s node => ?_⟩
      unfold Frame.toTimeSeries at hts
      split_ifs at hts with hw
      simp only [bind_ok_iff, Except.ok.injEq] at hts
      obtain ⟨vs, hvs, rfl⟩ := hts
      simp only [Data.entry, h2, h3, if_true, Bool.false_eq_true, if_false]
      rw [get?_enum]
      have fv := appendAll_ok_iff.1 hvs
      unfold atPos
      simp only [le_refl, if_true]
      split_ifs with h0
      · have hlen := fv.length_eq
        cases hx : f.rows[t.toNat]? with
        | none =>
          have : vs[t.toNat]? = none := by
            rw [List.getElem?_eq_none_iff] at hx ⊢; omega
          simp [this]
        | some row =>
          have hi : t.toNat < f.rows.length := (List.getElem?_eq_some_iff.1 hx).1
          have := fv.get hi (by omega)
          have hrow : f.rows[t.toNat] = row := (List.getElem?_eq_some_iff.1 hx).2
          simp only [List.get_eq_getElem, hrow] at this
          rw [List.getElem?_eq_getElem (by omega : t.toNat < vs.length)]
          unfold pyIndex at this
          simp only [lt_irrefl, if_false, Int.toNat_zero] at this
          split at this
          · rename_i x hx'
            cases this
            simp [hx']
          · cases this
      · simp
    · simp only [bind_ok_iff, Except.ok.injEq] at h
      obtain ⟨ts, hts, rfl⟩ := h
      have h2' : p.timeDependent = false := by simpa using h2
      refine ⟨h2'.symm, h3.symm, rfl, fun t s node => ?_⟩
      unfold Frame.toScenarioSeries at hts
      split at hts
      · rename_i row hrow
        cases hts
        simp only [Data.entry, dataScenario, h2', h3, if_true, Bool.false_eq_true, if_false, Option.bind_some]
        rw [← hr row (by simp [hrow]), get?_enum, hrow]
        simp [atPos]
      · cases hts

theorem forall₂_append_left {α β} {R : α → β → Prop} {xs xs' : List α} {ys : List β} (h : List.Forall₂ R (xs ++ xs') ys) :
    ∃ ys1 ys2, List.Forall₂ R xs ys1 ∧ List.Forall₂ R xs' ys2 ∧ ys = ys1 ++ ys2 := by
  induction xs generalizing ys with
  | nil => exact ⟨[], ys, .nil, h, rfl⟩
  | cons x xs ih =>
    cases h with
    | cons h1 h2 =>
      obtain ⟨a, b, h3, h4, rfl⟩ := ih h2
      exact ⟨_ :: a, b, .cons h1 h3, h4, rfl⟩

/-- **C46 (partial), data.** A data base built from a system with distinct (component, parameter) ids has, for each declared
parameter of each component and node, data of the declared kind whose entry at any timestep and scenario is the declared
number, or the value of the declared file at that line (if time dependent) and column (if scenario dependent); and it has
data for nothing else. -/
theorem c46_data_partial (load : String → R Frame) (hl : ∀ n f, load n = .ok f → f.Rectangular) (inp : InputSystem) (db : DataBase)
    (h : buildDataBase load inp = .ok db)
    (hu : ((inp.components ++ inp.nodes).flatMap fun c => c.parameters.map fun p => (c.id, p.id)).Nodup) :
    (∀ c ∈ inp.components ++ inp.nodes, ∀ p ∈ c.parameters, ∃ d, db.getData c.id p.id = .ok d ∧
      d.needsTime = p.timeDependent ∧ d.needsScenario = p.scenarioDependent ∧ d.isTree = false ∧
      ∀ t s node, d.entry t s node = declaredEntry load p t s) ∧
    Dict.keys db = (inp.components ++ inp.nodes).flatMap fun c => c.parameters.map fun p => (c.id, p.id) := by
  -- the sequence of writes
  have hp : ∀ (cid : String) (ps : List InputParam) (db db' : DataBase), addParams load cid ps db = .ok db' →
      ∃ ds, List.Forall₂ (fun p d => buildData load p none = .ok d) ps ds ∧
        db' = ((ps.map fun p => (cid, p.id)).zip ds).foldl (fun d kv => Dict.set d kv.1 kv.2) db := by
    intro cid ps
    induction ps with
    | nil => intro db db' h; cases h; exact ⟨[], .nil, rfl⟩
    | cons p ps ih =>
      intro db db' h
      simp only [addParams, bind_ok_iff] at h
      obtain ⟨d, hd, h⟩ := h
      obtain ⟨ds, h1, h2⟩ := ih _ _ h
      exact ⟨d :: ds, .cons hd h1, by simpa [DataBase.addData] using h2⟩
  have hc : ∀ (cs : List InputComponent) (db db' : DataBase), addComponents load cs db = .ok db' →
      ∃ ds, List.Forall₂ (fun p d => buildData load p none = .ok d) (cs.flatMap (·.parameters)) ds ∧
        db' = ((cs.flatMap fun c => c.parameters.map fun p => (c.id, p.id)).zip ds).foldl (fun d kv => Dict.set d kv.1 kv.2) db := by
    intro cs
    induction cs with
    | nil => intro db db' h; cases h; exact ⟨[], .nil, rfl⟩
    | cons c cs ih =>
      intro db db' h
      simp only [addComponents, bind_ok_iff] at h
      obtain ⟨db1, h1, h2⟩ := h
      obtain ⟨ds1, f1, rfl⟩ := hp _ _ _ _ h1
      obtain ⟨ds2, f2, rfl⟩ := ih _ _ h2
      refine ⟨ds1 ++ ds2, by simpa using List.rel_append f1 f2, ?_⟩
      rw [List.flatMap_cons, List.zip_append (by simpa using f1.length_eq), List.foldl_append]
  obtain ⟨ds, hf, rfl⟩ := hc _ _ _ h
  set ks := (inp.components ++ inp.nodes).flatMap fun c => c.parameters.map fun p => (c.id, p.id) with hks
  have hlen : ks.length = ds.length := by
    rw [← hf.length_eq, hks]
    simp [List.length_flatMap]
  have hfst : (ks.zip ds).map Prod.fst = ks := List.map_fst_zip (by omega)
  have hdb : (ks.zip ds).foldl (fun d kv => Dict.set d kv.1 kv.2) ([] : DataBase) = ks.zip ds :=
    Dict.ofItems_of_nodup (by rw [hfst]; exact hu)
  rw [hdb]
  refine ⟨?_, hfst⟩
  intro c hcm p hpm
  -- position of the parameter in the flattened list
  have hzip : ∀ (cs : List InputComponent) (ds : List Data),
      List.Forall₂ (fun p d => buildData load p none = .ok d) (cs.flatMap (·.parameters)) ds → c ∈ cs →
      ∃ d, buildData load p none = .ok d ∧ ((c.id, p.id), d) ∈ (cs.flatMap fun c => c.parameters.map fun p => (c.id, p.id)).zip ds := by
    have hz1 : ∀ (cid : String) (ps : List InputParam) (ds : List Data),
        List.Forall₂ (fun p d => buildData load p none = .ok d) ps ds → p ∈ ps →
        ∃ d, buildData load p none = .ok d ∧ ((cid, p.id), d) ∈ (ps.map fun p => (cid, p.id)).zip ds := by
      intro cid ps ds hf hm
      induction hf with
      | nil => cases hm
      | cons h1 _ ih =>
        rcases List.mem_cons.1 hm with rfl | hm
        · exact ⟨_, h1, by simp⟩
        · obtain ⟨d, h2, h3⟩ := ih hm
          exact ⟨d, h2, by simp only [List.map_cons, List.zip_cons_cons, List.mem_cons]; exact .inr h3⟩
    intro cs
    induction cs with
    | nil => intro ds _ h; cases h
    | cons c' cs ih =>
      intro ds hf hm
      rw [List.flatMap_cons] at hf
      obtain ⟨ds1, ds2, f1, f2, rfl⟩ := forall₂_append_left hf
      rw [List.flatMap_cons, List.zip_append (by simpa using f1.length_eq)]
      rcases List.mem_cons.1 hm with rfl | hm
      · obtain ⟨d, h1, h2⟩ := hz1 c.id _ _ f1 hpm
        exact ⟨d, h1, List.mem_append_left _ h2⟩
      · obtain ⟨d, h1, h2⟩ := ih _ f2 hm
        exact ⟨d, h1, List.mem_append_right _ h2⟩
  obtain ⟨d, hd, hm⟩ := hzip _ _ hf hcm
  refine ⟨d, (get_ok_iff' _ _ _).2 (Dict.get?_of_mem (by rw [Dict.keys, hfst]; exact hu) hm), ?_⟩
  exact buildData_entry load hl p d hd

/-- a system with a component, a node and a connection between them: the hypotheses of the three theorems hold -/
example : let pt : PortType := ⟨"flow", ["f"]⟩
    let gen : Model := { id := "gen", ports := [("out", ⟨pt, "out"⟩)], portFieldsDefinitions := [(⟨"out", "f"⟩, ⟨⟨"out", "f"⟩, .lit 1⟩)] }
    let bus : Model := { id := "bus", ports := [("in", ⟨pt, "in"⟩)] }
    let libs : Dict String Library := [("lib", { id := "lib", models := [("gen", gen), ("bus", bus)] })]
    let inp : InputSystem := ⟨[⟨"N", "lib.bus", none, []⟩],
      [⟨"G", "lib.gen", none, [⟨"p", false, false, .number 2, none⟩, ⟨"q", true, false, .name "file", none⟩]⟩], [⟨"G", "out", "N", "in"⟩]⟩
    (∃ sys, resolveSystem inp libs = .ok sys) ∧ ((inp.components ++ inp.nodes).map (·.id)).Nodup ∧
    ∃ db, buildDataBase (fun _ => .ok ⟨1, [[5], [7]]⟩) inp = .ok db ∧ db.getData "G" "p" = .ok (.const 2) ∧
      db.getData "G" "q" = .ok (.timeSeries [(0, 5), (1, 7)]) :=
  ⟨⟨_, rfl⟩, by decide, _, rfl, rfl, rfl⟩

end Props
end Verif
