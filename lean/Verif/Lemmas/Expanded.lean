import Verif.Lemmas.Instantiated

/-! Expressions that fit are evaluated and expanded without error. -/

namespace Verif
open Expr OptCtx

theorem appendAll_of {α β} {f : α → R β} {Q : α → β → Prop} {xs : List α} (h : ∀ x ∈ xs, ∃ y, f x = .ok y ∧ Q x y) :
    ∃ ys, appendAll f xs = .ok ys ∧ List.Forall₂ Q xs ys := by
  induction xs with
  | nil => exact ⟨[], rfl, .nil⟩
  | cons x xs ih =>
    obtain ⟨y, h1, h2⟩ := h x (by simp)
    obtain ⟨ys, h3, h4⟩ := ih fun x hx => h x (by simp [hx])
    exact ⟨y :: ys, by simp [h1, h3], .cons h2 h4⟩

theorem floor_cast_int (n : Int) : (n : ℚ).floor = n := Rat.floor_intCast n

/-! ### Values of parameters -/

theorem absoluteTimestep_some {x : OptCtx} (hx : x.DataOk) (t : Int) :
    x.blockTime t ∈ x.timesteps ∧ x.absoluteTimestep (some t) = .ok (some (x.blockTime t)) := by
  have hT : 0 < x.T := T_pos hx
  have h0 : 0 ≤ t % (x.T : Int) := Int.emod_nonneg _ (by omega)
  have h1 : t % (x.T : Int) < x.T := Int.emod_lt_of_pos _ (by omega)
  have hlt : (t % (x.T : Int)).toNat < x.timesteps.length := by
    show (t % (x.T : Int)).toNat < x.T
    omega
  have hget : x.timesteps[(t % (x.T : Int)).toNat]? = some (x.blockTime t) := by
    simp [OptCtx.blockTime, List.getD, List.getElem?_eq_getElem hlt]
  refine ⟨List.mem_of_getElem? hget, ?_⟩
  simp only [OptCtx.absoluteTimestep, actualTimestep_eq hx.cycle (by omega) t, ok_bind]
  simp only [pyIndex, not_lt.2 h0, if_false, hget, ok_bind]

theorem param_value {x : OptCtx} (hx : x.Buildable) {c : Component} (hc : c ∈ x.network.allComponents) {n : String}
    {p : Parameter} (hp : c.model.parameters.get? n = some p) {t? s? : Option Int} {t s : Int}
    (ht : t? = some t ∨ (t? = none ∧ p.structure_.time = false)) (hs : s? = some s ∨ (s? = none ∧ p.structure_.scenario = false))
    (h0 : 0 ≤ s) (h1 : s < x.scenarios) : x.parameterValue t? s? c.id n = .ok (.fin (mden x.zero (cpar c.id n) t s)) := by
  obtain ⟨d, hd, hreq, hval⟩ := hx.complete c hc n p hp
  obtain ⟨hmem, habs⟩ := absoluteTimestep_some hx.data t
  obtain ⟨v, hv⟩ := hval _ hmem s.toNat (by omega)
  rw [Int.toNat_of_nonneg h0] at hv
  have hget : x.database.getData c.id n = .ok d := by
    unfold DataBase.getData
    exact (Props.get_ok_iff' _ _ _).2 hd
  have hok : x.parameterValue t? s? c.id n = .ok v := by
    have ha : x.absoluteTimestep t? = .ok (t?.map x.blockTime) := by
      rcases ht with rfl | ⟨rfl, -⟩
      · exact habs
      · rfl
    simp only [OptCtx.parameterValue, hget, ha, ok_bind]
    have h2 : d.getValue (t?.map x.blockTime) (atS p.structure_ s) x.treeNode = .ok v := by
      by_cases hi : p.structure_.time = true
      · rcases ht with rfl | ⟨-, hi'⟩
        · simpa [atT, hi] using hv
        · rw [hi] at hi'; cases hi'
      · simp only [atT, hi, if_false, Bool.false_eq_true] at hv
        exact getValue_time_mono d _ _ _ hv _
    by_cases hi : p.structure_.scenario = true
    · rcases hs with rfl | ⟨-, hi'⟩
      · simpa [atS, hi] using h2
      · rw [hi] at hi'; cases hi'
    · simp only [atS, hi, if_false, Bool.false_eq_true] at h2
      exact getValue_scenario_mono d _ _ _ h2 _
  rw [hok]
  have := parameterValue_reading hx.data hok t s (ht.elim .inr fun h => .inl h.1) (hs.elim .inr fun h => .inl h.1)
  rw [this]
  rfl

theorem structures_par {x : OptCtx} (hn : x.NetworkOk) {c : Component} (hc : c ∈ x.network.allComponents) {n : String}
    {p : Parameter} (hp : c.model.parameters.get? n = some p) :
    x.structures.cpar c.id n = .ok p.structure_ ∧ x.parIdx c.id n = p.structure_ := by
  have h1 := Props.getComponent_of_mem hn hc
  have h2 : c.model.parameters.get n = .ok p := (Props.get_ok_iff' _ _ _).2 hp
  constructor
  · simp [OptCtx.structures, h1, h2]
  · simp [OptCtx.parIdx, h1, hp]

theorem variable_get {x : OptCtx} (hn : x.NetworkOk) {c : Component} (hc : c ∈ x.network.allComponents)
    {v : Variable} (hv : v ∈ x.strategy.getVariables c.model) : c.model.variables_.get? v.name = some v := by
  have hm := (List.mem_filter.1 hv).1
  obtain ⟨⟨k, v'⟩, hkv, rfl⟩ := List.mem_map.1 hm
  rw [hn.vars c hc k v' hkv]
  exact Dict.get?_of_mem (hn.varsNodup c hc) hkv

theorem structures_var {x : OptCtx} (hn : x.NetworkOk) {c : Component} (hc : c ∈ x.network.allComponents)
    {v : Variable} (hv : v ∈ x.strategy.getVariables c.model) :
    x.structures.cvar c.id v.name = .ok v.structure_ ∧ x.varIdx c.id v.name = v.structure_ := by
  have h1 := Props.getComponent_of_mem hn hc
  have h3 := variable_get hn hc hv
  have h2 : c.model.variables_.get v.name = .ok v := (Props.get_ok_iff' _ _ _).2 h3
  constructor
  · simp [OptCtx.structures, h1, h2]
  · simp [OptCtx.varIdx, h1, h3]

/-! ### Evaluation -/

theorem evaluate_arith {x : OptCtx} {vary : Idx} {p : ValueProvider} {t s : Int} (h0 : 0 ≤ s) (h1 : s < x.scenarios)
    (hp : ∀ c n, x.CPar vary (cpar c n) → p.cpar c n = .ok (.fin (mden x.zero (cpar c n) t s))) (e : Expr)
    (he : Fits (x.CPar vary) (fun _ => False) x.zero e) (hf : ∀ y ∈ e.subs, y.isTimeFixing = false)
    (hs : ∀ y ∈ e.subs, y.isScen = false) : evaluate p e = .ok (.fin (mden x.zero e t s)) := by
  induction e using Expr.ind with
  | lit v =>
    cases v with
    | fin q => rfl
    | _ => cases he
  | neg e ih =>
    simp only [subs, List.forall_mem_cons] at hf hs
    simp only [evaluate, ih he hf.2 hs.2, ok_bind]
    rfl
  | add es ih =>
    have hall : ∃ vs, appendAll (evaluate p) es = .ok vs ∧ List.Forall₂ (fun e v => v = .fin (mden x.zero e t s)) es vs := by
      refine appendAll_of fun e hm => ⟨_, ih e hm (fitsAll_iff.1 he.2 e hm) (fun y hy => hf y (mem_subs_add.2 (.inr ⟨e, hm, hy⟩)))
        (fun y hy => hs y (mem_subs_add.2 (.inr ⟨e, hm, hy⟩))), rfl⟩
    obtain ⟨vs, hv, hfa⟩ := hall
    simp only [evaluate, evaluateList_eq, hv, ok_bind]
    have hne := he.1
    rw [mden_add]
    clear hv ih he hf hs
    cases hfa with
    | nil => exact absurd rfl hne
    | @cons e v es vs hv hfa =>
      subst hv
      simp only [foldAdd, List.map_cons, List.sum_cons]
      congr 1
      generalize mden x.zero e t s = q
      clear hne
      induction hfa generalizing q with
      | nil => simp
      | @cons e v es vs hv hfa ih =>
        subst hv
        simp only [List.foldl_cons, List.map_cons, List.sum_cons]
        rw [show (Num.fin q + Num.fin (mden x.zero e t s)) = Num.fin (q + mden x.zero e t s) from rfl, ih]
        congr 1
        ring
  | mul l r ihl ihr =>
    simp only [subs, List.forall_mem_cons, List.forall_mem_append] at hf hs
    simp only [evaluate, ihl he.1 hf.2.1 hs.2.1, ihr he.2.1 hf.2.2 hs.2.2, ok_bind]
    rfl
  | div l r ihl ihr =>
    simp only [subs, List.forall_mem_cons, List.forall_mem_append] at hf hs
    simp only [evaluate, ihl he.1 hf.2.1 hs.2.1, ihr he.2.1 hf.2.2 hs.2.2, ok_bind]
    have := he.2.2.2 t s h0 h1
    simp only [Num.div, this, if_false]
    rfl
  | cpar c n => exact hp c n he
  | shift e k => exact absurd he.2.1 id
  | evalT e k => exact absurd he.2.1 id
  | tsum e a b => exact absurd he.2.1 id
  | allsum e => exact absurd (hf _ (mem_subs_self _)) (by simp [isTimeFixing])
  | scen e o => exact absurd (hs _ (mem_subs_self _)) (by simp [isScen])
  | _ => exact absurd he id

theorem expressionValue_arith {x : OptCtx} (hx : x.Buildable) {vary : Idx} {e : Expr} (he : x.CArith vary e)
    {t? s? : Option Int} {t s : Int} (ht : t? = some t ∨ (t? = none ∧ vary.time = false))
    (hs : s? = some s ∨ (s? = none ∧ vary.scenario = false)) (h0 : 0 ≤ s) (h1 : s < x.scenarios) :
    x.expressionValue e t? s? = .ok (.fin (mden x.zero e t s)) := by
  refine evaluate_arith h0 h1 ?_ e he.fits he.fixing he.scen
  rintro cid n ⟨c, hc, rfl, p, hp, h2, h3⟩
  refine param_value hx hc hp (ht.imp id fun h => ⟨h.1, ?_⟩) (hs.imp id fun h => ⟨h.1, ?_⟩) h0 h1
  · cases hpt : p.structure_.time with
    | false => rfl
    | true => rw [h2 hpt] at h; exact absurd h.2 (by simp)
  · cases hpt : p.structure_.scenario with
    | false => rfl
    | true => rw [h3 hpt] at h; exact absurd h.2 (by simp)

theorem timeBound_ok {x : OptCtx} (hx : x.Buildable) {k : Expr} (hk : x.CAmt k) :
    ∃ n, x.evaluateTimeBound k = .ok n ∧ mden x.zero k 0 0 = n := by
  obtain ⟨n, hn⟩ := hk.whole
  refine ⟨n, ?_, hn⟩
  have hS : (0 : Int) < x.scenarios := by exact_mod_cast hx.scenarios
  have := evaluate_arith (p := x.constantProvider) (t := 0) (s := 0) le_rfl hS (x := x) (vary := ⟨false, false⟩) ?_ k hk.arith.fits
    hk.arith.fixing hk.arith.scen
  · rw [hn] at this
    simp only [OptCtx.evaluateTimeBound, this, ok_bind]
    simp [floatToInt]
  · rintro cid n ⟨c, hc, rfl, p, hp, h2, h3⟩
    have ht : p.structure_.time = false := by
      cases hpt : p.structure_.time with
      | false => rfl
      | true => exact absurd (h2 hpt) (by simp)
    have hs : p.structure_.scenario = false := by
      cases hpt : p.structure_.scenario with
      | false => rfl
      | true => exact absurd (h3 hpt) (by simp)
    simp only [OptCtx.constantProvider, (structures_par hx.network hc hp).1, ok_bind, ht, hs, Bool.or_self, Bool.false_eq_true, if_false]
    exact param_value hx hc hp (.inr ⟨rfl, ht⟩) (.inr ⟨rfl, hs⟩) le_rfl hS

/-! ### Expansion -/

namespace OptCtx

/-- the indices of a symbol of the problem are those of its declaration -/
structure Indexed (x : OptCtx) (i : Idx) (ti : TIdx) (si : SIdx) : Prop where
  time : i.time = true ↔ ti ≠ .none
  scenario : i.scenario = true ↔ si ≠ .none
  range : ∀ w, si = .one w → 0 ≤ w ∧ w < x.scenarios

/-- symbols of the problem -/
def PLeaf (x : OptCtx) : Expr → Prop
  | .pvar cid n ti si => ∃ c ∈ x.network.allComponents, c.id = cid ∧ ∃ v ∈ x.strategy.getVariables c.model, v.name = n ∧
      x.Indexed v.structure_ ti si
  | .ppar cid n ti si => ∃ c ∈ x.network.allComponents, c.id = cid ∧ ∃ p, c.model.parameters.get? n = some p ∧
      x.Indexed p.structure_ ti si
  | _ => False

/-- an expanded expression -/
structure PFits (x : OptCtx) (e : Expr) : Prop where
  fits : Fits x.PLeaf (fun _ => False) x.zero e
  fixing : ∀ y ∈ e.subs, y.isTimeFixing = false
  scen : ∀ y ∈ e.subs, y.isScen = false

theorem PFits.plain {x : OptCtx} {e : Expr} (h : x.PFits e) : ∀ y ∈ e.subs, y.isOperator = false :=
  plain_of_fits e (fun y hy z hz => by
    cases y <;> try exact hy.elim
    all_goals
      simp only [subs, List.mem_singleton] at hz
      subst hz
      rfl) h.fixing h.scen h.fits

end OptCtx

theorem pfits_sum {x : OptCtx} {es : List Expr} (h : ∀ o ∈ es, x.PFits o) : x.PFits (sumExpressions es) :=
  ⟨fits_sumExpressions fun o ho => (h o ho).fits,
    allSubs_sumExpressions (P := fun y => y.isTimeFixing = false) (fun _ => rfl) rfl fun o ho => (h o ho).fixing,
    allSubs_sumExpressions (P := fun y => y.isScen = false) (fun _ => rfl) rfl fun o ho => (h o ho).scen⟩

theorem known_sum {es : List Expr} (h : ∀ o ∈ es, o.Known) : (sumExpressions es).Known :=
  allSubs_sumExpressions (P := fun y => y.isUnknown = false) (fun _ => rfl) rfl h

/-- copies that change indices -/
theorem reindex {x : OptCtx} {h : Hooks} {A : Expr → Prop} {f g : Int → Int}
    (hg : ∀ s : Int, 0 ≤ s → s < x.scenarios → 0 ≤ g s ∧ g s < x.scenarios)
    (hv : ∀ c n ti si, A (.pvar c n ti si) → x.PLeaf (.pvar c n ti si) → ∃ ti' si', h.pvar c n ti si = .ok (.pvar c n ti' si') ∧
      x.PLeaf (.pvar c n ti' si') ∧ ∀ t s, ti'.at t = ti.at (f t) ∧ si'.at s = si.at (g s))
    (hp : ∀ c n ti si, A (.ppar c n ti si) → x.PLeaf (.ppar c n ti si) → ∃ ti' si', h.ppar c n ti si = .ok (.ppar c n ti' si') ∧
      x.PLeaf (.ppar c n ti' si') ∧ ∀ t s, ti'.at t = ti.at (f t) ∧ si'.at s = si.at (g s))
    {e : Expr} (he : x.PFits e) (hA : ∀ y ∈ e.subs, A y) :
    ∃ e', copyWith h e = .ok e' ∧ x.PFits e' ∧ (e.Known → e'.Known) ∧ ∀ t s, mden x.zero e' t s = mden x.zero e (f t) (g s) := by
  obtain ⟨e', k⟩ := copy_fits (h := h) (leaf := fun y => x.PLeaf y ∧ A y) (leaf' := x.PLeaf) (amt := fun _ => False)
    (amt' := fun _ => False) (M := x.zero) (M' := x.zero) (f := f) (g := g) rfl rfl hg
    (fun y hy hl => by
      obtain ⟨hl, ha⟩ := hl
      cases y <;> try exact hl.elim
      next c n ti si =>
        obtain ⟨ti', si', h1, h2, h3⟩ := hv c n ti si ha hl
        refine ⟨_, h1, h2, ?_, fun t s => ?_⟩
        · intro P hP hh
          simp only [subs, List.forall_mem_cons, List.not_mem_nil, false_imp_iff, implies_true, and_true] at hh ⊢
          cases hP <;> first | rfl | cases hh
        · simp only [mden, (h3 t s).1, (h3 t s).2]
      next c n ti si =>
        obtain ⟨ti', si', h1, h2, h3⟩ := hp c n ti si ha hl
        refine ⟨_, h1, h2, ?_, fun t s => ?_⟩
        · intro P hP hh
          simp only [subs, List.forall_mem_cons, List.not_mem_nil, false_imp_iff, implies_true, and_true] at hh ⊢
          cases hP <;> rfl
        · simp only [mden, (h3 t s).1, (h3 t s).2])
    (fun k hk => hk.elim) e (.inr he.plain) (Fits.mono e (fun y hy _ hl => ⟨hl, hA y hy⟩) (fun _ h => h) he.fits)
  exact ⟨e', k.ok, ⟨k.fits, k.keeps _ .fixing he.fixing, k.keeps _ .scen he.scen⟩, k.keeps _ .unknown, k.mean⟩

theorem indexed_shift {x : OptCtx} {i : Idx} {ti : TIdx} {si : SIdx} (h : x.Indexed i ti si) (k : Int) :
    x.Indexed i (ti.applyShift k) si := by
  refine ⟨h.time.trans ?_, h.scenario, h.range⟩
  cases ti <;> simp [TIdx.applyShift]

theorem shift_pfits {x : OptCtx} {e : Expr} (he : x.PFits e) (hA : AllSubs (OutP NoStep True) e) (k : Int) :
    ∃ e', applyTimeshift e k = .ok e' ∧ x.PFits e' ∧ (e.Known → e'.Known) ∧ ∀ t s, mden x.zero e' t s = mden x.zero e (t + k) s := by
  have key : ∀ (ti : TIdx) (t : Int), (∀ u, ti ≠ .step u) → (ti.applyShift k).at t = ti.at (t + k) := by
    intro ti t h
    cases ti with
    | none => rfl
    | shift j => simp only [TIdx.applyShift, TIdx.at]; congr 1; ring
    | step u => exact absurd rfl (h u)
  refine reindex (A := OutP NoStep True) (f := fun t => t + k) (g := id) (fun s h0 h1 => ⟨h0, h1⟩) ?_ ?_ he hA
  · rintro cid n ti si ha ⟨c, hc, rfl, v, hv, rfl, hi⟩
    exact ⟨_, _, rfl, ⟨c, hc, rfl, v, hv, rfl, indexed_shift hi k⟩, fun t s => ⟨key ti t ha, rfl⟩⟩
  · rintro cid n ti si ha ⟨c, hc, rfl, v, hv, hi⟩
    exact ⟨_, _, rfl, ⟨c, hc, rfl, v, hv, indexed_shift hi k⟩, fun t s => ⟨key ti t ha, rfl⟩⟩

theorem step_pfits {x : OptCtx} {e : Expr} (he : x.PFits e) (k : Int) (b : Bool)
    (hA : b = true ∨ AllSubs (OutP NoStep True) e) :
    ∃ e', applyTimestep e k b = .ok e' ∧ x.PFits e' ∧ (e.Known → e'.Known) ∧ ∀ t s, mden x.zero e' t s = mden x.zero e k s := by
  have key : ∀ (ti : TIdx) (si : SIdx) (i : Idx), (b = true ∨ ∀ u, ti ≠ .step u) → x.Indexed i ti si →
      ∃ ti', ti.applyStep k b = .ok ti' ∧ x.Indexed i ti' si ∧ ∀ t, ti'.at t = ti.at k := by
    intro ti si i h hi
    cases ti with
    | none => exact ⟨.none, rfl, hi, fun t => rfl⟩
    | shift j =>
      refine ⟨.step (j + k), rfl, ⟨hi.time.trans (by simp), hi.scenario, hi.range⟩, fun t => ?_⟩
      simp only [TIdx.at]
      congr 1
      ring
    | step u =>
      rcases h with rfl | h
      · exact ⟨.step u, rfl, hi, fun t => rfl⟩
      · exact absurd rfl (h u)
  refine reindex (A := fun y => b = true ∨ OutP NoStep True y) (f := fun _ => k) (g := id) (fun s h0 h1 => ⟨h0, h1⟩) ?_ ?_ he
    (fun y hy => hA.imp id fun h => h y hy)
  · rintro cid n ti si ha ⟨c, hc, rfl, v, hv, rfl, hi⟩
    obtain ⟨ti', h1, h2, h3⟩ := key ti si _ ha hi
    exact ⟨ti', si, by simp [stepHooks, h1], ⟨c, hc, rfl, v, hv, rfl, h2⟩, fun t s => ⟨h3 t, rfl⟩⟩
  · rintro cid n ti si ha ⟨c, hc, rfl, v, hv, hi⟩
    obtain ⟨ti', h1, h2, h3⟩ := key ti si _ ha hi
    exact ⟨ti', si, by simp [stepHooks, h1], ⟨c, hc, rfl, v, hv, h2⟩, fun t s => ⟨h3 t, rfl⟩⟩

theorem scen_pfits {x : OptCtx} {e : Expr} (he : x.PFits e) (w : Int) (h0 : 0 ≤ w) (h1 : w < x.scenarios)
    (hA : AllSubs (OutP NoOne True) e) :
    ∃ e', applyScenario e w = .ok e' ∧ x.PFits e' ∧ (e.Known → e'.Known) ∧ ∀ t s, mden x.zero e' t s = mden x.zero e t w := by
  have key : ∀ (ti : TIdx) (si : SIdx) (i : Idx), (∀ u, si ≠ .one u) → x.Indexed i ti si →
      x.Indexed i ti (si.applyScenario w) ∧ ∀ s, (si.applyScenario w).at s = si.at w := by
    intro ti si i h hi
    cases si with
    | none => exact ⟨hi, fun s => rfl⟩
    | current =>
      refine ⟨⟨hi.time, hi.scenario.trans (by simp [SIdx.applyScenario]), ?_⟩, fun s => rfl⟩
      intro u hu
      cases hu
      exact ⟨h0, h1⟩
    | one u => exact absurd rfl (h u)
  refine reindex (A := OutP NoOne True) (f := id) (g := fun _ => w) (fun _ _ _ => ⟨h0, h1⟩) ?_ ?_ he hA
  · rintro cid n ti si ha ⟨c, hc, rfl, v, hv, rfl, hi⟩
    obtain ⟨h2, h3⟩ := key ti si _ ha hi
    exact ⟨_, _, rfl, ⟨c, hc, rfl, v, hv, rfl, h2⟩, fun t s => ⟨rfl, h3 s⟩⟩
  · rintro cid n ti si ha ⟨c, hc, rfl, v, hv, hi⟩
    obtain ⟨h2, h3⟩ := key ti si _ ha hi
    exact ⟨_, _, rfl, ⟨c, hc, rfl, v, hv, h2⟩, fun t s => ⟨rfl, h3 s⟩⟩

theorem indexed_init (x : OptCtx) (i : Idx) : x.Indexed i (timeIndexOf i) (scenIndexOf i) := by
  obtain ⟨a, b⟩ := i
  refine ⟨?_, ?_, ?_⟩
  · cases a <;> simp [timeIndexOf]
  · cases b <;> simp [scenIndexOf]
  · intro w hw
    cases b <;> simp [scenIndexOf] at hw

theorem expand_pfits {x : OptCtx} (hx : x.Buildable) (e : Expr) (he : Fits x.CLeaf x.CAmt x.zero e) :
    ∃ e', expand x.expandCtx e = .ok e' ∧ x.PFits e' ∧ (e.Known → e'.Known) ∧ ∀ t s, mden x.zero e' t s = mden x.zero e t s := by
  have single : ∀ {P : Expr → Bool} {y : Expr}, y.subs = [y] → P y = false → ∀ z ∈ y.subs, P z = false := by
    intro P y h1 h2 z hz
    rw [h1, List.mem_singleton] at hz
    subst hz
    exact h2
  induction e using Expr.ind with
  | lit v => exact ⟨.lit v, rfl, ⟨he, single rfl rfl, single rfl rfl⟩, id, fun _ _ => rfl⟩
  | cvar cid n =>
    obtain ⟨c, hc, rfl, v, hv, rfl⟩ := he
    obtain ⟨h1, h2⟩ := structures_var hx.network hc hv
    refine ⟨.pvar c.id v.name (timeIndexOf v.structure_) (scenIndexOf v.structure_), by simp [expand, OptCtx.expandCtx, h1],
      ⟨⟨c, hc, rfl, v, hv, rfl, indexed_init x _⟩, single rfl rfl, single rfl rfl⟩, fun h => ?_, fun t s => ?_⟩
    · exact absurd (h _ (mem_subs_self _)) (by simp [isUnknown])
    · simp only [mden, timeIndexOf_at, scenIndexOf_at]
      show _ = x.zero.D.env.var c.id v.name (atT (x.varIdx c.id v.name) t) (atS (x.varIdx c.id v.name) s)
      rw [h2]
  | cpar cid n =>
    obtain ⟨c, hc, rfl, p, hp⟩ := he
    obtain ⟨h1, h2⟩ := structures_par hx.network hc hp
    refine ⟨.ppar c.id n (timeIndexOf p.structure_) (scenIndexOf p.structure_), by simp [expand, OptCtx.expandCtx, h1],
      ⟨⟨c, hc, rfl, p, hp, indexed_init x _⟩, single rfl rfl, single rfl rfl⟩, fun _ => single rfl rfl, fun t s => ?_⟩
    simp only [mden, timeIndexOf_at, scenIndexOf_at]
    show _ = x.zero.D.env.par c.id n (atT (x.parIdx c.id n) t) (atS (x.parIdx c.id n) s)
    rw [h2]
  | neg e ih =>
    obtain ⟨e', h1, h2, h3, h4⟩ := ih he
    refine ⟨.neg e', by simp [expand, h1, negOp], ⟨h2.fits, ?_, ?_⟩, fun h => ?_, fun t s => by simp [mden, h4]⟩
    · simp only [subs, List.forall_mem_cons]; exact ⟨rfl, h2.fixing⟩
    · simp only [subs, List.forall_mem_cons]; exact ⟨rfl, h2.scen⟩
    · simp only [Known, subs, List.forall_mem_cons] at h ⊢; exact ⟨rfl, h3 h.2⟩
  | add es ih =>
    obtain ⟨es', h1, h2⟩ := appendAll_of (f := expand x.expandCtx) (xs := es) fun e hm => ih e hm (fitsAll_iff.1 he.2 e hm)
    have hne : es' ≠ [] := by
      rintro rfl
      cases h2
      exact he.1 rfl
    obtain ⟨e', h3, h4⟩ := fits_foldAdd (leaf := x.PLeaf) (amt := fun _ => False) (M := x.zero) hne (by
      intro o ho
      obtain ⟨e, -, k⟩ := forall₂_mem_right h2 ho
      exact k.1.fits)
    refine ⟨e', by rw [expand_add, h1]; exact h3, ⟨h4, ?_, ?_⟩, fun h => ?_, fun t s => ?_⟩
    · refine allSubs_foldAdd (P := fun y => y.isTimeFixing = false) (fun _ => rfl) h3 fun o ho => ?_
      obtain ⟨e, hm, k⟩ := forall₂_mem_right h2 ho
      exact k.1.fixing
    · refine allSubs_foldAdd (P := fun y => y.isScen = false) (fun _ => rfl) h3 fun o ho => ?_
      obtain ⟨e, hm, k⟩ := forall₂_mem_right h2 ho
      exact k.1.scen
    · refine allSubs_foldAdd (P := fun y => y.isUnknown = false) (fun _ => rfl) h3 fun o ho => ?_
      obtain ⟨e, hm, k⟩ := forall₂_mem_right h2 ho
      exact k.2.1 fun y hy => h y (mem_subs_add.2 (.inr ⟨e, hm, hy⟩))
    · rw [mden_foldAdd x.zero h3, mden_add]
      exact sum_map_forall₂ (h2.imp fun _ _ k => k.2.2 t s)
  | mul l r ihl ihr =>
    obtain ⟨l', l1, l2, l3, l4⟩ := ihl he.1
    obtain ⟨r', r1, r2, r3, r4⟩ := ihr he.2.1
    refine ⟨.mul l' r', by simp [expand, l1, r1, mulOp], ⟨⟨l2.fits, r2.fits, he.2.2.imp l3 r3⟩, ?_, ?_⟩, fun h => ?_,
      fun t s => by simp [mden, l4, r4]⟩
    · simp only [subs, List.forall_mem_cons, List.forall_mem_append]; exact ⟨rfl, l2.fixing, r2.fixing⟩
    · simp only [subs, List.forall_mem_cons, List.forall_mem_append]; exact ⟨rfl, l2.scen, r2.scen⟩
    · simp only [Known, subs, List.forall_mem_cons, List.forall_mem_append] at h ⊢; exact ⟨rfl, l3 h.2.1, r3 h.2.2⟩
  | div l r ihl ihr =>
    obtain ⟨l', l1, l2, l3, l4⟩ := ihl he.1
    obtain ⟨r', r1, r2, r3, r4⟩ := ihr he.2.1
    refine ⟨.div l' r', by simp [expand, l1, r1, divOp], ⟨⟨l2.fits, r2.fits, r3 he.2.2.1, fun t s h0 h1 => ?_⟩, ?_, ?_⟩, fun h => ?_,
      fun t s => by simp [mden, l4, r4]⟩
    · rw [r4]; exact he.2.2.2 t s h0 h1
    · simp only [subs, List.forall_mem_cons, List.forall_mem_append]; exact ⟨rfl, l2.fixing, r2.fixing⟩
    · simp only [subs, List.forall_mem_cons, List.forall_mem_append]; exact ⟨rfl, l2.scen, r2.scen⟩
    · simp only [Known, subs, List.forall_mem_cons, List.forall_mem_append] at h ⊢; exact ⟨rfl, l3 h.2.1, r3 h.2.2⟩
  | shift e k ih =>
    obtain ⟨e', h1, h2, h3, h4⟩ := ih he.1
    obtain ⟨n, hn, hn'⟩ := timeBound_ok hx he.2.1
    obtain ⟨e'', g1, g2, g3, g4⟩ := shift_pfits h2 (expand_noStep he.2.2 h1) n
    refine ⟨e'', ?_, g2, fun h => g3 (h3 fun y hy => h y (by simp [subs, hy])), fun t s => ?_⟩
    · have : x.expandCtx.evaluator k = .ok n := hn
      simp [expand, this, h1, g1]
    · rw [g4, h4, mden, hn', floor_cast_int]
  | evalT e k ih =>
    obtain ⟨e', h1, h2, h3, h4⟩ := ih he.1
    obtain ⟨n, hn, hn'⟩ := timeBound_ok hx he.2.1
    obtain ⟨e'', g1, g2, g3, g4⟩ := step_pfits h2 n false (.inr (expand_noStep he.2.2 h1))
    refine ⟨e'', ?_, g2, fun h => g3 (h3 fun y hy => h y (by simp [subs, hy])), fun t s => ?_⟩
    · have : x.expandCtx.evaluator k = .ok n := hn
      simp [expand, this, h1, g1]
    · rw [g4, h4, mden, hn', floor_cast_int]
  | tsum e a b ih =>
    obtain ⟨e', h1, h2, h3, h4⟩ := ih he.1
    obtain ⟨m, hm, hm'⟩ := timeBound_ok hx he.2.1
    obtain ⟨n, hn, hn'⟩ := timeBound_ok hx he.2.2.1
    obtain ⟨nodes, g1, g2⟩ := appendAll_of (f := fun t => applyTimeshift e' t) (xs := pyRange m (n + 1))
      fun k _ => shift_pfits h2 (expand_noStep he.2.2.2 h1) k
    refine ⟨sumExpressions nodes, ?_, pfits_sum fun o ho => ?_, fun h => known_sum fun o ho => ?_, fun t s => ?_⟩
    · have h5 : x.expandCtx.evaluator a = .ok m := hm
      have h6 : x.expandCtx.evaluator b = .ok n := hn
      simp [expand, h5, h6, h1, g1]
    · obtain ⟨k, -, r⟩ := forall₂_mem_right g2 ho
      exact r.1
    · obtain ⟨k, -, r⟩ := forall₂_mem_right g2 ho
      exact r.2.1 (h3 fun y hy => h y (by simp [subs, hy]))
    · rw [mden_sumExpressions, mden, hm', hn', floor_cast_int, floor_cast_int, ← sum_pyRange]
      exact sum_map_forall₂ (g2.imp fun k o r => by rw [r.2.2 t s, h4])
  | allsum e ih =>
    obtain ⟨e', h1, h2, h3, h4⟩ := ih he
    obtain ⟨nodes, g1, g2⟩ := appendAll_of (f := fun t => applyTimestep e' t true) (xs := pyRange 0 x.expandCtx.timesteps)
      fun k _ => step_pfits h2 k true (.inl rfl)
    refine ⟨sumExpressions nodes, by simp [expand, h1, g1], pfits_sum fun o ho => ?_, fun h => known_sum fun o ho => ?_, fun t s => ?_⟩
    · obtain ⟨k, -, r⟩ := forall₂_mem_right g2 ho
      exact r.1
    · obtain ⟨k, -, r⟩ := forall₂_mem_right g2 ho
      exact r.2.1 (h3 fun y hy => h y (by simp [subs, hy]))
    · rw [mden_sumExpressions, mden, ← sum_range_list]
      rw [pyRange_zero, List.forall₂_map_left_iff] at g2
      exact sum_map_forall₂ (g2.imp fun k o r => by rw [r.2.2 t s, h4])
  | scen e o ih =>
    obtain ⟨he1, rfl, he2⟩ := he
    obtain ⟨e', h1, h2, h3, h4⟩ := ih he1
    obtain ⟨nodes, g1, g2⟩ := appendAll_of (f := fun s => applyScenario e' s) (xs := pyRange 0 x.expandCtx.scenarios)
      (Q := fun k o => x.PFits o ∧ (e'.Known → o.Known) ∧ ∀ t s, mden x.zero o t s = mden x.zero e' t k)
      fun k hk => by
        obtain ⟨j, hj, rfl⟩ := pyRange_mem.1 hk
        exact scen_pfits h2 j (by omega) (by exact_mod_cast hj) (expand_noOne he2 h1)
    have hS : (x.scenarios : ℚ) ≠ 0 := by
      have := hx.scenarios
      exact_mod_cast (by omega : x.scenarios ≠ 0)
    have hsum := pfits_sum (x := x) (es := nodes) fun o ho => by
      obtain ⟨k, -, r⟩ := forall₂_mem_right g2 ho
      exact r.1
    refine ⟨.div (sumExpressions nodes) (.lit (.fin x.scenarios)), ?_, ⟨⟨hsum.fits, rfl, single rfl rfl, fun _ _ _ _ => hS⟩, ?_, ?_⟩, fun h => ?_,
      fun t s => ?_⟩
    · simp [expand, h1, g1, divOp, wrapNum]
      rfl
    · simp only [subs, List.forall_mem_cons, List.forall_mem_append]; exact ⟨rfl, hsum.fixing, rfl, by simp⟩
    · simp only [subs, List.forall_mem_cons, List.forall_mem_append]; exact ⟨rfl, hsum.scen, rfl, by simp⟩
    · have hk : (sumExpressions nodes).Known := known_sum fun o ho => by
        obtain ⟨k, -, r⟩ := forall₂_mem_right g2 ho
        exact r.2.1 (h3 fun y hy => h y (by simp [subs, hy]))
      simp only [Known, subs, List.forall_mem_cons, List.forall_mem_append]; exact ⟨rfl, hk, rfl, by simp⟩
    · rw [mden, mden_sumExpressions, mden, mden, ← sum_range_list]
      rw [pyRange_zero, List.forall₂_map_left_iff] at g2
      rw [sum_map_forall₂ (f := fun w : Nat => mden x.zero e t w) (g2.imp fun k o r => by rw [r.2.2 t s, h4])]
      rfl
  | cmp l r c => exact absurd he (by simp [Fits])
  | _ => exact absurd he id

end Verif
