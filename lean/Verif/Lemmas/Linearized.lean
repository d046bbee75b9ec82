import Verif.Lemmas.Expanded

/-! Expanded expressions that fit are linearized without error, and their terms have columns. -/

namespace Verif
open Expr OptCtx

/-- the key designates a column, in the cyclic block -/
def OptCtx.KeyOk (x : OptCtx) (k : TermKey) : Prop := ∃ n ∈ x.instances, n.key = wrapKey x.T k

theorem divTerms_ok {b : ℚ} (hb : b ≠ 0) (ts : List Term) :
    ∃ ts', divTerms (.fin b) ts = .ok ts' ∧ ts'.map Term.key = ts.map Term.key := by
  induction ts with
  | nil => exact ⟨[], rfl, rfl⟩
  | cons u ts ih =>
    obtain ⟨ts', h1, h2⟩ := ih
    have : ∃ c, Num.div u.coefficient (.fin b) = .ok c := by
      cases u.coefficient <;> simp [Num.div, hb]
    obtain ⟨c, hc⟩ := this
    exact ⟨{ u with coefficient := c } :: ts', by simp [divTerms, hc, h1], by simp [h2]⟩

theorem scaleTerms_keys (f : Num → Num) (ts : List Term) : (scaleTerms f ts).map Term.key = ts.map Term.key := by
  simp [scaleTerms, Function.comp_def]

theorem getTimestep_some (t : Int) (ti : TIdx) : getTimestep (some t) ti = .ok (ti.at t) := by
  cases ti <;> rfl

/-- the timestep and scenario where a symbol is read -/
theorem indexed_at {x : OptCtx} {i : Idx} {ti : TIdx} {si : SIdx} (h : x.Indexed i ti si) (t s : Int) (h0 : 0 ≤ s)
    (h1 : s < x.scenarios) : ∃ t' s', ti.at t = atT i t' ∧ si.at s = atS i s' ∧ (0 ≤ s' ∧ s' < x.scenarios) ∧
      (ti.at t = some t' ∨ (ti.at t = none ∧ i.time = false)) ∧ (si.at s = some s' ∨ (si.at s = none ∧ i.scenario = false)) := by
  have ht : ∃ t', ti.at t = atT i t' ∧ (ti.at t = some t' ∨ (ti.at t = none ∧ i.time = false)) := by
    have hh := h.time
    cases ti with
    | none =>
      have : i.time = false := by
        cases hi : i.time with
        | false => rfl
        | true => exact absurd rfl (hh.1 hi)
      exact ⟨t, by simp [TIdx.at, atT, this], .inr ⟨rfl, this⟩⟩
    | shift k => exact ⟨t + k, by simp [TIdx.at, atT, hh], .inl rfl⟩
    | step k => exact ⟨k, by simp [TIdx.at, atT, hh], .inl rfl⟩
  have hs : ∃ s', si.at s = atS i s' ∧ (0 ≤ s' ∧ s' < x.scenarios) ∧ (si.at s = some s' ∨ (si.at s = none ∧ i.scenario = false)) := by
    have hh := h.scenario
    cases si with
    | none =>
      have : i.scenario = false := by
        cases hi : i.scenario with
        | false => rfl
        | true => exact absurd rfl (hh.1 hi)
      exact ⟨s, by simp [SIdx.at, atS, this], ⟨h0, h1⟩, .inr ⟨rfl, this⟩⟩
    | current => exact ⟨s, by simp [SIdx.at, atS, hh], ⟨h0, h1⟩, .inl rfl⟩
    | one k => exact ⟨k, by simp [SIdx.at, atS, hh], h.range k rfl, .inl rfl⟩
  obtain ⟨t', a1, a2⟩ := ht
  obtain ⟨s', b1, b2, b3⟩ := hs
  exact ⟨t', s', a1, b1, b2, a2, b3⟩

theorem keyOk_at {x : OptCtx} (hx : x.DataOk) {c : Component} (hc : c ∈ x.network.allComponents) {v : Variable}
    (hv : v ∈ x.strategy.getVariables c.model) (t s : Int) (h0 : 0 ≤ s) (h1 : s < x.scenarios) :
    x.KeyOk ⟨c.id, v.name, atT v.structure_ t, atS v.structure_ s⟩ := by
  have hT : 0 < x.T := T_pos hx
  have h2 : 0 ≤ t % (x.T : Int) := Int.emod_nonneg _ (by omega)
  have h3 : t % (x.T : Int) < x.T := Int.emod_lt_of_pos _ (by omega)
  refine ⟨⟨c, v, (atT v.structure_ t).map (· % (x.T : Int)), atS v.structure_ s⟩, mem_instances.2 ⟨hc, hv, ?_, ?_⟩, rfl⟩
  · rw [mem_indexList]
    cases ht : v.structure_.time with
    | false => simp [atT, ht]
    | true =>
      simp only [atT, ht, if_true, Option.map_some]
      exact ⟨(t % (x.T : Int)).toNat, by omega, by rw [Int.toNat_of_nonneg h2]⟩
  · rw [mem_indexList]
    cases ht : v.structure_.scenario with
    | false => simp [atS, ht]
    | true =>
      simp only [atS, ht, if_true]
      exact ⟨s.toNat, by omega, by rw [Int.toNat_of_nonneg h0]⟩

/-- what linearization gives -/
structure LinOk (x : OptCtx) (t s : Int) (e : Expr) (d : LinData) : Prop where
  known : e.Known → d.terms = [] ∧ d.constant = .fin (mden x.zero e t s)
  keys : ∀ u ∈ d.terms, x.KeyOk u.key

theorem keys_of_map {x : OptCtx} {ts ts' : List Term} (h : ts'.map Term.key = ts.map Term.key) (hk : ∀ u ∈ ts, x.KeyOk u.key) :
    ∀ u ∈ ts', x.KeyOk u.key := by
  intro u hu
  have : u.key ∈ ts.map Term.key := h ▸ List.mem_map_of_mem hu
  obtain ⟨w, hw, e⟩ := List.mem_map.1 this
  exact e ▸ hk w hw

theorem keys_scale {x : OptCtx} {f : Num → Num} {ts : List Term} (hk : ∀ u ∈ ts, x.KeyOk u.key) :
    ∀ u ∈ scaleTerms f ts, x.KeyOk u.key := keys_of_map (scaleTerms_keys _ _) hk

theorem known_neg {e : Expr} (h : (neg e).Known) : e.Known := fun y hy => h y (by simp [subs, hy])
theorem known_add {es : List Expr} (h : (add es).Known) {e : Expr} (he : e ∈ es) : e.Known :=
  fun y hy => h y (mem_subs_add.2 (.inr ⟨e, he, hy⟩))

theorem lin_ok {x : OptCtx} (hx : x.Buildable) (e : Expr) (he : Fits x.PLeaf (fun _ => False) x.zero e)
    (hf : ∀ y ∈ e.subs, y.isTimeFixing = false) (hs : ∀ y ∈ e.subs, y.isScen = false) (t s : Int) (h0 : 0 ≤ s)
    (h1 : s < x.scenarios) :
    ∃ d, linData ⟨some t, some s, some fun c n t s => x.parameterValue t s c n⟩ e = .ok d ∧ LinOk x t s e d := by
  induction e using Expr.ind with
  | lit v =>
    cases v with
    | fin q => exact ⟨⟨[], .fin q⟩, rfl, fun _ => ⟨rfl, rfl⟩, by simp⟩
    | _ => cases he
  | pvar cid n ti si =>
    obtain ⟨c, hc, rfl, v, hv, rfl, hi⟩ := he
    obtain ⟨t', s', e1, e2, hr, -, -⟩ := indexed_at hi t s h0 h1
    refine ⟨_, by simp only [linData, getTimestep_some, getScenario_at, ok_bind]; rfl, fun hk => ?_, ?_⟩
    · exact absurd (hk _ (mem_subs_self _)) (by simp [isUnknown])
    · simp only [List.mem_singleton, forall_eq, e1, e2]
      exact keyOk_at hx.data hc hv t' s' hr.1 hr.2
  | ppar cid n ti si =>
    obtain ⟨c, hc, rfl, p, hp, hi⟩ := he
    obtain ⟨t', s', e1, e2, hr, ht, hs'⟩ := indexed_at hi t s h0 h1
    have := param_value hx hc hp ht hs' hr.1 hr.2
    refine ⟨_, by simp only [linData, getTimestep_some, getScenario_at, ok_bind, this]; rfl, fun hk => ⟨rfl, ?_⟩, by simp⟩
    congr 1
    simp only [mden]
    show Num.fin (x.zero.D.env.par c.id n (atT (x.parIdx c.id n) t') (atS (x.parIdx c.id n) s')) = _
    rw [(structures_par hx.network hc hp).2, e1, e2]
  | neg e ih =>
    simp only [subs, List.forall_mem_cons] at hf hs
    obtain ⟨d, h2, h3⟩ := ih he hf.2 hs.2
    refine ⟨_, by simp only [linData, h2, ok_bind]; rfl, fun hk => ?_, fun u hu => keys_scale h3.keys u hu⟩
    obtain ⟨a, b⟩ := h3.known (known_neg hk)
    simp only [a, b, scaleTerms, List.map_nil, true_and]
    rfl
  | add es ih =>
    obtain ⟨ds, hd, hfa⟩ := appendAll_of (f := linData ⟨some t, some s, some fun c n t s => x.parameterValue t s c n⟩) (xs := es)
      fun e hm => ih e hm (fitsAll_iff.1 he.2 e hm) (fun y hy => hf y (mem_subs_add.2 (.inr ⟨e, hm, hy⟩)))
        (fun y hy => hs y (mem_subs_add.2 (.inr ⟨e, hm, hy⟩)))
    refine ⟨_, by rw [linData_add, hd]; rfl, fun hk => ⟨?_, ?_⟩, ?_⟩
    · simp only [List.flatten_eq_nil_iff, List.mem_map]
      rintro _ ⟨d, hm, rfl⟩
      obtain ⟨e, hme, r⟩ := forall₂_mem_right hfa hm
      exact (r.known (known_add hk hme)).1
    · rw [mden_add]
      have : ∀ e ∈ es, e.Known := fun e hm => known_add hk hm
      clear hd ih he hf hs hk
      have gen : ∀ (es : List Expr) (ds : List LinData), List.Forall₂ (LinOk x t s) es ds → (∀ e ∈ es, e.Known) → ∀ q : ℚ,
          ds.foldl (fun c d => c + d.constant) (.fin q) = Num.fin (q + (es.map fun e => mden x.zero e t s).sum) := by
        intro es ds h
        induction h with
        | nil => intro _ q; simp
        | @cons e d es ds h _ ih =>
          intro hk q
          simp only [List.forall_mem_cons] at hk
          simp only [List.foldl_cons, (h.known hk.1).2, List.map_cons, List.sum_cons]
          rw [show (Num.fin q + Num.fin (mden x.zero e t s)) = Num.fin (q + mden x.zero e t s) from rfl, ih hk.2]
          congr 1
          ring
      have := gen es ds hfa this 0
      rw [zero_add] at this
      exact this
    · intro u hu
      simp only [List.mem_flatten, List.mem_map] at hu
      obtain ⟨_, ⟨d, hm, rfl⟩, hu⟩ := hu
      obtain ⟨e, hme, r⟩ := forall₂_mem_right hfa hm
      exact r.keys u hu
  | mul l r ihl ihr =>
    simp only [subs, List.forall_mem_cons, List.forall_mem_append] at hf hs
    obtain ⟨a, a1, a2⟩ := ihl he.1 hf.2.1 hs.2.1
    obtain ⟨b, b1, b2⟩ := ihr he.2.1 hf.2.2 hs.2.2
    simp only [linData, a1, b1, ok_bind]
    by_cases ha : a.terms.isEmpty = true
    · rw [if_pos ha]
      refine ⟨_, rfl, fun hk => ?_, fun u hu => keys_scale (f := fun c => c * a.constant) b2.keys u hu⟩
      simp only [Known, subs, List.forall_mem_cons, List.forall_mem_append] at hk
      obtain ⟨a3, a4⟩ := a2.known hk.2.1
      obtain ⟨b3, b4⟩ := b2.known hk.2.2
      simp only [a4, b3, b4, scaleTerms, List.map_nil, true_and, mden]
      rw [mul_comm (mden x.zero l t s)]
      rfl
    · rw [if_neg ha]
      have hb : r.Known := he.2.2.resolve_left fun h => ha (by rw [(a2.known h).1]; rfl)
      obtain ⟨b3, b4⟩ := b2.known hb
      rw [if_pos (by rw [b3]; rfl)]
      refine ⟨_, rfl, fun hk => ?_, fun u hu => keys_scale (f := fun c => c * b.constant) a2.keys u hu⟩
      simp only [Known, subs, List.forall_mem_cons, List.forall_mem_append] at hk
      exact absurd (by rw [(a2.known hk.2.1).1]; rfl) ha
  | div l r ihl ihr =>
    simp only [subs, List.forall_mem_cons, List.forall_mem_append] at hf hs
    obtain ⟨a, a1, a2⟩ := ihl he.1 hf.2.1 hs.2.1
    obtain ⟨b, b1, b2⟩ := ihr he.2.1 hf.2.2 hs.2.2
    obtain ⟨b3, b4⟩ := b2.known he.2.2.1
    have hne := he.2.2.2 t s h0 h1
    obtain ⟨ts, t1, t2⟩ := divTerms_ok hne a.terms
    have : ∃ c, Num.div a.constant (.fin (mden x.zero r t s)) = .ok c := by
      cases a.constant <;> simp [Num.div, hne]
    obtain ⟨c, hc⟩ := this
    refine ⟨⟨ts, c⟩, ?_, fun hk => ?_, keys_of_map t2 a2.keys⟩
    · simp only [linData, a1, b1, ok_bind, b3, b4, List.isEmpty_nil, Bool.not_true, Bool.false_eq_true, if_false, hc, t1]
    · simp only [Known, subs, List.forall_mem_cons, List.forall_mem_append] at hk
      obtain ⟨a3, a4⟩ := a2.known hk.2.1
      rw [a3] at t1
      cases t1
      rw [a4, Num.div_fin _ _ hne] at hc
      cases hc
      exact ⟨rfl, rfl⟩
  | shift e k => exact absurd he.2.1 id
  | evalT e k => exact absurd he.2.1 id
  | tsum e a b => exact absurd he.2.1 id
  | allsum e => exact absurd (hf _ (mem_subs_self _)) (by simp [isTimeFixing])
  | scen e o => exact absurd (hs _ (mem_subs_self _)) (by simp [isScen])
  | _ => exact absurd he id

theorem build_keys {d : LinData} {P : TermKey → Prop} (h : ∀ u ∈ d.terms, P u.key) : ∀ u ∈ d.build.terms.values, P u.key := by
  obtain ⟨hcan, -, hget, -⟩ := build_spec d
  intro u hu
  obtain ⟨⟨k, u'⟩, hm, rfl⟩ := List.mem_map.1 hu
  have hg := Dict.get?_of_mem hcan.nodup hm
  have hk : u'.key = k := hcan.own k u' hm
  rw [hget] at hg
  split at hg
  · cases hg
  · next hz =>
    by_contra hn
    refine hz ?_
    rw [coefSum_eq_zero, isZero_iff]
    · exact small_zero
    · intro w hw e
      exact hn (by rw [show (Prod.snd (k, u')).key = k from hk, ← e]; exact h w hw)

/-- linear expression of an expanded expression -/
theorem linearize_fits {x : OptCtx} (hx : x.Buildable) {e : Expr} (he : x.PFits e) (t s : Int) (h0 : 0 ≤ s)
    (h1 : s < x.scenarios) :
    ∃ l, x.linearize e (some t) (some s) = .ok l ∧ ∀ u ∈ l.terms.values, x.KeyOk u.key := by
  obtain ⟨d, h2, h3⟩ := lin_ok hx e he.fits he.fixing he.scen t s h0 h1
  refine ⟨d.build, ?_, build_keys h3.keys⟩
  simp only [OptCtx.linearize, linearizeExpression, h2, ok_bind]

/-! ### Indexing and degree -/

theorem combineRest_ok {st : StructProvider} (es : List Expr) (h : ∀ e ∈ es, ∃ i, computeIndexation st e = .ok i) (a : Idx) :
    ∃ i, combineRest st a es = .ok i := by
  induction es generalizing a with
  | nil => exact ⟨a, rfl⟩
  | cons e es ih =>
    simp only [List.forall_mem_cons] at h
    obtain ⟨b, hb⟩ := h.1
    simp only [combineRest, hb, ok_bind]
    split
    · exact ⟨_, rfl⟩
    · exact ih h.2 _

theorem indexation_ok {x : OptCtx} (hn : x.NetworkOk) {amt : Expr → Prop} {M : MCtx} (e : Expr) (he : Fits x.CLeaf amt M e) :
    ∃ i, computeIndexation x.structures e = .ok i := by
  have two : ∀ {l r : Expr}, (∃ i, computeIndexation x.structures l = .ok i) → (∃ i, computeIndexation x.structures r = .ok i) →
      ∃ i, (do
        let a ← computeIndexation x.structures l
        if a.isTimeScenarioVarying then .ok a
        else do
          let b ← computeIndexation x.structures r
          .ok (a.or b) : R Idx) = .ok i := by
    rintro l r ⟨a, ha⟩ ⟨b, hb⟩
    simp only [ha, hb, ok_bind]
    split <;> exact ⟨_, rfl⟩
  induction e using Expr.ind with
  | lit v => exact ⟨_, rfl⟩
  | cvar cid n =>
    obtain ⟨c, hc, rfl, v, hv, rfl⟩ := he
    exact ⟨_, (structures_var hn hc hv).1⟩
  | cpar cid n =>
    obtain ⟨c, hc, rfl, p, hp⟩ := he
    exact ⟨_, (structures_par hn hc hp).1⟩
  | neg e ih => exact ih he
  | add es ih =>
    have := fun e hm => ih e hm (fitsAll_iff.1 he.2 e hm)
    cases es with
    | nil => exact ⟨_, rfl⟩
    | cons e es =>
      simp only [List.forall_mem_cons] at this
      obtain ⟨a, ha⟩ := this.1
      simp only [computeIndexation, combineFirst, ha, ok_bind]
      split
      · exact ⟨_, rfl⟩
      · exact combineRest_ok es this.2 a
  | mul l r ihl ihr => exact two (ihl he.1) (ihr he.2.1)
  | div l r ihl ihr => exact two (ihl he.1) (ihr he.2.1)
  | shift e k ih => exact ih he.1
  | tsum e a b ih => exact ih he.1
  | evalT e k ih =>
    obtain ⟨i, hi⟩ := ih he.1
    exact ⟨_, by simp only [computeIndexation, hi, ok_bind]; rfl⟩
  | allsum e ih =>
    obtain ⟨i, hi⟩ := ih he
    exact ⟨_, by simp only [computeIndexation, hi, ok_bind]; rfl⟩
  | scen e o ih =>
    obtain ⟨i, hi⟩ := ih he.1
    exact ⟨_, by simp only [computeIndexation, hi, ok_bind]; rfl⟩
  | cmp l r c => exact absurd he (by simp [Fits])
  | _ => exact absurd he id

theorem arith_degree {x : OptCtx} {vary : Idx} {M : MCtx} (e : Expr) (he : Fits (x.CPar vary) (fun _ => False) M e)
    (hf : ∀ y ∈ e.subs, y.isTimeFixing = false) (hs : ∀ y ∈ e.subs, y.isScen = false) : computeDegree e = .ok 0 := by
  induction e using Expr.ind with
  | lit v => rfl
  | cpar c n => rfl
  | neg e ih =>
    simp only [subs, List.forall_mem_cons] at hf hs
    exact ih he hf.2 hs.2
  | add es ih =>
    have hall : ∀ e ∈ es, computeDegree e = .ok 0 := fun e hm => ih e hm (fitsAll_iff.1 he.2 e hm)
      (fun y hy => hf y (mem_subs_add.2 (.inr ⟨e, hm, hy⟩))) (fun y hy => hs y (mem_subs_add.2 (.inr ⟨e, hm, hy⟩)))
    have hl : ∀ es : List Expr, (∀ e ∈ es, computeDegree e = .ok 0) → computeDegreeList es = .ok (es.map fun _ => 0) := by
      intro es h
      induction es with
      | nil => rfl
      | cons e es ih =>
        simp only [List.forall_mem_cons] at h
        simp only [computeDegreeList, h.1, ih h.2, ok_bind, List.map_cons]
    simp only [computeDegree, hl es hall, ok_bind]
    have hne := he.1
    cases es with
    | nil => exact absurd rfl hne
    | cons e es =>
      simp only [List.map_cons, pyMax]
      congr 1
      clear * -
      induction es with
      | nil => rfl
      | cons e es ih => simpa using ih
  | mul l r ihl ihr =>
    simp only [subs, List.forall_mem_cons, List.forall_mem_append] at hf hs
    simp only [computeDegree, ihl he.1 hf.2.1 hs.2.1, ihr he.2.1 hf.2.2 hs.2.2, ok_bind]
  | div l r ihl ihr =>
    simp only [subs, List.forall_mem_cons, List.forall_mem_append] at hf hs
    simp [computeDegree, ihl he.1 hf.2.1 hs.2.1, ihr he.2.1 hf.2.2 hs.2.2]
  | shift e k => exact absurd he.2.1 id
  | evalT e k => exact absurd he.2.1 id
  | tsum e a b => exact absurd he.2.1 id
  | allsum e => exact absurd (hf _ (mem_subs_self _)) (by simp [isTimeFixing])
  | scen e o => exact absurd (hs _ (mem_subs_self _)) (by simp [isScen])
  | _ => exact absurd he id

end Verif
