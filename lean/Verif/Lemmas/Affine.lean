import Verif.Lemmas.Reading

/-! The linear expression built for a model expression in a component is its affine form. -/

namespace Verif
open Expr OptCtx

/-- like `HeadDet0` for a given copying visitor: inner nodes are related to their copy -/
structure HeadCopy (h : Hooks) (P : Expr → Prop) : Prop where
  add : ∀ es, P (.add es)
  neg : ∀ e e', P (.neg e) → P (.neg e')
  mul : ∀ a b a' b', P (.mul a b) → P (.mul a' b')
  div : ∀ a b a' b', P (.div a b) → P (.div a' b')
  cmp : ∀ a b c a' b', P (.cmp a b c) → P (.cmp a' b' c)
  shift : ∀ a b a' b', copyWith h a = .ok a' → P (.shift a b) → P (.shift a' b')
  evalT : ∀ a b a' b', copyWith h a = .ok a' → P (.evalT a b) → P (.evalT a' b')
  tsum : ∀ a b c a' b' c', copyWith h a = .ok a' → P (.tsum a b c) → P (.tsum a' b' c')
  allsum : ∀ e e', P (.allsum e) → P (.allsum e')
  scen : ∀ e e' o, copyWith h e = .ok e' → P (.scen e o) → P (.scen e' o)
  agg : ∀ e e' o, copyWith h e = .ok e' → P (.agg e o) → P (.agg e' o)

theorem copyWith_allSubsC {h : Hooks} {P : Expr → Prop} (hd : HeadCopy h P) (hh : HookAll h P) (e : Expr) :
    InnerP h P e → ∀ e', copyWith h e = .ok e' → AllSubs P e' := by
  have self : ∀ {e : Expr}, InnerP h P e → isHookLeaf e = false → (∀ y a, e ≠ agg y a) → P e :=
    fun hi h1 h2 => hi _ (mem_subs_self _) h1 (.inl h2)
  induction e using Expr.ind with
  | lit v =>
    intro hi e' h'
    simp only [copyWith, Except.ok.injEq] at h'
    subst h'
    intro x hx
    simp only [subs, List.mem_singleton] at hx
    subst hx
    exact self hi rfl (by simp)
  | var n => intro _ e' h'; exact hh.var n e' h'
  | par n => intro _ e' h'; exact hh.par n e' h'
  | cvar c n => intro _ e' h'; exact hh.cvar c n e' h'
  | cpar c n => intro _ e' h'; exact hh.cpar c n e' h'
  | pvar c n ti si => intro _ e' h'; exact hh.pvar c n ti si e' h'
  | ppar c n ti si => intro _ e' h'; exact hh.ppar c n ti si e' h'
  | portField p f => intro _ e' h'; exact hh.portField p f e' h'
  | neg e ih =>
    intro hi e' h'
    simp only [copyWith, bind_ok_iff, Except.ok.injEq] at h'
    obtain ⟨a, ha, rfl⟩ := h'
    intro x hx
    rcases List.mem_cons.1 hx with rfl | hx
    · exact hd.neg e a (self hi rfl (by simp))
    · exact ih (innerP_of hi (by simp +contextual [subs])) a ha x hx
  | add es ih =>
    intro hi e' h'
    rw [copyWith_add, bind_ok_iff] at h'
    obtain ⟨es', hes, hf⟩ := h'
    refine allSubs_foldAdd hd.add hf fun o ho => ?_
    obtain ⟨x, hx, hxo⟩ := forall₂_mem_right (appendAll_ok_iff.1 hes) ho
    exact ih x hx (innerP_of hi fun y hy => mem_subs_add.2 (.inr ⟨x, hx, hy⟩)) o hxo
  | mul l r ihl ihr =>
    intro hi e' h'
    simp only [copyWith, bind_ok_iff, Except.ok.injEq] at h'
    obtain ⟨a, ha, b, hb, rfl⟩ := h'
    intro x hx
    simp only [mulOp, subs, List.mem_cons, List.mem_append] at hx
    rcases hx with rfl | hx | hx
    · exact hd.mul l r _ _ (self hi rfl (by simp))
    · exact ihl (innerP_of hi (by simp +contextual [subs])) a ha x hx
    · exact ihr (innerP_of hi (by simp +contextual [subs])) b hb x hx
  | div l r ihl ihr =>
    intro hi e' h'
    simp only [copyWith, bind_ok_iff, Except.ok.injEq] at h'
    obtain ⟨a, ha, b, hb, rfl⟩ := h'
    intro x hx
    simp only [divOp, subs, List.mem_cons, List.mem_append] at hx
    rcases hx with rfl | hx | hx
    · exact hd.div l r _ _ (self hi rfl (by simp))
    · exact ihl (innerP_of hi (by simp +contextual [subs])) a ha x hx
    · exact ihr (innerP_of hi (by simp +contextual [subs])) b hb x hx
  | cmp l r c ihl ihr =>
    intro hi e' h'
    simp only [copyWith, bind_ok_iff, Except.ok.injEq] at h'
    obtain ⟨a, ha, b, hb, rfl⟩ := h'
    intro x hx
    simp only [subs, List.mem_cons, List.mem_append] at hx
    rcases hx with rfl | hx | hx
    · exact hd.cmp l r _ _ _ (self hi rfl (by simp))
    · exact ihl (innerP_of hi (by simp +contextual [subs])) a ha x hx
    · exact ihr (innerP_of hi (by simp +contextual [subs])) b hb x hx
  | shift l r ihl ihr =>
    intro hi e' h'
    simp only [copyWith, bind_ok_iff, Except.ok.injEq] at h'
    obtain ⟨a, ha, b, hb, rfl⟩ := h'
    intro x hx
    simp only [subs, List.mem_cons, List.mem_append] at hx
    rcases hx with rfl | hx | hx
    · exact hd.shift l r _ _ ha (self hi rfl (by simp))
    · exact ihl (innerP_of hi (by simp +contextual [subs])) a ha x hx
    · exact ihr (innerP_of hi (by simp +contextual [subs])) b hb x hx
  | evalT l r ihl ihr =>
    intro hi e' h'
    simp only [copyWith, bind_ok_iff, Except.ok.injEq] at h'
    obtain ⟨a, ha, b, hb, rfl⟩ := h'
    intro x hx
    simp only [subs, List.mem_cons, List.mem_append] at hx
    rcases hx with rfl | hx | hx
    · exact hd.evalT l r _ _ ha (self hi rfl (by simp))
    · exact ihl (innerP_of hi (by simp +contextual [subs])) a ha x hx
    · exact ihr (innerP_of hi (by simp +contextual [subs])) b hb x hx
  | tsum e a b ihe iha ihb =>
    intro hi e' h'
    simp only [copyWith, bind_ok_iff, Except.ok.injEq] at h'
    obtain ⟨a', ha, b', hb, c', hc, rfl⟩ := h'
    intro x hx
    simp only [subs, List.mem_cons, List.mem_append] at hx
    rcases hx with rfl | (hx | hx) | hx
    · exact hd.tsum e a b _ _ _ ha (self hi rfl (by simp))
    · exact ihe (innerP_of hi (by simp +contextual [subs])) _ ha x hx
    · exact iha (innerP_of hi (by simp +contextual [subs])) _ hb x hx
    · exact ihb (innerP_of hi (by simp +contextual [subs])) _ hc x hx
  | allsum e ih =>
    intro hi e' h'
    simp only [copyWith, bind_ok_iff, Except.ok.injEq] at h'
    obtain ⟨a, ha, rfl⟩ := h'
    intro x hx
    rcases List.mem_cons.1 hx with rfl | hx
    · exact hd.allsum e a (self hi rfl (by simp))
    · exact ih (innerP_of hi (by simp +contextual [subs])) a ha x hx
  | scen e o ih =>
    intro hi e' h'
    simp only [copyWith, bind_ok_iff, Except.ok.injEq] at h'
    obtain ⟨a, ha, rfl⟩ := h'
    intro x hx
    rcases List.mem_cons.1 hx with rfl | hx
    · exact hd.scen e a o ha (self hi rfl (by simp))
    · exact ih (innerP_of hi (by simp +contextual [subs])) a ha x hx
  | agg e o ih =>
    intro hi e' h'
    simp only [copyWith] at h'
    split at h'
    next f hf => exact hh.agg f hf e o e' h'
    next hn =>
      simp only [bind_ok_iff, Except.ok.injEq] at h'
      obtain ⟨a, ha, rfl⟩ := h'
      intro x hx
      rcases List.mem_cons.1 hx with rfl | hx
      · exact hd.agg e a o ha (hi _ (mem_subs_self _) rfl (.inr hn))
      · exact ih (innerP_of hi (by simp +contextual [subs])) a ha x hx

/-! ### Shape of instantiated expressions -/

/-- literals are finite -/
def LitFin (y : Expr) : Prop := ∀ v, y = lit v → ∃ q, v = .fin q
/-- node that does not fix the timestep -/
def NotFix (y : Expr) : Prop := y.isTimeFixing = false
/-- node that is not a scenario operator -/
def NotScen (y : Expr) : Prop := y.isScen = false

theorem headDet_litFin : HeadDet LitFin := by
  refine ⟨⟨?_, ?_, ?_, ?_, ?_, ?_, ?_, ?_, ?_, ?_⟩, ?_⟩ <;> intros <;> intro v hv <;> cases hv
theorem headDet_notFix : HeadDet NotFix := by
  refine ⟨⟨?_, ?_, ?_, ?_, ?_, ?_, ?_, ?_, ?_, ?_⟩, ?_⟩ <;> intros <;> simp_all [NotFix, isTimeFixing]
theorem headDet_notScen : HeadDet NotScen := by
  refine ⟨⟨?_, ?_, ?_, ?_, ?_, ?_, ?_, ?_, ?_, ?_⟩, ?_⟩ <;> intros <;> simp_all [NotScen, isScen]

theorem finLits_iff {e : Expr} : FinLits e ↔ AllSubs LitFin e :=
  ⟨fun h y hy v hv => h v (hv ▸ hy), fun h v hv => h _ hv v rfl⟩

/-- nesting condition at one node -/
def NestAt (y : Expr) : Prop :=
  (∀ a k, y = shift a k → AllSubs NotFix a) ∧ (∀ a b c, y = tsum a b c → AllSubs NotFix a) ∧
    ∀ a o, y = scen a o → AllSubs NotScen a

theorem wellNested_iff {e : Expr} : WellNested e ↔ AllSubs NestAt e :=
  ⟨fun h y hy => ⟨fun a k e => h.shift a k (e ▸ hy), fun a b c e => h.tsum a b c (e ▸ hy), fun a o e => h.scen a o (e ▸ hy)⟩,
    fun h => ⟨fun a k hy => (h _ hy).1 a k rfl, fun a b c hy => (h _ hy).2.1 a b c rfl, fun a o hy => (h _ hy).2.2 a o rfl⟩⟩

/-- expressions given by hooks -/
def HookP (P : Expr → Prop) : Prop :=
  (∀ c n, P (cvar c n)) ∧ (∀ c n, P (cpar c n)) ∧ (∀ c n ti si, P (pvar c n ti si)) ∧ (∀ c n ti si, P (ppar c n ti si)) ∧
    (∀ p f, P (portField p f)) ∧ (∀ n, P (.var n)) ∧ (∀ n, P (.par n)) ∧ (∀ es, P (.add es)) ∧ P (lit 0)

theorem hookAll_context {P : Expr → Prop} (hP : HookP P) (cid : String) : HookAll (contextHooks cid) P := by
  obtain ⟨h1, h2, h3, h4, h5, h6, h7, h8, h9⟩ := hP
  refine ⟨?_, ?_, ?_, ?_, ?_, ?_, ?_, ?_⟩
  · intro n e h; exact allSubs_leaf h rfl (h1 _ _)
  · intro n e h; exact allSubs_leaf h rfl (h2 _ _)
  · intro c n e h; cases h
  · intro c n e h; cases h
  · intro c n _ _ e h; cases h
  · intro c n _ _ e h; cases h
  · intro p f e h; exact allSubs_leaf h rfl (h5 _ _)
  · intro f h; cases h

/-- all registered port expressions satisfy `P` -/
def PortsAll (P : Expr → Prop) (ports : PortExprs) : Prop := ∀ key, ∀ y ∈ registered ports key, AllSubs P y

theorem hookAll_port {P : Expr → Prop} (hP : HookP P) (cid : String) (ports : PortExprs) (hp : PortsAll P ports) :
    HookAll (portHooks cid ports) P := by
  obtain ⟨h1, h2, h3, h4, h5, h6, h7, h8, h9⟩ := hP
  refine ⟨?_, ?_, ?_, ?_, ?_, ?_, ?_, ?_⟩
  · intro n e h; exact allSubs_leaf h rfl (h6 _)
  · intro n e h; exact allSubs_leaf h rfl (h7 _)
  · intro c n e h; exact allSubs_leaf h rfl (h1 _ _)
  · intro c n e h; exact allSubs_leaf h rfl (h2 _ _)
  · intro c n _ _ e h; exact allSubs_leaf h rfl (h3 _ _ _ _)
  · intro c n _ _ e h; exact allSubs_leaf h rfl (h4 _ _ _ _)
  · intro p f e h
    simp only [portHooks, bind_ok_iff] at h
    obtain ⟨es, hes, h⟩ := h
    split at h
    · cases h
      have := (Props.get_ok_iff' _ _ _).1 hes
      refine hp ⟨cid, p, f⟩ e ?_
      simp [registered, this]
    · cases h
  · intro f hf e a e' h
    cases hf
    simp only at h
    split at h
    · split at h
      · cases h
        refine allSubs_sumExpressions h8 h9 fun o ho => ?_
        exact hp _ o ho
      · cases h
    · cases h

theorem innerP_all {h : Hooks} {P : Expr → Prop} {e : Expr} (ha : AllSubs P e) : InnerP h P e := fun y hy _ _ => ha y hy

theorem instantiate_all {P : Expr → Prop} (hd : HeadDet P) (hP : HookP P) {cid : String} {ports : PortExprs}
    (hp : PortsAll P ports) {e e' : Expr} (he : AllSubs P e) (h : instantiate e cid ports = .ok e') : AllSubs P e' := by
  unfold instantiate at h
  rw [bind_ok_iff] at h
  obtain ⟨e1, h1, h2⟩ := h
  have := copyWith_allSubs hd (hookAll_context hP cid) e (innerP_all he) e1 h1
  exact copyWith_allSubs hd (hookAll_port hP cid ports hp) e1 (innerP_all this) e' h2

theorem hookP_litFin : HookP LitFin := by
  refine ⟨?_, ?_, ?_, ?_, ?_, ?_, ?_, ?_, ?_⟩ <;> intros <;> intro v hv <;> cases hv
  exact ⟨0, rfl⟩
theorem hookP_notFix : HookP NotFix := by refine ⟨?_, ?_, ?_, ?_, ?_, ?_, ?_, ?_, ?_⟩ <;> intros <;> rfl
theorem hookP_notScen : HookP NotScen := by refine ⟨?_, ?_, ?_, ?_, ?_, ?_, ?_, ?_, ?_⟩ <;> intros <;> rfl
theorem hookP_nestAt : HookP NestAt := by
  refine ⟨?_, ?_, ?_, ?_, ?_, ?_, ?_, ?_, ?_⟩ <;> intros <;>
    exact ⟨fun _ _ h => (by cases h), fun _ _ _ h => (by cases h), fun _ _ h => (by cases h)⟩

theorem headCopy_nestAt {h : Hooks} (h1 : HookAll h NotFix) (h2 : HookAll h NotScen) : HeadCopy h NestAt := by
  have cf : ∀ a a', copyWith h a = .ok a' → AllSubs NotFix a → AllSubs NotFix a' := fun a a' hc ha =>
    copyWith_allSubs headDet_notFix h1 a (innerP_all ha) a' hc
  have cs : ∀ a a', copyWith h a = .ok a' → AllSubs NotScen a → AllSubs NotScen a' := fun a a' hc ha =>
    copyWith_allSubs headDet_notScen h2 a (innerP_all ha) a' hc
  have triv : ∀ y : Expr, (∀ a k, y ≠ shift a k) → (∀ a b c, y ≠ tsum a b c) → (∀ a o, y ≠ scen a o) → NestAt y :=
    fun y h1 h2 h3 => ⟨fun a k h => absurd h (h1 a k), fun a b c h => absurd h (h2 a b c), fun a o h => absurd h (h3 a o)⟩
  refine ⟨?_, ?_, ?_, ?_, ?_, ?_, ?_, ?_, ?_, ?_, ?_⟩
  · intro es; exact triv _ (by simp) (by simp) (by simp)
  · intros; exact triv _ (by simp) (by simp) (by simp)
  · intros; exact triv _ (by simp) (by simp) (by simp)
  · intros; exact triv _ (by simp) (by simp) (by simp)
  · intros; exact triv _ (by simp) (by simp) (by simp)
  · intro a b a' b' hc hn
    refine ⟨fun x k hx => ?_, fun _ _ _ hx => (by cases hx), fun _ _ hx => (by cases hx)⟩
    cases hx
    exact cf a _ hc (hn.1 a b rfl)
  · intros; exact triv _ (by simp) (by simp) (by simp)
  · intro a b c a' b' c' hc hn
    refine ⟨fun x k hx => (by cases hx), fun _ _ _ hx => ?_, fun _ _ hx => (by cases hx)⟩
    cases hx
    exact cf a _ hc (hn.2.1 a b c rfl)
  · intros; exact triv _ (by simp) (by simp) (by simp)
  · intro a a' o hc hn
    refine ⟨fun x k hx => (by cases hx), fun _ _ _ hx => (by cases hx), fun _ _ hx => ?_⟩
    cases hx
    exact cs a _ hc (hn.2.2 a o rfl)
  · intros; exact triv _ (by simp) (by simp) (by simp)

theorem subs_trans {e y : Expr} (hy : y ∈ e.subs) {z : Expr} (hz : z ∈ y.subs) : z ∈ e.subs := by
  induction e using Expr.ind with
  | add es ih =>
    rcases mem_subs_add.1 hy with rfl | ⟨o, ho, hy⟩
    · exact hz
    · exact mem_subs_add.2 (.inr ⟨o, ho, ih o ho hy⟩)
  | lit _ => simp only [subs, List.mem_singleton] at hy; subst hy; exact hz
  | var _ => simp only [subs, List.mem_singleton] at hy; subst hy; exact hz
  | par _ => simp only [subs, List.mem_singleton] at hy; subst hy; exact hz
  | cvar _ _ => simp only [subs, List.mem_singleton] at hy; subst hy; exact hz
  | cpar _ _ => simp only [subs, List.mem_singleton] at hy; subst hy; exact hz
  | pvar _ _ _ _ => simp only [subs, List.mem_singleton] at hy; subst hy; exact hz
  | ppar _ _ _ _ => simp only [subs, List.mem_singleton] at hy; subst hy; exact hz
  | portField _ _ => simp only [subs, List.mem_singleton] at hy; subst hy; exact hz
  | neg e ih =>
    rcases List.mem_cons.1 hy with rfl | hy
    · exact hz
    · exact List.mem_cons_of_mem _ (ih hy)
  | allsum e ih =>
    rcases List.mem_cons.1 hy with rfl | hy
    · exact hz
    · exact List.mem_cons_of_mem _ (ih hy)
  | scen e o ih =>
    rcases List.mem_cons.1 hy with rfl | hy
    · exact hz
    · exact List.mem_cons_of_mem _ (ih hy)
  | agg e o ih =>
    rcases List.mem_cons.1 hy with rfl | hy
    · exact hz
    · exact List.mem_cons_of_mem _ (ih hy)
  | mul l r ihl ihr =>
    simp only [subs, List.mem_cons, List.mem_append] at hy ⊢
    rcases hy with rfl | hy | hy
    · simpa [subs] using hz
    · exact .inr (.inl (ihl hy))
    · exact .inr (.inr (ihr hy))
  | div l r ihl ihr =>
    simp only [subs, List.mem_cons, List.mem_append] at hy ⊢
    rcases hy with rfl | hy | hy
    · simpa [subs] using hz
    · exact .inr (.inl (ihl hy))
    · exact .inr (.inr (ihr hy))
  | cmp l r _ ihl ihr =>
    simp only [subs, List.mem_cons, List.mem_append] at hy ⊢
    rcases hy with rfl | hy | hy
    · simpa [subs] using hz
    · exact .inr (.inl (ihl hy))
    · exact .inr (.inr (ihr hy))
  | shift l r ihl ihr =>
    simp only [subs, List.mem_cons, List.mem_append] at hy ⊢
    rcases hy with rfl | hy | hy
    · simpa [subs] using hz
    · exact .inr (.inl (ihl hy))
    · exact .inr (.inr (ihr hy))
  | evalT l r ihl ihr =>
    simp only [subs, List.mem_cons, List.mem_append] at hy ⊢
    rcases hy with rfl | hy | hy
    · simpa [subs] using hz
    · exact .inr (.inl (ihl hy))
    · exact .inr (.inr (ihr hy))
  | tsum e a b ihe iha ihb =>
    simp only [subs, List.mem_cons, List.mem_append] at hy ⊢
    rcases hy with rfl | (hy | hy) | hy
    · simpa [subs, or_assoc] using hz
    · exact .inr (.inl (.inl (ihe hy)))
    · exact .inr (.inl (.inr (iha hy)))
    · exact .inr (.inr (ihb hy))

theorem nestAt_of_plain {e : Expr} (h1 : AllSubs NotFix e) (h2 : AllSubs NotScen e) : AllSubs NestAt e := by
  intro y hy
  refine ⟨fun a k e => ?_, fun a b c e => ?_, fun a o e => ?_⟩
  · subst e; exact fun z hz => h1 z (subs_trans hy (by simp [subs, hz]))
  · subst e; exact fun z hz => h1 z (subs_trans hy (by simp [subs, hz]))
  · subst e; exact fun z hz => h2 z (subs_trans hy (by simp [subs, hz]))

theorem instantiate_wellNested {cid : String} {ports : PortExprs} (hf : PortsAll NotFix ports) (hs : PortsAll NotScen ports)
    {e e' : Expr} (he : WellNested e) (h : instantiate e cid ports = .ok e') : WellNested e' := by
  rw [wellNested_iff] at he ⊢
  unfold instantiate at h
  rw [bind_ok_iff] at h
  obtain ⟨e1, h1, h2⟩ := h
  have := copyWith_allSubsC (headCopy_nestAt (hookAll_context hookP_notFix cid) (hookAll_context hookP_notScen cid))
    (hookAll_context hookP_nestAt cid) e (innerP_all he) e1 h1
  exact copyWith_allSubsC (headCopy_nestAt (hookAll_port hookP_notFix cid ports hf) (hookAll_port hookP_notScen cid ports hs))
    (hookAll_port hookP_nestAt cid ports fun k y hy => nestAt_of_plain (hf k y hy) (hs k y hy)) e1 (innerP_all this) e' h2

/-- what the connections of a consistent network register -/
theorem ports_all {x : OptCtx} (hx : x.NetworkOk) {ports : PortExprs}
    (h : registerConnections x.network.connections [] = .ok ports) :
    PortsAll LitFin ports ∧ PortsAll NotFix ports ∧ PortsAll NotScen ports := by
  have key : ∀ {P : Expr → Prop}, HeadDet P → HookP P →
      (∀ c ∈ x.network.connections, ∀ r f d, (r = c.port1 ∨ r = c.port2) → r.fieldDef f = some d → AllSubs P d) →
      PortsAll P ports := by
    intro P hd hP hdef k y hy
    rcases registerConnections_from _ hx.accepted h k y hy with hy | ⟨c, hc', r, f, d, hr, hd', hctx⟩
    · simp [registered] at hy
    · exact copyWith_allSubs hd (hookAll_context hP _) d (innerP_all (hdef c hc' r f d hr hd')) y hctx
  refine ⟨key headDet_litFin hookP_litFin ?_, key headDet_notFix hookP_notFix ?_, key headDet_notScen hookP_notScen ?_⟩
  · intro c hc r f d hr hd
    exact finLits_iff.1 (hx.clean c hc r f d hr hd).2.2.1
  · intro c hc r f d hr hd y hy
    exact ((hx.clean c hc r f d hr hd).2.2.2 y hy).1
  · intro c hc r f d hr hd y hy
    exact ((hx.clean c hc r f d hr hd).2.2.2 y hy).2

theorem networkOk_clean {x : OptCtx} (hx : x.NetworkOk) : DefsClean x.network.connections :=
  fun c hc r f d hr hd => ⟨(hx.clean c hc r f d hr hd).1, (hx.clean c hc r f d hr hd).2.1⟩

/-! ### Expansion -/

theorem hookAll_shift {P : Expr → Prop} (hP : HookP P) (k : Int) : HookAll (shiftHooks k) P := by
  obtain ⟨h1, h2, h3, h4, h5, h6, h7, h8, h9⟩ := hP
  refine ⟨?_, ?_, ?_, ?_, ?_, ?_, ?_, ?_⟩
  · intro n e h; exact allSubs_leaf h rfl (h6 _)
  · intro n e h; exact allSubs_leaf h rfl (h7 _)
  · intro c n e h; exact allSubs_leaf h rfl (h1 _ _)
  · intro c n e h; exact allSubs_leaf h rfl (h2 _ _)
  · intro c n _ _ e h; exact allSubs_leaf h rfl (h3 _ _ _ _)
  · intro c n _ _ e h; exact allSubs_leaf h rfl (h4 _ _ _ _)
  · intro p f e h; exact allSubs_leaf h rfl (h5 _ _)
  · intro f h; cases h

theorem hookAll_step {P : Expr → Prop} (hP : HookP P) (k : Int) (b : Bool) : HookAll (stepHooks k b) P := by
  obtain ⟨h1, h2, h3, h4, h5, h6, h7, h8, h9⟩ := hP
  refine ⟨?_, ?_, ?_, ?_, ?_, ?_, ?_, ?_⟩
  · intro n e h; exact allSubs_leaf h rfl (h6 _)
  · intro n e h; exact allSubs_leaf h rfl (h7 _)
  · intro c n e h; exact allSubs_leaf h rfl (h1 _ _)
  · intro c n e h; exact allSubs_leaf h rfl (h2 _ _)
  · intro c n _ _ e h
    simp only [stepHooks, bind_ok_iff] at h
    obtain ⟨_, _, h⟩ := h
    exact allSubs_leaf h rfl (h3 _ _ _ _)
  · intro c n _ _ e h
    simp only [stepHooks, bind_ok_iff] at h
    obtain ⟨_, _, h⟩ := h
    exact allSubs_leaf h rfl (h4 _ _ _ _)
  · intro p f e h; exact allSubs_leaf h rfl (h5 _ _)
  · intro f h; cases h

theorem hookAll_scen {P : Expr → Prop} (hP : HookP P) (k : Int) : HookAll (scenarioHooks k) P := by
  obtain ⟨h1, h2, h3, h4, h5, h6, h7, h8, h9⟩ := hP
  refine ⟨?_, ?_, ?_, ?_, ?_, ?_, ?_, ?_⟩
  · intro n e h; exact allSubs_leaf h rfl (h6 _)
  · intro n e h; exact allSubs_leaf h rfl (h7 _)
  · intro c n e h; exact allSubs_leaf h rfl (h1 _ _)
  · intro c n e h; exact allSubs_leaf h rfl (h2 _ _)
  · intro c n _ _ e h; exact allSubs_leaf h rfl (h3 _ _ _ _)
  · intro c n _ _ e h; exact allSubs_leaf h rfl (h4 _ _ _ _)
  · intro p f e h; exact allSubs_leaf h rfl (h5 _ _)
  · intro f h; cases h

theorem expand_finLits {x : ExpandCtx} (e : Expr) : FinLits e → ∀ e', expand x e = .ok e' → FinLits e' := by
  have leaf : ∀ {y z : Expr}, (∀ v, y ≠ lit v) → y.subs = [y] → (Except.ok y : R Expr) = .ok z → FinLits z := by
    intro y z hy hs h
    cases h
    intro v hv
    rw [hs, List.mem_singleton] at hv
    exact absurd hv.symm (hy v)
  have un : ∀ {y z : Expr}, FinLits z → (∀ v, y ≠ lit v) → y.subs = y :: z.subs → FinLits y := by
    intro y z hz hy hs v hv
    rw [hs, List.mem_cons] at hv
    rcases hv with hv | hv
    · exact absurd hv.symm (hy v)
    · exact hz v hv
  have bin : ∀ {y a b : Expr}, FinLits a → FinLits b → (∀ v, y ≠ lit v) → y.subs = y :: (a.subs ++ b.subs) → FinLits y := by
    intro y a b ha hb hy hs v hv
    rw [hs, List.mem_cons, List.mem_append] at hv
    rcases hv with hv | hv | hv
    · exact absurd hv.symm (hy v)
    · exact ha v hv
    · exact hb v hv
  have shiftF : ∀ {a b : Expr} {k : Int}, FinLits a → applyTimeshift a k = .ok b → FinLits b := fun ha h =>
    finLits_iff.2 (copyWith_allSubs headDet_litFin (hookAll_shift hookP_litFin _) _ (innerP_all (finLits_iff.1 ha)) _ h)
  have stepF : ∀ {a b : Expr} {k : Int} {c : Bool}, FinLits a → applyTimestep a k c = .ok b → FinLits b := fun ha h =>
    finLits_iff.2 (copyWith_allSubs headDet_litFin (hookAll_step hookP_litFin _ _) _ (innerP_all (finLits_iff.1 ha)) _ h)
  have scenF : ∀ {a b : Expr} {k : Int}, FinLits a → applyScenario a k = .ok b → FinLits b := fun ha h =>
    finLits_iff.2 (copyWith_allSubs headDet_litFin (hookAll_scen hookP_litFin _) _ (innerP_all (finLits_iff.1 ha)) _ h)
  have sumF : ∀ {es : List Expr}, (∀ o ∈ es, FinLits o) → FinLits (sumExpressions es) := fun h =>
    finLits_iff.2 (allSubs_sumExpressions headDet_litFin.add (hookP_litFin.2.2.2.2.2.2.2.2) fun o ho => finLits_iff.1 (h o ho))
  induction e using Expr.ind with
  | lit v => intro hf e' h'; cases h'; exact hf
  | var n => intro _ e' h'; exact leaf (by simp) rfl h'
  | par n => intro _ e' h'; exact leaf (by simp) rfl h'
  | portField p f => intro _ e' h'; exact leaf (by simp) rfl h'
  | cvar c n =>
    intro _ e' h'
    simp only [expand, bind_ok_iff] at h'
    obtain ⟨i, _, h'⟩ := h'
    exact leaf (by simp) rfl h'
  | cpar c n =>
    intro _ e' h'
    simp only [expand, bind_ok_iff] at h'
    obtain ⟨i, _, h'⟩ := h'
    exact leaf (by simp) rfl h'
  | pvar c n ti si => intro _ e' h'; cases h'
  | ppar c n ti si => intro _ e' h'; cases h'
  | neg e ih =>
    intro hf e' h'
    simp only [expand, bind_ok_iff, Except.ok.injEq] at h'
    obtain ⟨a, ha, rfl⟩ := h'
    exact un (ih (finLits_of_subs hf (by simp +contextual [subs])) a ha) (by simp [negOp]) rfl
  | add es ih =>
    intro hf e' h'
    rw [expand_add, bind_ok_iff] at h'
    obtain ⟨es', hes, h'⟩ := h'
    refine finLits_iff.2 (allSubs_foldAdd headDet_litFin.add h' fun o ho => ?_)
    obtain ⟨y, hy, hyo⟩ := forall₂_mem_right (appendAll_ok_iff.1 hes) ho
    exact finLits_iff.1 (ih y hy (finLits_add hf y hy) o hyo)
  | mul l r ihl ihr =>
    intro hf e' h'
    simp only [expand, bind_ok_iff, Except.ok.injEq] at h'
    obtain ⟨a, ha, b, hb, rfl⟩ := h'
    exact bin (ihl (finLits_of_subs hf (by simp +contextual [subs])) a ha)
      (ihr (finLits_of_subs hf (by simp +contextual [subs])) b hb) (by simp [mulOp]) rfl
  | div l r ihl ihr =>
    intro hf e' h'
    simp only [expand, bind_ok_iff, Except.ok.injEq] at h'
    obtain ⟨a, ha, b, hb, rfl⟩ := h'
    exact bin (ihl (finLits_of_subs hf (by simp +contextual [subs])) a ha)
      (ihr (finLits_of_subs hf (by simp +contextual [subs])) b hb) (by simp [divOp]) rfl
  | cmp l r c ihl ihr =>
    intro hf e' h'
    simp only [expand, bind_ok_iff, Except.ok.injEq] at h'
    obtain ⟨a, ha, b, hb, rfl⟩ := h'
    exact bin (ihl (finLits_of_subs hf (by simp +contextual [subs])) a ha)
      (ihr (finLits_of_subs hf (by simp +contextual [subs])) b hb) (by simp) rfl
  | shift e k ihe _ =>
    intro hf e' h'
    simp only [expand, bind_ok_iff] at h'
    obtain ⟨n, _, a, ha, h'⟩ := h'
    exact shiftF (ihe (finLits_of_subs hf (by simp +contextual [subs])) a ha) h'
  | evalT e k ihe _ =>
    intro hf e' h'
    simp only [expand, bind_ok_iff] at h'
    obtain ⟨n, _, a, ha, h'⟩ := h'
    exact stepF (ihe (finLits_of_subs hf (by simp +contextual [subs])) a ha) h'
  | tsum e a b ihe _ _ =>
    intro hf e' h'
    simp only [expand, bind_ok_iff, Except.ok.injEq] at h'
    obtain ⟨m, _, n, _, a, ha, nodes, hn, rfl⟩ := h'
    refine sumF fun o ho => ?_
    obtain ⟨k, _, hk⟩ := forall₂_mem_right (appendAll_ok_iff.1 hn) ho
    exact shiftF (ihe (finLits_of_subs hf (by simp +contextual [subs])) a ha) hk
  | allsum e ih =>
    intro hf e' h'
    simp only [expand, bind_ok_iff, Except.ok.injEq] at h'
    obtain ⟨a, ha, nodes, hn, rfl⟩ := h'
    refine sumF fun o ho => ?_
    obtain ⟨k, _, hk⟩ := forall₂_mem_right (appendAll_ok_iff.1 hn) ho
    exact stepF (ih (finLits_of_subs hf (by simp +contextual [subs])) a ha) hk
  | scen e o ih =>
    intro hf e' h'
    simp only [expand] at h'
    split_ifs at h'
    simp only [bind_ok_iff, Except.ok.injEq] at h'
    obtain ⟨a, ha, nodes, hn, rfl⟩ := h'
    refine bin (sumF fun o ho => ?_) (b := lit (.fin x.scenarios)) ?_ (by simp [divOp]) rfl
    · obtain ⟨k, _, hk⟩ := forall₂_mem_right (appendAll_ok_iff.1 hn) ho
      exact scenF (ih (finLits_of_subs hf (by simp +contextual [subs])) a ha) hk
    · intro v hv
      simp only [subs, List.mem_singleton] at hv
      cases hv
      exact ⟨_, rfl⟩
  | agg e o ih =>
    intro hf e' h'
    simp only [expand, bind_ok_iff, Except.ok.injEq] at h'
    obtain ⟨a, ha, rfl⟩ := h'
    exact un (ih (finLits_of_subs hf (by simp +contextual [subs])) a ha) (by simp) rfl

/-- two readings that agree on the evaluated amounts agree on the expanded expressions -/
theorem den_amt {x : ExpandCtx} {D D' : DenCtx} (h1 : D.env = D'.env) (h2 : D.vidx = D'.vidx) (h3 : D.pidx = D'.pidx)
    (h4 : D.T = D'.T) (h5 : D.S = D'.S) (h6 : ∀ k n, FinLits k → x.evaluator k = .ok n → D.amt k = D'.amt k) (e : Expr) :
    FinLits e → ∀ e', expand x e = .ok e' → ∀ t s, den D e t s = den D' e t s := by
  induction e using Expr.ind with
  | lit v => intro _ e' _ t s; cases v <;> rfl
  | var n => intro _ e' _ t s; rfl
  | par n => intro _ e' _ t s; rfl
  | portField p f => intro _ e' _ t s; rfl
  | cvar c n => intro _ e' _ t s; simp only [den, h1, h2]
  | cpar c n => intro _ e' _ t s; simp only [den, h1, h3]
  | pvar c n ti si => intro _ e' h'; cases h'
  | ppar c n ti si => intro _ e' h'; cases h'
  | neg e ih =>
    intro hf e' h' t s
    simp only [expand, bind_ok_iff, Except.ok.injEq] at h'
    obtain ⟨a, ha, rfl⟩ := h'
    simp only [den, ih (finLits_of_subs hf (by simp +contextual [subs])) a ha]
  | add es ih =>
    intro hf e' h' t s
    rw [expand_add, bind_ok_iff] at h'
    obtain ⟨es', hes, h'⟩ := h'
    rw [den_add, den_add]
    congr 1
    refine List.map_congr_left fun y hy => ?_
    obtain ⟨o, _, hyo⟩ := forall₂_mem_left (appendAll_ok_iff.1 hes) hy
    exact ih y hy (finLits_add hf y hy) o hyo t s
  | mul l r ihl ihr =>
    intro hf e' h' t s
    simp only [expand, bind_ok_iff, Except.ok.injEq] at h'
    obtain ⟨a, ha, b, hb, rfl⟩ := h'
    simp only [den, ihl (finLits_of_subs hf (by simp +contextual [subs])) a ha,
      ihr (finLits_of_subs hf (by simp +contextual [subs])) b hb]
  | div l r ihl ihr =>
    intro hf e' h' t s
    simp only [expand, bind_ok_iff, Except.ok.injEq] at h'
    obtain ⟨a, ha, b, hb, rfl⟩ := h'
    simp only [den, ihl (finLits_of_subs hf (by simp +contextual [subs])) a ha,
      ihr (finLits_of_subs hf (by simp +contextual [subs])) b hb]
  | cmp l r c ihl ihr => intro _ e' _ t s; rfl
  | shift e k ihe _ =>
    intro hf e' h' t s
    simp only [expand, bind_ok_iff] at h'
    obtain ⟨n, hn, a, ha, h'⟩ := h'
    simp only [den, ihe (finLits_of_subs hf (by simp +contextual [subs])) a ha,
      h6 k n (finLits_of_subs hf (by simp +contextual [subs])) hn]
  | evalT e k ihe _ =>
    intro hf e' h' t s
    simp only [expand, bind_ok_iff] at h'
    obtain ⟨n, hn, a, ha, h'⟩ := h'
    simp only [den, ihe (finLits_of_subs hf (by simp +contextual [subs])) a ha,
      h6 k n (finLits_of_subs hf (by simp +contextual [subs])) hn]
  | tsum e a b ihe _ _ =>
    intro hf e' h' t s
    simp only [expand, bind_ok_iff, Except.ok.injEq] at h'
    obtain ⟨m, hm, n, hn, y, hy, nodes, _, rfl⟩ := h'
    simp only [den, ihe (finLits_of_subs hf (by simp +contextual [subs])) y hy,
      h6 a m (finLits_of_subs hf (by simp +contextual [subs])) hm, h6 b n (finLits_of_subs hf (by simp +contextual [subs])) hn]
  | allsum e ih =>
    intro hf e' h' t s
    simp only [expand, bind_ok_iff, Except.ok.injEq] at h'
    obtain ⟨a, ha, nodes, hn, rfl⟩ := h'
    simp only [den, h4, ih (finLits_of_subs hf (by simp +contextual [subs])) a ha]
  | scen e o ih =>
    intro hf e' h' t s
    simp only [expand] at h'
    split_ifs at h'
    simp only [bind_ok_iff, Except.ok.injEq] at h'
    obtain ⟨a, ha, nodes, hn, rfl⟩ := h'
    simp only [den, h5, ih (finLits_of_subs hf (by simp +contextual [subs])) a ha]
  | agg e o ih => intro _ e' _ t s; rfl

/-! ### Linear expression of a model expression -/

theorem structures_cvar {x : OptCtx} {c n : String} {i : Idx} (h : x.structures.cvar c n = .ok i) : x.varIdx c n = i := by
  simp only [OptCtx.structures, bind_ok_iff, Except.ok.injEq] at h
  obtain ⟨k, hk, v, hv, rfl⟩ := h
  simp [OptCtx.varIdx, hk, (Props.get_ok_iff' _ _ _).1 hv]

theorem structures_cpar {x : OptCtx} {c n : String} {i : Idx} (h : x.structures.cpar c n = .ok i) : x.parIdx c n = i := by
  simp only [OptCtx.structures, bind_ok_iff, Except.ok.injEq] at h
  obtain ⟨k, hk, v, hv, rfl⟩ := h
  simp [OptCtx.parIdx, hk, (Props.get_ok_iff' _ _ _).1 hv]

/-- the value of a model expression is the value of its instantiation, amounts being those the program evaluates -/
theorem den_instantiated {x : OptCtx} (hn : x.NetworkOk) (hx : x.DataOk) {ports : PortExprs}
    (hreg : registerConnections x.network.connections [] = .ok ports) (c : Component) {e e1 e2 : Expr}
    (ha : e.AggPort) (hc : ∀ y ∈ e.subs, y.isCmp = false) (hf : FinLits e1)
    (h1 : instantiate e c.id ports = .ok e1) (h2 : x.expandOperators e1 = .ok e2) (D : DenCtx)
    (hvi : D.vidx = x.varIdx) (hpi : D.pidx = x.parIdx) (hT : D.T = x.T) (hS : D.S = x.scenarios)
    (hamt : ∀ k n, x.evaluateTimeBound k = .ok n → D.amt k = n) (var) (hD : D.env = (x.unwrapped var).env) (t s : Int) :
    den D e1 t s = mden (x.readAs (x.unwrapped var) c) e t s := by
  obtain ⟨hml, hval⟩ := Props.c15_instantiate (x.unwrapped var) x.network.connections hn.accepted (networkOk_clean hn) ports
    hreg c.id e e1 ha hc h1
  have := hval t s
  refine Eq.trans ?_ this
  refine den_amt (x := x.expandCtx) (D := D) (D' := (x.unwrapped var).std) hD hvi hpi hT hS ?_ e1 hf e2 h2 t s
  intro k n hk hkn
  rw [hamt k n hkn]
  show n = (mden ⟨x.unwrapped var, "", fun _ _ => []⟩ k 0 0).floor
  rw [evaluateTimeBound_mden hx var "" _ k hk hkn 0 0]
  exact (Rat.floor_intCast n).symm

theorem linearize_affine {x : OptCtx} (hn : x.NetworkOk) (hx : x.DataOk) {ports : PortExprs}
    (hreg : registerConnections x.network.connections [] = .ok ports) (c : Component) {e e1 e2 : Expr} (he : ExprOk e)
    (h1 : instantiate e c.id ports = .ok e1) (h2 : x.expandOperators e1 = .ok e2) {t s : Int} {l : LinExpr}
    (h3 : x.linearize e2 (some t) (some s) = .ok l) :
    ∃ (c0 : ℚ) (K : Finset TermKey) (coef : TermKey → ℚ), (∀ k, k ∉ K → coef k = 0) ∧
      (∀ var, mden (x.readAs (x.unwrapped var) c) e t s =
        c0 + ∑ k ∈ K, coef k * var k.component k.var k.time k.scenario) ∧
      l.constant = .fin c0 ∧
      (∀ k, l.terms.get? k = if |coef k| < 1 / 10 ^ 16 then none else some ⟨.fin (coef k), k⟩) ∧
      (l.terms.map Prod.fst).Nodup := by
  obtain ⟨p1, p2, p3⟩ := ports_all hn hreg
  have hf1 : FinLits e1 := finLits_iff.2 (instantiate_all headDet_litFin hookP_litFin p1 (finLits_iff.1 he.fin) h1)
  have hw1 : WellNested e1 := instantiate_wellNested p2 p3 he.nested h1
  have hf2 : FinLits e2 := expand_finLits e1 hf1 e2 h2
  let D : DenCtx := { x.unwrapped (fun _ _ _ _ => 0) with amt := fun k => match x.evaluateTimeBound k with
    | .ok n => n
    | .error _ => 0 }
  have hA : Agrees x.expandCtx D := by
    refine ⟨fun c n i h => structures_cvar h, fun c n i h => structures_cpar h, rfl, rfl, fun k n h => ?_⟩
    have h : x.evaluateTimeBound k = .ok n := h
    simp only [D, h]
  obtain ⟨c0, K, coef, hK, hv, rest⟩ := Props.c11_pipeline_exact x.expandCtx D hA e1 e2 hw1 h2 hf2 t s
    (fun c n t s => x.parameterValue t s c n) (fun c n u w v h => parameterValue_getter hx h) l h3
  refine ⟨c0, K, coef, hK, fun var => ?_, rest⟩
  rw [← hv var]
  refine (den_instantiated hn hx hreg c he.agg he.cmp hf1 h1 h2 (D.withVar var) rfl rfl rfl rfl ?_ var rfl t s).symm
  intro k n h
  simp only [DenCtx.withVar, D, h]

theorem linearize_finite {l : LinExpr} {c0 : ℚ} {coef : TermKey → ℚ} (hc : l.constant = .fin c0)
    (hg : ∀ k, l.terms.get? k = if |coef k| < 1 / 10 ^ 16 then none else some ⟨.fin (coef k), k⟩)
    (nd : (l.terms.map Prod.fst).Nodup) : l.Finite := by
  refine ⟨by rw [hc]; rfl, fun k t hm => ?_⟩
  have := Dict.get?_of_mem nd hm
  rw [hg] at this
  split at this
  · cases this
  · cases this; rfl

/-- without tiny coefficients, the linear expression has the value of the model expression -/
theorem linearize_value {x : OptCtx} (hn : x.NetworkOk) (hx : x.DataOk) {ports : PortExprs}
    (hreg : registerConnections x.network.connections [] = .ok ports) (c : Component) {e e1 e2 : Expr} (he : ExprOk e)
    (h1 : instantiate e c.id ports = .ok e1) (h2 : x.expandOperators e1 = .ok e2) {t s : Int} {l : LinExpr}
    (h3 : x.linearize e2 (some t) (some s) = .ok l) (hno : x.NoTiny c e t s) :
    l.Finite ∧ ∀ σ : TermKey → ℚ, l.value (fun k => σ (wrapKey x.T k)) = mden (x.readIn σ c) e t s := by
  obtain ⟨c0, K, coef, hK, hv, hc, hg, nd⟩ := linearize_affine hn hx hreg c he h1 h2 h3
  refine ⟨linearize_finite hc hg nd, fun σ => ?_⟩
  rw [Props.linExpr_value_eq l c0 K coef _ hK hc hg nd]
  show _ = mden (x.readAs (x.unwrapped fun c v t s => σ ⟨c, v, t.map (· % x.T), s⟩) c) e t s
  rw [hv]
  congr 1
  refine (Finset.sum_filter_of_ne fun k hk hne => ?_).trans (Finset.sum_congr rfl fun k _ => ?_)
  · intro hlt
    have := hno (fun _ _ _ _ => 0) k
    simp only [hv] at this
    have hsum : (c0 + ∑ k' ∈ K, coef k' * if k = ⟨k'.component, k'.var, k'.time, k'.scenario⟩ then (0 : ℚ) + 1 else 0) -
        (c0 + ∑ k' ∈ K, coef k' * 0) = coef k := by
      simp only [mul_zero, Finset.sum_const_zero, zero_add, mul_ite, mul_one, add_zero, add_sub_cancel_left]
      rw [Finset.sum_eq_single k]
      · simp
      · intro b _ hb
        rw [if_neg]
        intro h
        exact hb (by rw [h])
      · intro hk'; exact absurd hk hk'
    rw [hsum] at this
    rcases this with h0 | h0
    · rw [h0, zero_mul] at hne; exact hne rfl
    · exact absurd hlt (not_lt.2 h0)
  · rfl

end Verif
