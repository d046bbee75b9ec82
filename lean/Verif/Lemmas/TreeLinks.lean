import Verif.Lemmas.Tree
import Mathlib.Data.Finset.Card
import Mathlib.Data.Finset.Range

/-! # Links between the nodes of decision trees -/

namespace Verif
namespace TreeHeap

/-- numbers of the children of a node -/
def down (h : TreeHeap) (r : Nat) : List Nat :=
  match h.nodes[r]? with
  | some n => n.children
  | none => []

/-- the links agree and stay among the nodes -/
structure Linked (h : TreeHeap) : Prop where
  range : ∀ c p, h.up c = some p → p < h.nodes.length
  once : ∀ p, (h.down p).Nodup
  iff : ∀ c p, c ∈ h.down p ↔ h.up c = some p

theorem up_lt {h : TreeHeap} {c p : Nat} (hu : h.up c = some p) : c < h.nodes.length := by
  by_contra hx
  rw [up, List.getElem?_eq_none (by omega)] at hu
  cases hu

theorem up_some {h : TreeHeap} {c p : Nat} (hu : h.up c = some p) : ∃ n, h.nodes[c]? = some n ∧ n.parent = some p := by
  unfold up at hu
  obtain ⟨n, hn, hp⟩ := Option.bind_eq_some_iff.1 hu
  exact ⟨n, hn, hp⟩

theorem up_of {h : TreeHeap} {c : Nat} {n : TNode} (hn : h.nodes[c]? = some n) : h.up c = n.parent := by
  simp [up, hn]

theorem down_of {h : TreeHeap} {c : Nat} {n : TNode} (hn : h.nodes[c]? = some n) : h.down c = n.children := by
  simp [down, hn]

theorem linksAgree {h : TreeHeap} (hl : h.Linked) : LinksAgree h := by
  refine ⟨?_, ?_, ?_⟩
  · intro c p n hn hp
    have hu : h.up c = some p := by rw [up_of hn, hp]
    have hr := hl.range c p hu
    refine ⟨h.nodes[p], List.getElem?_eq_getElem hr, ?_⟩
    rw [← down_of (List.getElem?_eq_getElem hr)]
    exact (hl.iff c p).2 hu
  · intro c p m hm hc
    rw [← down_of hm] at hc
    exact up_some ((hl.iff c p).1 hc)
  · intro p m hm
    rw [← down_of hm]
    exact hl.once p

/-! ## What attaching and detaching do to the links -/

theorem attach_length (h : TreeHeap) (c r : Nat) : (h.attach c r).nodes.length = h.nodes.length := by
  unfold attach
  split <;> simp [setNode]

theorem detach_length (h : TreeHeap) (c : Nat) : (h.detach c).nodes.length = h.nodes.length := by
  unfold detach
  split
  · split
    · split <;> simp [setNode]
    · rfl
  · rfl

theorem attach_get (h : TreeHeap) (c r : Nat) (hc : c < h.nodes.length) (hr : r < h.nodes.length) (hcr : c ≠ r) (i : Nat) :
    (h.attach c r).nodes[i]? =
      if i = r then h.nodes[i]?.map (addChild c)
      else if i = c then h.nodes[i]?.map (fun n => { n with parent := some r })
      else h.nodes[i]? := by
  unfold attach
  simp only [List.getElem?_eq_getElem hc, List.getElem?_eq_getElem hr]
  rw [setNode_get _ _ _ _ (by simpa [setNode] using hr), setNode_get _ _ _ _ hc]
  by_cases h1 : i = r
  · subst h1; simp [List.getElem?_eq_getElem hr, addChild]
  · by_cases h2 : i = c
    · subst h2; simp [List.getElem?_eq_getElem hc, h1]
    · simp [h1, h2]

theorem attach_up (h : TreeHeap) (c r : Nat) (hc : c < h.nodes.length) (hr : r < h.nodes.length) (hcr : c ≠ r) (i : Nat) :
    (h.attach c r).up i = if i = c then some r else h.up i := by
  unfold up
  rw [attach_get h c r hc hr hcr]
  by_cases h1 : i = r
  · subst h1
    rw [if_pos rfl, if_neg (Ne.symm hcr)]
    cases h.nodes[i]? <;> rfl
  · by_cases h2 : i = c
    · subst h2
      rw [if_neg h1, if_pos rfl, if_pos rfl, List.getElem?_eq_getElem hc]
      rfl
    · rw [if_neg h1, if_neg h2, if_neg h2]

theorem attach_down (h : TreeHeap) (c r : Nat) (hc : c < h.nodes.length) (hr : r < h.nodes.length) (hcr : c ≠ r) (i : Nat) :
    (h.attach c r).down i = if i = r then h.down i ++ [c] else h.down i := by
  unfold down
  rw [attach_get h c r hc hr hcr]
  by_cases h1 : i = r
  · subst h1
    rw [if_pos rfl, if_pos rfl, List.getElem?_eq_getElem hr]
    rfl
  · by_cases h2 : i = c
    · subst h2
      rw [if_neg h1, if_pos rfl, if_neg h1, List.getElem?_eq_getElem hc]
      rfl
    · rw [if_neg h1, if_neg h2, if_neg h1]

theorem detach_none (h : TreeHeap) (c : Nat) (hu : h.up c = none) : h.detach c = h := by
  unfold detach
  split
  · rename_i n hn
    rw [up_of hn] at hu
    rw [hu]
  · rfl

theorem detach_get (h : TreeHeap) (c p : Nat) (hu : h.up c = some p) (hp : p < h.nodes.length) (hcp : c ≠ p) (i : Nat) :
    (h.detach c).nodes[i]? =
      if i = c then h.nodes[i]?.map (fun n => { n with parent := none })
      else if i = p then h.nodes[i]?.map (fun n => { n with children := n.children.filter (· ≠ c) })
      else h.nodes[i]? := by
  have hc := up_lt hu
  obtain ⟨n, hn, hnp⟩ := up_some hu
  unfold detach
  simp only [hn, hnp, List.getElem?_eq_getElem hp]
  rw [setNode_get _ _ _ _ (by simpa [setNode] using hc), setNode_get _ _ _ _ hp]
  by_cases h1 : i = c
  · subst h1; simp [hn]
  · by_cases h2 : i = p
    · subst h2; simp [List.getElem?_eq_getElem hp, h1]
    · simp [h1, h2]

theorem detach_up (h : TreeHeap) (c p : Nat) (hu : h.up c = some p) (hp : p < h.nodes.length) (hcp : c ≠ p) (i : Nat) :
    (h.detach c).up i = if i = c then none else h.up i := by
  unfold up
  rw [detach_get h c p hu hp hcp]
  by_cases h1 : i = c
  · subst h1
    rw [if_pos rfl, if_pos rfl, List.getElem?_eq_getElem (up_lt hu)]
    rfl
  · by_cases h2 : i = p
    · subst h2
      rw [if_neg h1, if_pos rfl, if_neg h1, List.getElem?_eq_getElem hp]
      rfl
    · rw [if_neg h1, if_neg h2, if_neg h1]

theorem detach_down (h : TreeHeap) (c p : Nat) (hu : h.up c = some p) (hp : p < h.nodes.length) (hcp : c ≠ p) (i : Nat) :
    (h.detach c).down i = if i = p then (h.down i).filter (· ≠ c) else h.down i := by
  unfold down
  rw [detach_get h c p hu hp hcp]
  by_cases h1 : i = c
  · subst h1
    rw [if_pos rfl, if_neg hcp, List.getElem?_eq_getElem (up_lt hu)]
    rfl
  · by_cases h2 : i = p
    · subst h2
      rw [if_neg h1, if_pos rfl, if_pos rfl, List.getElem?_eq_getElem hp]
      rfl
    · rw [if_neg h1, if_neg h2, if_neg h2]

/-! ## Ancestors -/

theorem above_iff (h : TreeHeap) (a r : Nat) : Above h a r ↔ ∃ p, h.up r = some p ∧ (p = a ∨ Above h a p) := by
  constructor
  · intro ha
    cases ha with
    | parent _ n hn hp => exact ⟨a, by rw [up_of hn, hp], Or.inl rfl⟩
    | step _ p n hn hp ha => exact ⟨p, by rw [up_of hn, hp], Or.inr ha⟩
  · rintro ⟨p, hu, hx⟩
    obtain ⟨n, hn, hp⟩ := up_some hu
    rcases hx with rfl | ha
    · exact .parent r n hn hp
    · exact .step r p n hn hp ha

theorem above_trans {h : TreeHeap} {a b c : Nat} (h1 : Above h a b) (h2 : Above h b c) : Above h a c := by
  induction h2 with
  | parent r n hn hp => exact .step r b n hn hp h1
  | step r p n hn hp _ ih => exact .step r p n hn hp ih

/-- no node is above itself -/
def NoLoop (h : TreeHeap) : Prop := ∀ r, ¬ Above h r r

/-- fewer links, fewer ancestors -/
theorem above_mono {h h' : TreeHeap} (hsub : ∀ i p, h'.up i = some p → h.up i = some p) {a r : Nat} (ha : Above h' a r) :
    Above h a r := by
  induction ha with
  | parent r n hn hp => exact (above_iff h a r).2 ⟨a, hsub r a (by rw [up_of hn, hp]), Or.inl rfl⟩
  | step r p n hn hp _ ih => exact (above_iff h a r).2 ⟨p, hsub r p (by rw [up_of hn, hp]), Or.inr ih⟩

theorem mem_pathUp_above {h : TreeHeap} {k r c : Nat} (hc : c ∈ h.pathUp k r) : c = r ∨ Above h c r := by
  induction k generalizing r with
  | zero => simp [pathUp] at hc
  | succ k ih =>
    rw [pathUp, List.mem_cons] at hc
    rcases hc with rfl | hc
    · exact Or.inl rfl
    · right
      cases hu : h.up r with
      | none => rw [hu] at hc; simp at hc
      | some p =>
        rw [hu] at hc
        exact (above_iff h c r).2 ⟨p, hu, (ih hc).imp Eq.symm id⟩

theorem pathUp_nodup {h : TreeHeap} (hn : h.NoLoop) (k r : Nat) : (h.pathUp k r).Nodup := by
  induction k generalizing r with
  | zero => simp [pathUp]
  | succ k ih =>
    rw [pathUp, List.nodup_cons]
    cases hu : h.up r with
    | none => simp
    | some p =>
      refine ⟨?_, ih p⟩
      intro hc
      exact hn r ((above_iff h r r).2 ⟨p, hu, (mem_pathUp_above hc).imp Eq.symm id⟩)

theorem pathUp_range {h : TreeHeap} (hl : h.Linked) (k r : Nat) (hr : r < h.nodes.length) :
    ∀ c ∈ h.pathUp k r, c < h.nodes.length := by
  induction k generalizing r with
  | zero => simp [pathUp]
  | succ k ih =>
    intro c hc
    rw [pathUp, List.mem_cons] at hc
    rcases hc with rfl | hc
    · exact hr
    · cases hu : h.up r with
      | none => rw [hu] at hc; simp at hc
      | some p =>
        rw [hu] at hc
        exact ih p (hl.range r p hu) c hc

/-- either the walk saw all the ancestors, or it was cut -/
theorem pathUp_complete {h : TreeHeap} {a r : Nat} (ha : Above h a r) (k : Nat) :
    a ∈ h.pathUp k r ∨ (h.pathUp k r).length = k := by
  induction k generalizing r with
  | zero => exact Or.inr rfl
  | succ k ih =>
    obtain ⟨p, hu, hx⟩ := (above_iff h a r).1 ha
    rw [pathUp, hu]
    rcases hx with rfl | hx
    · cases k with
      | zero => exact Or.inr rfl
      | succ k => left; simp [pathUp]
    · rcases ih hx with h1 | h1
      · exact Or.inl (List.mem_cons_of_mem _ h1)
      · exact Or.inr (by simp [h1])

theorem nodup_length_le {l : List Nat} {n : Nat} (hd : l.Nodup) (hl : ∀ x ∈ l, x < n) : l.length ≤ n := by
  have h1 : l.toFinset ⊆ Finset.range n := by
    intro x hx
    rw [List.mem_toFinset] at hx
    exact Finset.mem_range.2 (hl x hx)
  have h2 := Finset.card_le_card h1
  rw [Finset.card_range, List.toFinset_card_of_nodup hd] at h2
  exact h2

/-- the path of a node is made of itself and of the nodes above it -/
theorem mem_path {h : TreeHeap} (hl : h.Linked) (hn : h.NoLoop) {r : Nat} (hr : r < h.nodes.length) (c : Nat) :
    c ∈ h.path r ↔ c = r ∨ Above h c r := by
  constructor
  · exact mem_pathUp_above
  · rintro (rfl | ha)
    · simp [path, pathUp]
    · rcases pathUp_complete ha (h.nodes.length + 1) with h1 | h1
      · exact h1
      · have := nodup_length_le (pathUp_nodup hn (h.nodes.length + 1) r) (pathUp_range hl _ r hr)
        omega

/-! ## The links after each operation -/

theorem linked_ne {h : TreeHeap} (hn : h.NoLoop) {c p : Nat} (hu : h.up c = some p) : c ≠ p := by
  rintro rfl
  exact hn c ((above_iff h c c).2 ⟨c, hu, Or.inl rfl⟩)

theorem detach_links {h : TreeHeap} (hl : h.Linked) (hn : h.NoLoop) (c : Nat) :
    (∀ i, (h.detach c).up i = if i = c then none else h.up i) ∧
    (∀ i, (h.detach c).down i = (h.down i).filter (· ≠ c)) := by
  cases hu : h.up c with
  | none =>
    rw [detach_none h c hu]
    constructor
    · intro i
      by_cases h1 : i = c
      · rw [if_pos h1, h1, hu]
      · rw [if_neg h1]
    · intro i
      rw [List.filter_eq_self.2]
      intro x hx
      rw [hl.iff] at hx
      rw [decide_eq_true_eq]
      rintro rfl
      rw [hu] at hx; cases hx
  | some p =>
    have hp := hl.range c p hu
    have hcp := linked_ne hn hu
    refine ⟨detach_up h c p hu hp hcp, ?_⟩
    intro i
    rw [detach_down h c p hu hp hcp]
    by_cases h1 : i = p
    · rw [if_pos h1]
    · rw [if_neg h1, List.filter_eq_self.2]
      intro x hx
      rw [hl.iff] at hx
      rw [decide_eq_true_eq]
      rintro rfl
      rw [hu] at hx; cases hx
      exact h1 rfl

theorem detach_linked {h : TreeHeap} (hl : h.Linked) (hn : h.NoLoop) (c : Nat) :
    (h.detach c).Linked ∧ (h.detach c).NoLoop := by
  obtain ⟨h1, h2⟩ := detach_links hl hn c
  refine ⟨⟨?_, ?_, ?_⟩, ?_⟩
  · intro i p hu
    rw [h1] at hu
    rw [detach_length]
    split at hu
    · cases hu
    · exact hl.range i p hu
  · intro p
    rw [h2]
    exact (hl.once p).filter _
  · intro i p
    rw [h1, h2, List.mem_filter, hl.iff, decide_eq_true_eq]
    by_cases hi : i = c <;> simp [hi]
  · intro r ha
    refine hn r (above_mono ?_ ha)
    intro i p hu
    rw [h1] at hu
    split at hu
    · cases hu
    · exact hu

theorem attach_linked {h : TreeHeap} (hl : h.Linked) (hn : h.NoLoop) {c r : Nat} (hc : c < h.nodes.length)
    (hr : r < h.nodes.length) (hcr : c ≠ r) (hroot : h.up c = none) (ha : ¬ Above h c r) :
    (h.attach c r).Linked ∧ (h.attach c r).NoLoop := by
  have h1 := attach_up h c r hc hr hcr
  have h2 := attach_down h c r hc hr hcr
  refine ⟨⟨?_, ?_, ?_⟩, ?_⟩
  · intro i p hu
    rw [h1] at hu
    rw [attach_length]
    split at hu
    · cases hu; exact hr
    · exact hl.range i p hu
  · intro p
    rw [h2]
    split
    · rw [List.nodup_append]
      refine ⟨hl.once p, by simp, ?_⟩
      intro x hx y hy
      rw [List.mem_singleton] at hy
      subst hy
      rintro rfl
      rw [hl.iff, hroot] at hx
      cases hx
    · exact hl.once p
  · intro i p
    rw [h1, h2]
    by_cases hp : p = r
    · subst hp
      rw [if_pos rfl, List.mem_append, List.mem_singleton, hl.iff]
      by_cases hi : i = c
      · simp [hi]
      · simp [hi]
    · rw [if_neg hp, hl.iff]
      by_cases hi : i = c
      · subst hi
        rw [hroot, if_pos rfl]
        simp only [Option.some.injEq, reduceCtorEq, false_iff]
        exact fun hx => hp hx.symm
      · rw [if_neg hi]
  · have key : ∀ x y, Above (h.attach c r) x y → Above h x y ∨ ((y = c ∨ Above h c y) ∧ (x = r ∨ Above h x r)) := by
      intro x y hxy
      induction hxy with
      | parent y n hny hp =>
        have hu : (h.attach c r).up y = some x := by rw [up_of hny, hp]
        rw [h1] at hu
        split at hu
        · rename_i hy
          cases hu
          exact Or.inr ⟨Or.inl hy, Or.inl rfl⟩
        · exact Or.inl ((above_iff h x y).2 ⟨x, hu, Or.inl rfl⟩)
      | step y p n hny hp _ ih =>
        have hu : (h.attach c r).up y = some p := by rw [up_of hny, hp]
        rw [h1] at hu
        split at hu
        · rename_i hy
          cases hu
          rcases ih with h3 | ⟨h3, h4⟩
          · exact Or.inr ⟨Or.inl hy, Or.inr h3⟩
          · exact Or.inr ⟨Or.inl hy, h4⟩
        · rcases ih with h3 | ⟨h3, h4⟩
          · exact Or.inl ((above_iff h x y).2 ⟨p, hu, Or.inr h3⟩)
          · refine Or.inr ⟨Or.inr ((above_iff h c y).2 ⟨p, hu, ?_⟩), h4⟩
            rcases h3 with rfl | h3
            · exact Or.inl rfl
            · exact Or.inr h3
    intro x hx
    rcases key x x hx with h3 | ⟨h3, h4⟩
    · exact hn x h3
    · rcases h3 with rfl | h3
      · rcases h4 with rfl | h4
        · exact hcr rfl
        · exact ha h4
      · rcases h4 with rfl | h4
        · exact ha h3
        · exact ha (above_trans h3 h4)

/-- probability of a node, if it has one -/
def probOf (h : TreeHeap) (r : Nat) : Option Num := h.nodes[r]?.bind (·.prob)

theorem detach_prob {h : TreeHeap} (hl : h.Linked) (hn : h.NoLoop) (c i : Nat) : (h.detach c).probOf i = h.probOf i := by
  cases hu : h.up c with
  | none => rw [detach_none h c hu]
  | some p =>
    unfold probOf
    rw [detach_get h c p hu (hl.range c p hu) (linked_ne hn hu)]
    split
    · cases h.nodes[i]? <;> rfl
    · split
      · cases h.nodes[i]? <;> rfl
      · rfl

theorem attach_prob (h : TreeHeap) {c r : Nat} (hc : c < h.nodes.length) (hr : r < h.nodes.length) (hcr : c ≠ r) (i : Nat) :
    (h.attach c r).probOf i = h.probOf i := by
  unfold probOf
  rw [attach_get h c r hc hr hcr]
  split
  · cases h.nodes[i]? <;> rfl
  · split
    · cases h.nodes[i]? <;> rfl
    · rfl

/-- the links and the probabilities after one child is moved -/
theorem move_links {h : TreeHeap} (hl : h.Linked) (hn : h.NoLoop) {c r : Nat} (hc : c < h.nodes.length)
    (hr : r < h.nodes.length) (hp : c ∉ h.path r) :
    ((h.detach c).attach c r).Linked ∧ ((h.detach c).attach c r).NoLoop ∧
    ((h.detach c).attach c r).nodes.length = h.nodes.length ∧
    (∀ i, ((h.detach c).attach c r).up i = if i = c then some r else h.up i) ∧
    (∀ i, ((h.detach c).attach c r).down i = (h.down i).filter (· ≠ c) ++ if i = r then [c] else []) ∧
    (∀ i, ((h.detach c).attach c r).probOf i = h.probOf i) := by
  rw [mem_path hl hn hr, not_or] at hp
  obtain ⟨hcr, ha⟩ := hp
  obtain ⟨d1, d2⟩ := detach_links hl hn c
  obtain ⟨l1, n1⟩ := detach_linked hl hn c
  have hc' : c < (h.detach c).nodes.length := by rw [detach_length]; exact hc
  have hr' : r < (h.detach c).nodes.length := by rw [detach_length]; exact hr
  have hroot : (h.detach c).up c = none := by rw [d1, if_pos rfl]
  have ha' : ¬ Above (h.detach c) c r := by
    intro hx
    refine ha (above_mono ?_ hx)
    intro i p hu
    rw [d1] at hu
    split at hu
    · cases hu
    · exact hu
  obtain ⟨l2, n2⟩ := attach_linked l1 n1 hc' hr' hcr hroot ha'
  refine ⟨l2, n2, by rw [attach_length, detach_length], ?_, ?_, ?_⟩
  · intro i
    rw [attach_up _ c r hc' hr' hcr, d1]
    split <;> rfl
  · intro i
    rw [attach_down _ c r hc' hr' hcr, d2]
    split
    · rfl
    · rw [List.append_nil]
  · intro i
    rw [attach_prob _ hc' hr' hcr, detach_prob hl hn]

theorem adopt_links (cs : List Nat) : ∀ {h : TreeHeap} (_ : h.Linked) (_ : h.NoLoop) {r : Nat} (_ : r < h.nodes.length)
    (_ : ∀ c ∈ cs, c < h.nodes.length),
    (h.adopt r cs).1.Linked ∧ (h.adopt r cs).1.NoLoop ∧ (h.adopt r cs).1.nodes.length = h.nodes.length ∧
    (∀ i, (h.adopt r cs).1.probOf i = h.probOf i) ∧
    ((h.adopt r cs).2 = .ok () → cs.Nodup →
      (∀ i, (h.adopt r cs).1.up i = if i ∈ cs then some r else h.up i) ∧
      (∀ i, (h.adopt r cs).1.down i = (h.down i).filter (· ∉ cs) ++ if i = r then cs else [])) := by
  induction cs with
  | nil =>
    intro h hl hn r hr hcs
    refine ⟨hl, hn, rfl, fun _ => rfl, fun _ _ => ⟨fun i => by simp [adopt], fun i => ?_⟩⟩
    simp [adopt]
  | cons c cs ih =>
    intro h hl hn r hr hcs
    unfold adopt
    by_cases hp : c ∈ h.path r
    · rw [if_pos hp]
      exact ⟨hl, hn, rfl, fun _ => rfl, fun hx => by cases hx⟩
    · rw [if_neg hp]
      obtain ⟨l1, n1, len, u1, w1, p1⟩ := move_links hl hn (hcs c (by simp)) hr hp
      obtain ⟨l2, n2, len2, p2, hok⟩ := ih l1 n1 (by rw [len]; exact hr) (fun x hx => by rw [len]; exact hcs x (by simp [hx]))
      refine ⟨l2, n2, by rw [len2, len], fun i => by rw [p2, p1], ?_⟩
      intro hres hd
      rw [List.nodup_cons] at hd
      obtain ⟨u2, w2⟩ := hok hres hd.2
      constructor
      · intro i
        rw [u2, u1]
        by_cases h1 : i = c
        · subst h1; simp
        · simp [h1]
      · intro i
        rw [w2, w1, List.filter_append, List.filter_filter]
        have e1 : (h.down i).filter (fun a => decide (a ∉ cs) && decide (a ≠ c)) = (h.down i).filter (· ∉ c :: cs) := by
          apply List.filter_congr
          intro x _
          by_cases h1 : x = c <;> by_cases h2 : x ∈ cs <;> simp [h1, h2]
        rw [e1, List.append_assoc]
        congr 1
        split
        · simp [hd.1]
        · simp

theorem foldl_detach (cs : List Nat) : ∀ {h : TreeHeap} (_ : h.Linked) (_ : h.NoLoop),
    (cs.foldl detach h).Linked ∧ (cs.foldl detach h).NoLoop ∧ (cs.foldl detach h).nodes.length = h.nodes.length := by
  induction cs with
  | nil => intro h hl hn; exact ⟨hl, hn, rfl⟩
  | cons c cs ih =>
    intro h hl hn
    obtain ⟨l1, n1⟩ := detach_linked hl hn c
    obtain ⟨l2, n2, len⟩ := ih l1 n1
    exact ⟨l2, n2, by rw [List.foldl_cons, len, detach_length]⟩

theorem orphan_links {h : TreeHeap} (hl : h.Linked) (hn : h.NoLoop) (r : Nat) :
    (h.orphan r).Linked ∧ (h.orphan r).NoLoop ∧ (h.orphan r).nodes.length = h.nodes.length := by
  unfold orphan
  split
  · exact foldl_detach _ hl hn
  · exact ⟨hl, hn, rfl⟩

theorem withChildren_links {h : TreeHeap} (hl : h.Linked) (hn : h.NoLoop) {r : Nat} (hr : r < h.nodes.length) (cs : List Nat)
    (hcs : ∀ c ∈ cs, c < h.nodes.length) :
    (h.withChildren r cs).1.Linked ∧ (h.withChildren r cs).1.NoLoop ∧
    (h.withChildren r cs).1.nodes.length = h.nodes.length ∧
    ((h.withChildren r cs).2 = .ok () →
      (∀ i, (h.withChildren r cs).1.probOf i = h.probOf i) ∧
      (∀ i, (h.withChildren r cs).1.up i = if i ∈ cs then some r else h.up i) ∧
      (∀ i, (h.withChildren r cs).1.down i = (h.down i).filter (· ∉ cs) ++ if i = r then cs else [])) := by
  unfold withChildren
  by_cases hd : cs.Nodup
  · rw [if_neg (not_not.2 hd)]
    obtain ⟨l1, n1, len, p1, hok⟩ := adopt_links cs hl hn hr hcs
    generalize h.adopt r cs = res at *
    rcases res with ⟨h', e | u⟩
    · obtain ⟨l2, n2, len2⟩ := orphan_links l1 n1 r
      exact ⟨l2, n2, by rw [len2, len], fun hx => by cases hx⟩
    · obtain ⟨u2, w2⟩ := hok rfl hd
      exact ⟨l1, n1, len, fun _ => ⟨p1, u2, w2⟩⟩
  · rw [if_pos hd]
    exact ⟨hl, hn, rfl, fun hx => by cases hx⟩

/-! ## The constructor -/

theorem linked_congr {h h' : TreeHeap} (hl : h.Linked) (hn : h.NoLoop) (hlen : h.nodes.length ≤ h'.nodes.length)
    (hu : ∀ i, h'.up i = h.up i) (hd : ∀ i, h'.down i = h.down i) : h'.Linked ∧ h'.NoLoop := by
  refine ⟨⟨?_, ?_, ?_⟩, ?_⟩
  · intro c p hx
    rw [hu] at hx
    exact lt_of_lt_of_le (hl.range c p hx) hlen
  · intro p; rw [hd]; exact hl.once p
  · intro c p; rw [hd, hu]; exact hl.iff c p
  · intro r ha
    exact hn r (above_mono (fun i p hx => by rw [← hu]; exact hx) ha)

theorem above_up {h : TreeHeap} {a r : Nat} (ha : Above h a r) : ∃ y, h.up y = some a := by
  induction ha with
  | parent r n hn hp => exact ⟨r, by rw [up_of hn, hp]⟩
  | step r p n hn hp _ ih => exact ih

theorem push_get (h : TreeHeap) (n : TNode) (i : Nat) :
    (h.nodes ++ [n])[i]? = if i = h.nodes.length then some n else h.nodes[i]? := by
  by_cases h1 : i = h.nodes.length
  · subst h1; simp
  · by_cases h2 : i < h.nodes.length
    · simp [h1, List.getElem?_append_left h2]
    · rw [if_neg h1, List.getElem?_eq_none (by omega : h.nodes.length ≤ i), List.getElem?_eq_none (by simp; omega)]

/-- the links once the new object has its parent -/
theorem started_links {h : TreeHeap} (hl : h.Linked) (hn : h.NoLoop) (a : NodeArgs)
    (hp : ∀ p, a.parent = some p → p < h.nodes.length) :
    (h.started a).Linked ∧ (h.started a).NoLoop ∧
    (∀ i, (h.started a).up i = if i = h.nodes.length then a.parent else h.up i) ∧
    (∀ i, (h.started a).down i = h.down i ++ if a.parent = some i then [h.nodes.length] else []) := by
  have hnone : h.nodes[h.nodes.length]? = none := List.getElem?_eq_none (le_refl _)
  have hu0 : ∀ i, ({ h with nodes := h.nodes ++ [a.fresh] } : TreeHeap).up i = h.up i := by
    intro i
    simp only [up, push_get]
    split
    · rename_i h1; subst h1; rw [hnone]; rfl
    · rfl
  have hd0 : ∀ i, ({ h with nodes := h.nodes ++ [a.fresh] } : TreeHeap).down i = h.down i := by
    intro i
    simp only [down, push_get]
    by_cases h1 : i = h.nodes.length
    · subst h1; rw [if_pos rfl, hnone]; rfl
    · rw [if_neg h1]
  obtain ⟨l1, n1⟩ := linked_congr hl hn (h' := { h with nodes := h.nodes ++ [a.fresh] }) (by simp) hu0 hd0
  have hlast : h.up h.nodes.length = none := by simp [up]
  unfold started
  cases hpar : a.parent with
  | none =>
    refine ⟨l1, n1, ?_, ?_⟩
    · intro i
      rw [withParent, hu0]
      split
      · rename_i h1; subst h1; exact hlast
      · rfl
    · intro i
      rw [withParent, hd0]
      simp
  | some p =>
    have hlt := hp p hpar
    have hne : h.nodes.length ≠ p := by omega
    have ha : ¬ Above ({ h with nodes := h.nodes ++ [a.fresh] } : TreeHeap) h.nodes.length p := by
      intro hx
      obtain ⟨y, hy⟩ := above_up hx
      rw [hu0] at hy
      have := hl.range y _ hy
      omega
    have hc : h.nodes.length < ({ h with nodes := h.nodes ++ [a.fresh] } : TreeHeap).nodes.length := by simp
    have hr : p < ({ h with nodes := h.nodes ++ [a.fresh] } : TreeHeap).nodes.length := by simp; omega
    obtain ⟨l2, n2⟩ := attach_linked l1 n1 hc hr hne (by rw [hu0]; exact hlast) ha
    refine ⟨l2, n2, ?_, ?_⟩
    · intro i
      rw [withParent, attach_up _ _ _ hc hr hne, hu0]
    · intro i
      rw [withParent, attach_down _ _ _ hc hr hne, hd0]
      by_cases h1 : i = p
      · subst h1; simp
      · simp [h1, Ne.symm h1]

/-- what one call of the constructor does to the links -/
theorem create_links {h : TreeHeap} (hl : h.Linked) (hn : h.NoLoop) (a : NodeArgs)
    (hp : ∀ p, a.parent = some p → p < h.nodes.length) (hcs : ∀ c ∈ a.children, c < h.nodes.length) :
    (h.create a).1.Linked ∧ (h.create a).1.NoLoop ∧ (h.create a).1.nodes.length = h.nodes.length + 1 ∧
    (∀ r, (h.create a).2 = .ok r → r = h.nodes.length ∧
      (∀ i, (h.create a).1.up i = if i = r then a.parent else if i ∈ a.children then some r else h.up i) ∧
      (h.create a).1.down r = a.children ∧
      (∀ i, i ≠ r → (h.create a).1.down i =
        (h.down i).filter (· ∉ a.children) ++ if a.parent = some i then [r] else []) ∧
      (∀ i, i ≠ r → (h.create a).1.probOf i = h.probOf i) ∧ ((h.create a).1.probOf r).isSome = true) := by
  obtain ⟨l1, n1, u1, w1⟩ := started_links hl hn a hp
  have slen := started_length h a
  unfold create
  split
  · exact ⟨l1, n1, slen, fun r hx => by cases hx⟩
  · cases hpp : (h.started a).parentProb a.parent with
    | error e => exact ⟨l1, n1, slen, fun r hx => by cases hx⟩
    | ok p =>
      simp only
      have hsr : h.nodes.length < (h.started a).nodes.length := by omega
      generalize hS : (h.started a).setNode h.nodes.length
        { a.fresh with parent := a.parent, prob := some (a.prob * p) } = S
      have hget : ∀ i, S.nodes[i]? = if i = h.nodes.length then
          some { a.fresh with parent := a.parent, prob := some (a.prob * p) } else (h.started a).nodes[i]? := by
        intro i; rw [← hS]; exact setNode_get _ _ _ _ hsr
      have hSlen : S.nodes.length = h.nodes.length + 1 := by rw [← hS]; simp [setNode, slen]
      have hu : ∀ i, S.up i = (h.started a).up i := by
        intro i
        by_cases h1 : i = h.nodes.length
        · rw [u1, if_pos h1]
          unfold up
          rw [hget, if_pos h1]
          rfl
        · unfold up
          rw [hget, if_neg h1]
      have hdn : h.down h.nodes.length = [] := by simp [down]
      have hself : ¬ a.parent = some h.nodes.length := by
        intro hx
        have := hp _ hx
        omega
      have hd : ∀ i, S.down i = (h.started a).down i := by
        intro i
        by_cases h1 : i = h.nodes.length
        · subst h1
          rw [w1, hdn, if_neg hself]
          unfold down
          rw [hget, if_pos rfl]
          rfl
        · unfold down
          rw [hget, if_neg h1]
      obtain ⟨l2, n2⟩ := linked_congr l1 n1 (h' := S) (by omega) hu hd
      obtain ⟨l3, n3, len3, hok⟩ := withChildren_links l2 n2 (r := h.nodes.length) (by omega) a.children
        (fun c hc => by have := hcs c hc; omega)
      have hpr : ∀ i, i ≠ h.nodes.length → S.probOf i = h.probOf i := by
        intro i hi
        unfold probOf
        rw [hget, if_neg hi, started_get h a hp, if_neg hi]
        split
        · cases h.nodes[i]? <;> rfl
        · rfl
      have hpn : (S.probOf h.nodes.length).isSome = true := by
        unfold probOf
        rw [hget, if_pos rfl]
        rfl
      generalize S.withChildren h.nodes.length a.children = res at *
      rcases res with ⟨h', e | u⟩
      · exact ⟨l3, n3, by simp only at len3 ⊢; omega, fun r hx => by cases hx⟩
      · obtain ⟨p4, u4, w4⟩ := hok rfl
        refine ⟨l3, n3, by simp only at len3 ⊢; omega, ?_⟩
        intro r hx
        cases hx
        refine ⟨rfl, ?_, ?_, ?_, ?_, ?_⟩
        · intro i
          simp only at u4 ⊢
          rw [u4, hu, u1]
          by_cases h1 : i = h.nodes.length
          · rw [if_pos h1, if_neg, if_pos h1]
            intro hc
            have := hcs i hc
            omega
          · rw [if_neg h1, if_neg h1]
        · simp only at w4 ⊢
          rw [w4, hd, w1, hdn, if_neg hself]
          simp
        · intro i hi
          simp only at w4 ⊢
          rw [w4, hd, w1, if_neg hi, List.append_nil, List.filter_append]
          congr 1
          split
          · rw [List.filter_eq_self]
            intro x hx
            rw [List.mem_singleton] at hx
            subst hx
            rw [decide_eq_true_eq]
            intro hc
            have := hcs _ hc
            omega
          · rfl
        · intro i hi
          simp only at p4 ⊢
          rw [p4, hpr i hi]
        · simp only at p4 ⊢
          rw [p4]
          exact hpn

/-- what a history leaves -/
theorem history_links (hist : List NodeArgs) (hk : KnownNodes hist) (h : TreeHeap) (h0 : h.nodes = []) :
    (h.createAll hist).1.Linked ∧ (h.createAll hist).1.NoLoop ∧ (h.createAll hist).1.nodes.length = hist.length ∧
    ((∀ x ∈ (h.createAll hist).2, ∃ r, x = .ok r) → ∀ i, i < hist.length → ((h.createAll hist).1.probOf i).isSome = true) := by
  induction hist using List.reverseRecOn with
  | nil =>
    have hup : ∀ i, h.up i = none := by intro i; simp [up, h0]
    have hdown : ∀ i, h.down i = [] := by intro i; simp [down, h0]
    refine ⟨⟨?_, ?_, ?_⟩, ?_, ?_, ?_⟩
    · intro c p hx
      simp only [createAll] at hx
      rw [hup] at hx; cases hx
    · intro p
      simp only [createAll]
      rw [hdown]; exact List.nodup_nil
    · intro c p
      simp only [createAll]
      rw [hdown, hup]; simp
    · intro r ha
      obtain ⟨y, hy⟩ := above_up ha
      simp only [createAll] at hy
      rw [hup] at hy; cases hy
    · simp [createAll, h0]
    · intro _ i hi
      simp at hi
  | append_singleton hist a ih =>
    have lift : ∀ (r : Nat) b, hist[r]? = some b → (hist ++ [a])[r]? = some b := by
      intro r b hb
      have : r < hist.length := by
        by_contra hn
        rw [List.getElem?_eq_none (by omega)] at hb
        cases hb
      rw [List.getElem?_append_left this, hb]
    have hk' : KnownNodes hist := ⟨fun r b p hb => hk.parent r b p (lift r b hb), fun r b c hb => hk.children r b c (lift r b hb)⟩
    obtain ⟨l1, n1, len, hpr⟩ := ih hk'
    rw [createAll_snoc]
    generalize h.createAll hist = res at *
    have hlast : (hist ++ [a])[hist.length]? = some a := by simp
    obtain ⟨l2, n2, len2, hok⟩ := create_links l1 n1 a (fun p hpp => by rw [len]; exact hk.parent _ a p hlast hpp)
      (fun c hc => by rw [len]; exact hk.children _ a c hlast hc)
    refine ⟨l2, n2, by rw [len2, len]; simp, ?_⟩
    intro hall i hi
    obtain ⟨r, hr⟩ := hall _ (List.mem_append_right _ (List.mem_singleton.2 rfl))
    obtain ⟨hr0, -, -, -, h4, h5⟩ := hok r hr
    by_cases h1 : i = r
    · subst h1; exact h5
    · rw [h4 i h1]
      refine hpr (fun x hx => hall x (List.mem_append_left _ hx)) i ?_
      simp only [List.length_append, List.length_singleton] at hi
      omega

end TreeHeap
end Verif
