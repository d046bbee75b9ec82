import Verif.Lemmas.TreeLinks
import Verif.Props.Tree
import Mathlib.Data.List.Forall2

/-! # C62: the nodes of decision trees and their links -/

namespace Verif.Props

open TreeHeap

/-- **C62 (links).**  Whatever calls of the constructor have been made, with a parent, with children, refused or not, a
node is among the children of exactly the node that is its parent, once. -/
theorem c62_links (hist : List NodeArgs) (hk : KnownNodes hist) (h : TreeHeap) (h0 : h.nodes = []) :
    LinksAgree (h.createAll hist).1 := linksAgree (history_links hist hk h h0).1

/-- **C62 (no loop).**  ... and no node is above itself. -/
theorem c62_no_loop (hist : List NodeArgs) (hk : KnownNodes hist) (h : TreeHeap) (h0 : h.nodes = []) (r : Nat) :
    ¬ Above (h.createAll hist).1 r r := (history_links hist hk h h0).2.1 r

/-- **C62 (what a call does).**  After a call that returned a node, this node has the given parent and the given children
in the given order, the children have left their previous parents, the new node is the last child of its parent, and
nothing else has changed. -/
theorem c62_created (hist : List NodeArgs) (hk : KnownNodes hist) (h : TreeHeap) (h0 : h.nodes = []) (a : NodeArgs)
    (hp : ∀ p, a.parent = some p → p < hist.length) (hcs : ∀ c ∈ a.children, c < hist.length) (r : Nat)
    (hr : ((h.createAll hist).1.create a).2 = .ok r) :
    (∃ n, ((h.createAll hist).1.create a).1.nodes[r]? = some n ∧ n.parent = a.parent ∧ n.children = a.children) ∧
    (∀ i n, (h.createAll hist).1.nodes[i]? = some n → ∃ n', ((h.createAll hist).1.create a).1.nodes[i]? = some n' ∧
      n'.parent = (if i ∈ a.children then some r else n.parent) ∧
      n'.children = n.children.filter (· ∉ a.children) ++ (if a.parent = some i then [r] else []) ∧
      n'.prob = n.prob) := by
  obtain ⟨hl, hn, hlen, -⟩ := history_links hist hk h h0
  generalize (h.createAll hist).1 = H at *
  obtain ⟨l2, -, len2, hok⟩ := create_links hl hn a (by rw [hlen]; exact hp) (by rw [hlen]; exact hcs)
  obtain ⟨rfl, hu, hd, hd', hpr, -⟩ := hok r hr
  constructor
  · obtain ⟨n, hn'⟩ : ∃ n, (H.create a).1.nodes[H.nodes.length]? = some n :=
      ⟨_, List.getElem?_eq_getElem (by omega)⟩
    refine ⟨n, hn', ?_, ?_⟩
    · rw [← up_of hn', hu, if_pos rfl]
    · rw [← down_of hn', hd]
  · intro i n hi
    have hlt : i < H.nodes.length := by
      by_contra hx
      rw [List.getElem?_eq_none (by omega)] at hi
      cases hi
    have hne : i ≠ H.nodes.length := by omega
    obtain ⟨n', hn'⟩ : ∃ n', (H.create a).1.nodes[i]? = some n' := ⟨_, List.getElem?_eq_getElem (by omega)⟩
    refine ⟨n', hn', ?_, ?_, ?_⟩
    · rw [← up_of hn', hu, if_neg hne, up_of hi]
    · rw [← down_of hn', hd' i hne, down_of hi]
    · have := hpr i hne
      simpa [probOf, hn', hi] using this

/-- the nodes of the previous tree, then a node that takes two of them as its children, then one that would be its own
ancestor -/
def exMoves : List NodeArgs := exTree ++
  [{ id := "2035", config := ⟨[⟨0, [0]⟩], 1⟩, network := { id := "n" }, parent := some 2, children := [3, 1] },
   { id := "loop", config := ⟨[⟨0, [0]⟩], 1⟩, network := { id := "n" }, parent := some 3, children := [1, 2] }]

theorem exMoves_known : KnownNodes exMoves := by
  constructor
  · intro r a p h hp
    match r, h with
    | 0, h | 1, h | 2, h | 3, h | 4, h | 5, h => cases h; cases hp <;> decide
    | n + 6, h => simp [exMoves, exTree] at h
  · intro r a c h hc
    match r, h with
    | 0, h | 1, h | 2, h | 3, h => cases h; cases hc
    | 4, h | 5, h =>
      cases h
      simp only [List.mem_cons, List.not_mem_nil, or_false] at hc
      rcases hc with rfl | rfl <;> decide
    | n + 6, h => simp [exMoves, exTree] at h

/-- after five calls: the root has lost its child 1, which is now under the new node with 3 -/
example : ((({} : TreeHeap).createAll (exMoves.take 5)).1.nodes.map fun n => (n.parent, n.children)) =
    [(none, [2]), (some 4, []), (some 0, [4]), (some 4, []), (some 2, [3, 1])] := by decide +kernel

example : LinksAgree (({} : TreeHeap).createAll exMoves).1 := c62_links exMoves exMoves_known {} rfl

/-- **C62 fails: a refused call moves nodes.**  When one of the given children is refused because it is above the new node,
the children given before it have left their parents and are roots now, and the new node stays under its parent. -/
theorem c62_refused_moves : KnownNodes exMoves ∧
    (({} : TreeHeap).createAll exMoves).2[5]? = some (.error (.runtimeError "LoopError")) ∧
    ((({} : TreeHeap).createAll exMoves).1.nodes.map fun n => (n.parent, n.children)) =
      [(none, [2]), (none, []), (some 0, [4]), (some 4, [5]), (some 2, [3]), (some 3, [])] :=
  ⟨exMoves_known, by decide +kernel, by decide +kernel⟩

theorem adopt_error {h : TreeHeap} {r : Nat} {cs : List Nat} {e : Err} (he : (h.adopt r cs).2 = .error e) :
    e = .runtimeError "LoopError" := by
  induction cs generalizing h with
  | nil => cases he
  | cons c cs ih =>
    unfold adopt at he
    split at he
    · cases he; rfl
    · exact ih he

/-- **C62 (refused calls), partial.**  A call that is refused for another reason than a loop leaves the links between the
other nodes as they were; the refused node stays the last child of the given parent.  Missing: refusals because of a
loop, where it fails (`c62_refused_moves`). -/
theorem c62_refused_partial (hist : List NodeArgs) (hk : KnownNodes hist) (h : TreeHeap) (h0 : h.nodes = []) (a : NodeArgs)
    (hp : ∀ p, a.parent = some p → p < hist.length) (e : Err)
    (he : ((h.createAll hist).1.create a).2 = .error e) (hne : e ≠ .runtimeError "LoopError") :
    ∀ i n, (h.createAll hist).1.nodes[i]? = some n → ∃ n', ((h.createAll hist).1.create a).1.nodes[i]? = some n' ∧
      n'.parent = n.parent ∧ n'.children = n.children ++ (if a.parent = some i then [hist.length] else []) ∧
      n'.prob = n.prob := by
  obtain ⟨hl, hn, hlen, -⟩ := history_links hist hk h h0
  generalize (h.createAll hist).1 = H at *
  intro i n hi
  have hlt : i < H.nodes.length := by
    by_contra hx
    rw [List.getElem?_eq_none (by omega)] at hi
    cases hi
  have hpH : ∀ p, a.parent = some p → p < H.nodes.length := by rw [hlen]; exact hp
  have hstart : ∃ n', (H.started a).nodes[i]? = some n' ∧ n'.parent = n.parent ∧
      n'.children = n.children ++ (if a.parent = some i then [hist.length] else []) ∧ n'.prob = n.prob := by
    rw [started_get H a hpH, if_neg (by omega), hi]
    split
    · exact ⟨_, rfl, rfl, by rw [← hlen]; rfl, rfl⟩
    · exact ⟨_, rfl, rfl, by simp, rfl⟩
  unfold TreeHeap.create at he ⊢
  split at he
  · rename_i hbad
    rw [if_pos hbad]
    exact hstart
  · rename_i hbad
    rw [if_neg hbad]
    cases hpp : (H.started a).parentProb a.parent with
    | error e => exact hstart
    | ok p =>
      rw [hpp] at he
      simp only at he ⊢
      generalize hS : (H.started a).setNode H.nodes.length
        { a.fresh with parent := a.parent, prob := some (a.prob * p) } = S at he ⊢
      unfold withChildren at he ⊢
      by_cases hd : ¬ a.children.Nodup
      · rw [if_pos hd]
        simp only
        rw [← hS, setNode_get _ _ _ _ (by rw [started_length]; omega), if_neg (by omega)]
        exact hstart
      · exfalso
        rw [if_neg hd] at he
        generalize hres : S.adopt H.nodes.length a.children = res at he
        rcases res with ⟨h', e' | u⟩
        · simp only [Except.error.injEq] at he
          subst he
          exact hne (adopt_error (h := S) (r := H.nodes.length) (cs := a.children) (by rw [hres]))
        · simp only at he
          cases he

example : (((({} : TreeHeap).createAll exTree).1.create
    { id := "twice", config := ⟨[], 0⟩, network := { id := "n" }, parent := some 2, children := [1, 1] }).2) =
    .error (.runtimeError "TreeError") := by decide +kernel

/-! ## Trees -/

theorem tree_exists {h : TreeHeap} (hl : h.Linked) (hn : h.NoLoop)
    (hall : ∀ i, i < h.nodes.length → (h.probOf i).isSome = true) (r : Nat) (hr : r < h.nodes.length) :
    ∃ t, TreeAt h r t := by
  classical
  generalize hk : ((Finset.range h.nodes.length).filter fun x => Above h r x).card = k
  induction k using Nat.strong_induction_on generalizing r with
  | _ k ih =>
    have hget := List.getElem?_eq_getElem hr
    have hsub : ∀ c ∈ h.nodes[r].children, ∃ t, TreeAt h c t := by
      intro c hc
      have hup : h.up c = some r := by
        rw [← hl.iff, down_of hget]; exact hc
      have hlt := up_lt hup
      refine ih _ ?_ c hlt rfl
      rw [← hk]
      apply Finset.card_lt_card
      rw [Finset.ssubset_iff_of_subset]
      · refine ⟨c, ?_, ?_⟩
        · rw [Finset.mem_filter, Finset.mem_range]
          exact ⟨hlt, (above_iff h r c).2 ⟨r, hup, Or.inl rfl⟩⟩
        · rw [Finset.mem_filter]
          exact fun hx => hn c hx.2
      · intro x hx
        rw [Finset.mem_filter] at hx ⊢
        exact ⟨hx.1, above_trans ((above_iff h r c).2 ⟨r, hup, Or.inl rfl⟩) hx.2⟩
    have : ∃ ts, List.Forall₂ (TreeAt h) h.nodes[r].children ts := by
      generalize h.nodes[r].children = l at hsub
      induction l with
      | nil => exact ⟨[], .nil⟩
      | cons x xs ihx =>
        obtain ⟨t, ht'⟩ := hsub x (by simp)
        obtain ⟨ts, hts⟩ := ihx (fun c hc => hsub c (by simp [hc]))
        exact ⟨t :: ts, .cons ht' hts⟩
    obtain ⟨ts, hts⟩ := this
    have hp := hall r hr
    unfold probOf at hp
    rw [hget] at hp
    obtain ⟨p, hp⟩ := Option.isSome_iff_exists.1 hp
    exact ⟨_, .node r _ p ts hget hp hts⟩

/-- **C62 (trees).**  If all the calls returned a node, each node is the root of a tree, whatever parents and children were
given. -/
theorem c62_tree_exists (hist : List NodeArgs) (hk : KnownNodes hist) (h : TreeHeap) (h0 : h.nodes = [])
    (hall : ∀ x ∈ (h.createAll hist).2, ∃ r, x = .ok r) (r : Nat) (hr : r < hist.length) :
    ∃ t, TreeAt (h.createAll hist).1 r t := by
  obtain ⟨hl, hn, hlen, hpr⟩ := history_links hist hk h h0
  exact tree_exists hl hn (fun i hi => hpr hall i (by omega)) r (by omega)

example : ∃ t, TreeAt (({} : TreeHeap).createAll (exMoves.take 5)).1 0 t := by
  refine c62_tree_exists _ ⟨?_, ?_⟩ {} rfl ?_ 0 (by decide)
  · intro r a p h hp
    refine exMoves_known.parent r a p ?_ hp
    rw [List.getElem?_take] at h
    split at h
    · exact h
    · cases h
  · intro r a p h hp
    refine exMoves_known.children r a p ?_ hp
    rw [List.getElem?_take] at h
    split at h
    · exact h
    · cases h
  · have e : (({} : TreeHeap).createAll (exMoves.take 5)).2 = [.ok 0, .ok 1, .ok 2, .ok 3, .ok 4] := by decide +kernel
    intro x hx
    rw [e] at hx
    simp only [List.mem_cons, List.not_mem_nil, or_false] at hx
    rcases hx with rfl | rfl | rfl | rfl | rfl <;> exact ⟨_, rfl⟩

/-- two nodes above a third one are above one another -/
theorem above_comparable {h : TreeHeap} {a b x : Nat} (ha : Above h a x) (hb : Above h b x) : a = b ∨ Above h a b ∨ Above h b a := by
  induction ha with
  | parent x n hn hp =>
    obtain ⟨p, hu, hx⟩ := (above_iff h b x).1 hb
    rw [up_of hn, hp] at hu
    cases hu
    rcases hx with rfl | hx
    · exact Or.inl rfl
    · exact Or.inr (Or.inr hx)
  | step x p n hn hp ha ih =>
    obtain ⟨p', hu, hx⟩ := (above_iff h b x).1 hb
    rw [up_of hn, hp] at hu
    cases hu
    rcases hx with rfl | hx
    · exact Or.inr (Or.inl ha)
    · exact ih hx

/-- two children of a node have no node in common under them -/
theorem children_disjoint {h : TreeHeap} (hn : h.NoLoop) {r c d x : Nat} (hc : h.up c = some r) (hd : h.up d = some r)
    (hne : c ≠ d) (hxc : x = c ∨ Above h c x) (hxd : x = d ∨ Above h d x) : False := by
  have key : ∀ {c d : Nat}, h.up c = some r → h.up d = some r → ¬ Above h c d := by
    intro c d hc hd ha
    obtain ⟨p, hu, hx⟩ := (above_iff h c d).1 ha
    rw [hd] at hu
    cases hu
    rcases hx with rfl | hx
    · exact hn r ((above_iff h r r).2 ⟨r, hc, Or.inl rfl⟩)
    · exact hn r (above_trans ((above_iff h r c).2 ⟨r, hc, Or.inl rfl⟩) hx)
  rcases hxc with rfl | hxc
  · rcases hxd with rfl | hxd
    · exact hne rfl
    · exact key hd hc hxd
  · rcases hxd with rfl | hxd
    · exact key hc hd hxc
    · rcases above_comparable hxc hxd with h1 | h1 | h1
      · exact hne h1
      · exact key hc hd h1
      · exact key hd hc h1

/-- the nodes of a tree, and their numbers -/
theorem tree_numbers {h : TreeHeap} (hl : h.Linked) (hn : h.NoLoop) (t : DTree) :
    ∀ r, TreeAt h r t → ∃ L : List Nat, L.Nodup ∧ (∀ x, x ∈ L ↔ x = r ∨ Above h r x) ∧ List.Forall₂ (TreeAt h) L t.nodes := by
  induction t using DTree.ind with
  | h i c nw p ts ih =>
    intro r htree
    cases htree with
    | node _ n _ _ hget hp hc =>
      have hup : ∀ c, c ∈ n.children ↔ h.up c = some r := by
        intro c; rw [← hl.iff, down_of hget]
      have hnd : n.children.Nodup := by rw [← down_of hget]; exact hl.once r
      -- the numbers under a list of children
      have key : ∀ (cs : List Nat) (ts : List DTree), List.Forall₂ (TreeAt h) cs ts → cs.Nodup →
          (∀ c ∈ cs, h.up c = some r) →
          (∀ t ∈ ts, ∀ r, TreeAt h r t → ∃ L : List Nat, L.Nodup ∧ (∀ x, x ∈ L ↔ x = r ∨ Above h r x) ∧
            List.Forall₂ (TreeAt h) L t.nodes) →
          ∃ L : List Nat, L.Nodup ∧ (∀ x, x ∈ L ↔ ∃ c ∈ cs, x = c ∨ Above h c x) ∧
            List.Forall₂ (TreeAt h) L (DTree.nodesList ts) := by
        intro cs ts hf
        induction hf with
        | nil => intro _ _ _; exact ⟨[], List.nodup_nil, by simp, .nil⟩
        | @cons c t cs ts hct hrest ihl =>
          intro hd hu hts
          rw [List.nodup_cons] at hd
          obtain ⟨L1, d1, m1, f1⟩ := hts t (by simp) c hct
          obtain ⟨L2, d2, m2, f2⟩ := ihl hd.2 (fun c hc => hu c (by simp [hc])) (fun t ht => hts t (by simp [ht]))
          refine ⟨L1 ++ L2, ?_, ?_, List.rel_append f1 f2⟩
          · rw [List.nodup_append]
            refine ⟨d1, d2, ?_⟩
            intro x hx y hy hxy
            subst hxy
            rw [m1] at hx
            rw [m2] at hy
            obtain ⟨d, hd', hy⟩ := hy
            exact children_disjoint hn (hu c (by simp)) (hu d (by simp [hd'])) (fun e => hd.1 (e ▸ hd')) hx hy
          · intro x
            rw [List.mem_append, m1, m2]
            simp
      obtain ⟨L, d, m, f⟩ := key _ _ hc hnd (fun c hc => (hup c).1 hc) ih
      have hbelow : ∀ x, x ∈ L ↔ Above h r x := by
        intro x
        rw [m]
        constructor
        · rintro ⟨c, hc, rfl | hx⟩
          · exact (above_iff h r x).2 ⟨r, (hup x).1 hc, Or.inl rfl⟩
          · exact above_trans ((above_iff h r c).2 ⟨r, (hup c).1 hc, Or.inl rfl⟩) hx
        · intro hx
          induction hx with
          | parent x n' hn' hp' => exact ⟨x, (hup x).2 (by rw [up_of hn', hp']), Or.inl rfl⟩
          | step x q n' hn' hp' _ ihx =>
            obtain ⟨c, hc, hx⟩ := ihx
            refine ⟨c, hc, Or.inr ((above_iff h c x).2 ⟨q, by rw [up_of hn', hp'], ?_⟩)⟩
            rcases hx with rfl | hx
            · exact Or.inl rfl
            · exact Or.inr hx
      refine ⟨r :: L, ?_, ?_, ?_⟩
      · rw [List.nodup_cons]
        exact ⟨fun hx => hn r ((hbelow r).1 hx), d⟩
      · intro x
        rw [List.mem_cons, hbelow]
      · unfold DTree.nodes
        exact .cons (.node r n p ts hget hp hc) f

/-- **C48 (each node once).**  Traversing the tree of a node visits this node and the nodes that are under it, each of them
once. -/
theorem c48_each_once (hist : List NodeArgs) (hk : KnownNodes hist) (h : TreeHeap) (h0 : h.nodes = []) (r : Nat) (t : DTree)
    (ht : TreeAt (h.createAll hist).1 r t) :
    ∃ L : List Nat, L.Nodup ∧ (∀ x, x ∈ L ↔ x = r ∨ Above (h.createAll hist).1 r x) ∧
      List.Forall₂ (TreeAt (h.createAll hist).1) L (t.traverse none) := by
  obtain ⟨hl, hn, -, -⟩ := history_links hist hk h h0
  obtain ⟨L, d, m, f⟩ := tree_numbers hl hn t r ht
  have hperm := c48_traverse_all t
  have : (Relation.Comp (List.Forall₂ (TreeAt (h.createAll hist).1)) List.Perm) L (t.traverse none) :=
    ⟨_, f, hperm.symm⟩
  rw [List.forall₂_comp_perm_eq_perm_comp_forall₂] at this
  obtain ⟨L', hp', f'⟩ := this
  exact ⟨L', hp'.nodup_iff.1 d, fun x => by rw [← hp'.mem_iff, m], f'⟩

end Verif.Props
