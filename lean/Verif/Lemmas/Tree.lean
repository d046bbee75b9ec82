import Verif.Spec.Tree
import Verif.Lemmas.Basic

/-! # Lemmas on decision trees -/

namespace Verif
namespace TreeHeap

theorem setNode_get (h : TreeHeap) (r : Nat) (n : TNode) (i : Nat) (hr : r < h.nodes.length) :
    (h.setNode r n).nodes[i]? = if i = r then some n else h.nodes[i]? := by
  unfold setNode
  simp only [List.getElem?_set]
  by_cases hi : i = r
  · subst hi; simp [hr]
  · simp [hi, Ne.symm hi]

/-- a new child for the parent -/
def addChild (r : Nat) (n : TNode) : TNode := { n with children := n.children ++ [r] }

theorem started_get (h : TreeHeap) (a : NodeArgs) (hp : ∀ p, a.parent = some p → p < h.nodes.length) (i : Nat) :
    (h.started a).nodes[i]? =
      if i = h.nodes.length then some { a.fresh with parent := a.parent }
      else if a.parent = some i then h.nodes[i]?.map (addChild h.nodes.length)
      else h.nodes[i]? := by
  have hpush : ∀ i : Nat, (h.nodes ++ [a.fresh])[i]? = if i = h.nodes.length then some a.fresh else h.nodes[i]? := by
    intro i
    by_cases h1 : i = h.nodes.length
    · subst h1; simp
    · by_cases h2 : i < h.nodes.length
      · simp [h1, List.getElem?_append_left h2]
      · rw [if_neg h1, List.getElem?_eq_none (by omega : h.nodes.length ≤ i), List.getElem?_eq_none (by simp; omega)]
  unfold started
  cases hpar : a.parent with
  | none =>
    simp only [withParent, hpush]
    rfl
  | some p =>
    have hlt := hp p hpar
    simp only [withParent, attach, hpush, if_true, if_neg (by omega : ¬ p = h.nodes.length), List.getElem?_eq_getElem hlt]
    rw [setNode_get _ _ _ _ (by simp [setNode]; omega), setNode_get _ _ _ _ (by simp)]
    simp only [hpush]
    by_cases h1 : i = h.nodes.length
    · rw [if_neg (by omega : ¬ i = p), if_pos h1, if_pos h1]
    · by_cases h3 : i = p
      · subst h3
        simp [h1, List.getElem?_eq_getElem hlt, addChild]
      · have h4 : ¬ p = i := fun h => h3 h.symm
        simp only [h3, h1, if_false, Option.some.injEq, h4]

theorem started_length (h : TreeHeap) (a : NodeArgs) : (h.started a).nodes.length = h.nodes.length + 1 := by
  unfold started withParent attach
  split
  · simp
  · split <;> simp [setNode]

theorem started_parentProb (h : TreeHeap) (a : NodeArgs) (hp : ∀ p, a.parent = some p → p < h.nodes.length) :
    (h.started a).parentProb a.parent = h.parentProb a.parent := by
  cases hpar : a.parent with
  | none => rfl
  | some p =>
    have hlt := hp p hpar
    have := started_get h a hp p
    unfold parentProb
    simp only [this, if_neg (by omega : ¬ p = h.nodes.length), hpar, if_true, List.getElem?_eq_getElem hlt,
      Option.map_some, addChild]

/-- probability stored by the constructor -/
def newProb (h : TreeHeap) (a : NodeArgs) : Option Num :=
  if a.prob.lt 0 || Num.lt 1 a.prob then none
  else match h.parentProb a.parent with
    | .ok p => some (a.prob * p)
    | .error _ => none

theorem withChildren_nil (h : TreeHeap) (r : Nat) : h.withChildren r [] = (h, .ok ()) := by
  simp [withChildren, adopt]

theorem create_get (h : TreeHeap) (a : NodeArgs) (hc : a.children = [])
    (hp : ∀ p, a.parent = some p → p < h.nodes.length) (i : Nat) :
    (h.create a).1.nodes[i]? =
      if i = h.nodes.length then some { a.fresh with parent := a.parent, prob := h.newProb a }
      else if a.parent = some i then h.nodes[i]?.map (addChild h.nodes.length)
      else h.nodes[i]? := by
  unfold create newProb
  rw [started_parentProb h a hp, hc]
  by_cases hbad : (a.prob.lt 0 || Num.lt 1 a.prob) = true
  · simp only [hbad, if_true, started_get h a hp]
    rfl
  · simp only [hbad]
    cases hpp : h.parentProb a.parent with
    | error e => simp only [Bool.false_eq_true, if_false, started_get h a hp]; rfl
    | ok p =>
      simp only [Bool.false_eq_true, if_false, withChildren_nil]
      rw [setNode_get _ _ _ _ (by rw [started_length]; omega), started_get h a hp]
      split_ifs <;> rfl

theorem create_length (h : TreeHeap) (a : NodeArgs) (hc : a.children = []) : (h.create a).1.nodes.length = h.nodes.length + 1 := by
  unfold create
  rw [hc]
  split
  · exact started_length h a
  · split
    · exact started_length h a
    · simp [withChildren_nil, setNode, started_length]

theorem create_result (h : TreeHeap) (a : NodeArgs) (hc : a.children = []) (hp : ∀ p, a.parent = some p → p < h.nodes.length) :
    ((h.newProb a).isSome = true → (h.create a).2 = .ok h.nodes.length) ∧
    (h.newProb a = none → ∃ e, (h.create a).2 = .error e) := by
  unfold create newProb
  rw [started_parentProb h a hp, hc]
  simp only [withChildren_nil]
  split
  · simp
  · split <;> simp_all

end TreeHeap

/-! ## Histories -/

theorem topDown_snoc {hist : List TreeHeap.NodeArgs} {a : TreeHeap.NodeArgs} (h : TopDown (hist ++ [a])) : TopDown hist := by
  have lift : ∀ (r : Nat) b, hist[r]? = some b → (hist ++ [a])[r]? = some b := by
    intro r b hb
    have : r < hist.length := by
      by_contra hn
      rw [List.getElem?_eq_none (by omega)] at hb
      cases hb
    rw [List.getElem?_append_left this, hb]
  exact ⟨fun r b hb => h.children r b (lift r b hb), fun r b p hb => h.parent r b p (lift r b hb),
    fun r b hb => h.finite r b (lift r b hb)⟩

theorem probAt_lt {hist : List TreeHeap.NodeArgs} {r : Nat} {q : ℚ} (h : ProbAt hist r q) : r < hist.length := by
  have : ∀ a, hist[r]? = some a → r < hist.length := by
    intro a ha
    by_contra hn
    rw [List.getElem?_eq_none (by omega)] at ha
    cases ha
  cases h with
  | root a h => exact this _ (by assumption)
  | child a p c q h => exact this _ (by assumption)

theorem probAt_lift {hist : List TreeHeap.NodeArgs} (a : TreeHeap.NodeArgs) {r : Nat} {q : ℚ} (h : ProbAt hist r q) :
    ProbAt (hist ++ [a]) r q := by
  have lift : ∀ (r : Nat) b, hist[r]? = some b → (hist ++ [a])[r]? = some b := by
    intro r b hb
    have : r < hist.length := by
      by_contra hn
      rw [List.getElem?_eq_none (by omega)] at hb
      cases hb
    rw [List.getElem?_append_left this, hb]
  induction h with
  | root r b q h hp hq h0 h1 => exact .root r b q (lift _ _ h) hp hq h0 h1
  | child r b p c q h hp hc h0 h1 _ ih => exact .child r b p c q (lift _ _ h) hp hc h0 h1 ih

theorem probAt_lower {hist : List TreeHeap.NodeArgs} {a : TreeHeap.NodeArgs} (ht : TopDown (hist ++ [a])) {r : Nat} {q : ℚ}
    (h : ProbAt (hist ++ [a]) r q) (hr : r < hist.length) : ProbAt hist r q := by
  have down : ∀ (r : Nat) b, r < hist.length → (hist ++ [a])[r]? = some b → hist[r]? = some b := by
    intro r b hr hb
    rw [List.getElem?_append_left hr] at hb
    exact hb
  induction h with
  | root r b q h hp hq h0 h1 => exact .root r b q (down _ _ hr h) hp hq h0 h1
  | child r b p c q h hp hc h0 h1 _ ih =>
    exact .child r b p c q (down _ _ hr h) hp hc h0 h1 (ih (lt_trans (ht.parent r b p h hp) hr))

theorem probAt_unique {hist : List TreeHeap.NodeArgs} {r : Nat} {q q' : ℚ} (h : ProbAt hist r q) (h' : ProbAt hist r q') :
    q = q' := by
  induction h generalizing q' with
  | root r b q h hp hq h0 h1 =>
    cases h' with
    | root _ b' _ h2 hp' hq' =>
      rw [h] at h2; cases h2
      rw [hq] at hq'; cases hq'; rfl
    | child _ b' p c q h2 hp' =>
      rw [h] at h2; cases h2
      rw [hp] at hp'; cases hp'
  | child r b p c q h hp hc h0 h1 _ ih =>
    cases h' with
    | root _ b' _ h2 hp' hq' =>
      rw [h] at h2; cases h2
      rw [hp] at hp'; cases hp'
    | child _ b' p' c' q' h2 hp' hc' _ _ hq' =>
      rw [h] at h2; cases h2
      rw [hp] at hp'; cases hp'
      rw [hc] at hc'; cases hc'
      rw [ih hq']

theorem probAt_range {hist : List TreeHeap.NodeArgs} {r : Nat} {q : ℚ} (h : ProbAt hist r q) : 0 ≤ q ∧ q ≤ 1 := by
  induction h with
  | root r b q h hp hq h0 h1 => exact ⟨h0, h1⟩
  | child r b p c q h hp hc h0 h1 _ ih => exact ⟨mul_nonneg h0 ih.1, mul_le_one₀ h1 ih.1 ih.2⟩

/-- what the heap contains after a top-down history -/
structure HistInv (hist : List TreeHeap.NodeArgs) (h : TreeHeap) (rs : List (R Nat)) : Prop where
  length : h.nodes.length = hist.length
  results : rs.length = hist.length
  node : ∀ (r : Nat) (a : TreeHeap.NodeArgs), hist[r]? = some a → ∃ n, h.nodes[r]? = some n ∧
    n = { a.fresh with parent := a.parent, children := childCalls hist r, prob := n.prob } ∧
    (∀ p, n.prob = some p ↔ ∃ q, ProbAt hist r q ∧ p = .fin q) ∧
    (rs[r]? = some (.ok r) ↔ n.prob.isSome = true) ∧ ((∃ e, rs[r]? = some (.error e)) ↔ n.prob = none)

theorem TreeHeap.createAll_snoc (h : TreeHeap) (as : List TreeHeap.NodeArgs) (a : TreeHeap.NodeArgs) :
    h.createAll (as ++ [a]) = (((h.createAll as).1.create a).1, (h.createAll as).2 ++ [((h.createAll as).1.create a).2]) := by
  induction as generalizing h with
  | nil => rfl
  | cons b as ih =>
    simp only [List.cons_append, createAll]
    rw [ih]

theorem childCalls_snoc (hist : List TreeHeap.NodeArgs) (a : TreeHeap.NodeArgs) (r : Nat) :
    childCalls (hist ++ [a]) r = childCalls hist r ++ (if a.parent = some r then [hist.length] else []) := by
  unfold childCalls
  rw [List.length_append, List.length_singleton, List.range_succ, List.filter_append]
  congr 1
  · apply List.filter_congr
    intro i hi
    rw [List.mem_range] at hi
    rw [List.getElem?_append_left hi]
  · simp only [List.filter_cons, List.filter_nil]
    simp

theorem childCalls_end (hist : List TreeHeap.NodeArgs) (h : TopDown hist) : childCalls hist hist.length = [] := by
  unfold childCalls
  rw [List.filter_eq_nil_iff]
  intro i hi
  rw [List.mem_range] at hi
  simp only [decide_eq_true_eq]
  intro hx
  rw [Option.bind_eq_some_iff] at hx
  obtain ⟨a, ha, hp⟩ := hx
  have := h.parent i a _ ha hp
  omega

theorem histInv (hist : List TreeHeap.NodeArgs) (ht : TopDown hist) (h : TreeHeap) (h0 : h.nodes = []) :
    HistInv hist (h.createAll hist).1 (h.createAll hist).2 := by
  induction hist using List.reverseRecOn with
  | nil => exact ⟨by simp [TreeHeap.createAll, h0], rfl, fun r a hr => by simp at hr⟩
  | append_singleton hist a ih =>
    have ht' := topDown_snoc ht
    have inv := ih ht'
    rw [TreeHeap.createAll_snoc]
    generalize hH : (h.createAll hist).1 = H at inv ⊢
    generalize (h.createAll hist).2 = rs at inv ⊢
    have hlast : (hist ++ [a])[hist.length]? = some a := by simp
    have hc := ht.children _ a hlast
    have hp : ∀ p, a.parent = some p → p < H.nodes.length := by
      intro p hpp
      rw [inv.length]
      exact ht.parent _ a p hlast hpp
    obtain ⟨c, hcq⟩ := ht.finite _ a hlast
    have hget := TreeHeap.create_get H a hc hp
    obtain ⟨hres1, hres2⟩ := TreeHeap.create_result H a hc hp
    -- the probability of the new node
    have hnew : ∀ p, H.newProb a = some p ↔ ∃ q, ProbAt (hist ++ [a]) hist.length q ∧ p = .fin q := by
      intro p
      have hrange : (a.prob.lt 0 || Num.lt 1 a.prob) = true ↔ ¬ (0 ≤ c ∧ c ≤ 1) := by
        rw [hcq]
        simp only [Num.lt, Num.le, Num.eqb, Num.zero_def, Num.one_def, Bool.or_eq_true, Bool.and_eq_true, decide_eq_true_eq,
          Bool.not_eq_true', decide_eq_false_iff_not, Num.fin_inj]
        constructor
        · rintro (⟨h1, h2⟩ | ⟨h1, h2⟩) ⟨h3, h4⟩
          · exact h2 (le_antisymm h1 h3)
          · exact h2 (le_antisymm h1 h4)
        · intro hn
          by_cases h3 : 0 ≤ c
          · right
            have : ¬ c ≤ 1 := fun h4 => hn ⟨h3, h4⟩
            push Not at this
            exact ⟨le_of_lt this, ne_of_lt this⟩
          · left
            push Not at h3
            exact ⟨le_of_lt h3, ne_of_lt h3⟩
      unfold TreeHeap.newProb
      by_cases hbad : (a.prob.lt 0 || Num.lt 1 a.prob) = true
      · rw [if_pos hbad]
        constructor
        · intro hx; cases hx
        · rintro ⟨q, hq, rfl⟩
          exfalso
          rw [hrange] at hbad
          cases hq with
          | root _ b _ h2 hp' hq' h0 h1 =>
            rw [hlast] at h2; cases h2
            rw [hcq] at hq'; cases hq'
            exact hbad ⟨h0, h1⟩
          | child _ b p c' q h2 hp' hc' h0 h1 hq' =>
            rw [hlast] at h2; cases h2
            rw [hcq] at hc'; cases hc'
            exact hbad ⟨h0, h1⟩
      · rw [if_neg hbad]
        rw [hrange, not_not] at hbad
        cases hpar : a.parent with
        | none =>
          simp only [TreeHeap.parentProb, Option.some.injEq]
          rw [hcq, Num.one_def, Num.fin_mul_fin, mul_one]
          constructor
          · rintro rfl
            exact ⟨c, .root _ a c hlast hpar hcq hbad.1 hbad.2, rfl⟩
          · rintro ⟨q, hq, rfl⟩
            rw [probAt_unique (.root _ a c hlast hpar hcq hbad.1 hbad.2) hq]
        | some par =>
          have hlt := hp par hpar
          rw [inv.length] at hlt
          obtain ⟨b, hb⟩ : ∃ b, hist[par]? = some b := ⟨hist[par], List.getElem?_eq_getElem hlt⟩
          obtain ⟨n, hn, -, hnp, -, -⟩ := inv.node par b hb
          simp only [TreeHeap.parentProb, hn]
          cases hprob : n.prob with
          | none =>
            simp only
            constructor
            · intro hx; cases hx
            · rintro ⟨q, hq, rfl⟩
              exfalso
              cases hq with
              | root _ b _ h2 hp' hq' h0 h1 =>
                rw [hlast] at h2; cases h2
                rw [hpar] at hp'; cases hp'
              | child _ b p c' q h2 hp' hc' h0 h1 hq' =>
                rw [hlast] at h2; cases h2
                rw [hpar] at hp'; cases hp'
                have := (hnp (.fin q)).2 ⟨q, probAt_lower ht hq' hlt, rfl⟩
                rw [hprob] at this; cases this
          | some v =>
            obtain ⟨q, hq, rfl⟩ := (hnp v).1 hprob
            simp only [Option.some.injEq]
            rw [hcq, Num.fin_mul_fin]
            have hchild : ProbAt (hist ++ [a]) hist.length (c * q) :=
              .child _ a par c q hlast hpar hcq hbad.1 hbad.2 (probAt_lift a hq)
            constructor
            · rintro rfl
              exact ⟨_, hchild, rfl⟩
            · rintro ⟨q', hq', rfl⟩
              rw [probAt_unique hchild hq']
    refine ⟨?_, ?_, ?_⟩
    · rw [TreeHeap.create_length H a hc, inv.length]; simp
    · simp [inv.results]
    · intro r b hr
      rw [hget, inv.length]
      by_cases hrl : r = hist.length
      · subst hrl
        rw [hlast] at hr
        cases hr
        refine ⟨_, if_pos rfl, ?_, hnew, ?_, ?_⟩
        · simp only
          rw [childCalls_snoc, childCalls_end hist ht', if_neg (fun hh => by have := ht.parent _ a _ hlast hh; omega)]
          rfl
        · simp only [List.getElem?_append_right (le_of_eq inv.results), inv.results, Nat.sub_self, List.getElem?_cons_zero,
            Option.some.injEq]
          cases hnp : H.newProb a with
          | none =>
            obtain ⟨e, he⟩ := hres2 hnp
            rw [he]; simp
          | some v =>
            rw [hres1 (by rw [hnp]; rfl), inv.length]; simp
        · simp only [List.getElem?_append_right (le_of_eq inv.results), inv.results, Nat.sub_self, List.getElem?_cons_zero,
            Option.some.injEq]
          cases hnp : H.newProb a with
          | none =>
            obtain ⟨e, he⟩ := hres2 hnp
            rw [he]; simp
          | some v =>
            rw [hres1 (by rw [hnp]; rfl)]; simp
      · have hlt : r < hist.length := by
          have : r < (hist ++ [a]).length := by
            by_contra hn
            rw [List.getElem?_eq_none (by omega)] at hr
            cases hr
          simp at this
          omega
        rw [List.getElem?_append_left hlt] at hr
        obtain ⟨n, hn, heq, hpr, hok, herr⟩ := inv.node r b hr
        have hrs : (rs ++ [(H.create a).2])[r]? = rs[r]? := List.getElem?_append_left (by rw [inv.results]; exact hlt)
        rw [if_neg hrl]
        have hiff : ∀ p, n.prob = some p ↔ ∃ q, ProbAt (hist ++ [a]) r q ∧ p = .fin q := by
          intro p
          rw [hpr]
          constructor
          · rintro ⟨q, hq, rfl⟩; exact ⟨q, probAt_lift a hq, rfl⟩
          · rintro ⟨q, hq, rfl⟩; exact ⟨q, probAt_lower ht hq hlt, rfl⟩
        by_cases hpar : a.parent = some r
        · rw [if_pos hpar, hn]
          refine ⟨_, rfl, ?_, hiff, by rw [hrs]; exact hok, by rw [hrs]; exact herr⟩
          unfold TreeHeap.addChild
          rw [heq]
          simp only [childCalls_snoc, if_pos hpar, inv.length]
        · rw [if_neg hpar]
          refine ⟨n, hn, ?_, hiff, by rw [hrs]; exact hok, by rw [hrs]; exact herr⟩
          rw [childCalls_snoc, if_neg hpar, List.append_nil]
          exact heq

end Verif
