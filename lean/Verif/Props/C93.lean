import Verif.Spec.Regroup
import Verif.Props.C14
import Verif.Props.C29
import Verif.Lemmas.Rounds

/-!
# C93 A leaf is a leaf, whatever it is called and wherever it is kept

What happens to a tensor depends neither on the name of its accumulator nor on the tree it is part of.
-/

namespace JaxAct
open ACTStates
variable {α : Type} [Arith α]

omit [Arith α] in
theorem Tensor.ext_some {a b : Tensor α} (hd : a.dtype = b.dtype) (hs : a.shape = b.shape)
    (h : ∀ i x, a.at? i = some x → b.at? i = some x) : a = b := by
  refine Tensor.ext_at hd hs fun i => ?_
  cases ha : a.at? i with
  | some x => exact (h i x ha).symm
  | none =>
    cases hb : b.at? i with
    | none => rfl
    | some y =>
      obtain ⟨x, hx⟩ := Controller.at?_some_of_shape hs hb
      rw [ha] at hx
      cases hx

/-- The halting state after an iteration is determined by the halting state before. -/
theorem IterStep.core_eq {s t s' t' : ACTStates α} {h : Tensor α} (hs : s.WF)
    (st : IterStep s h s') (tt : IterStep t h t') (he : s.epsilon = t.epsilon)
    (hd : s.depression_constant = t.depression_constant) (hp : s.probabilities = t.probabilities)
    (hr : s.residuals = t.residuals) (hi : s.iterations = t.iterations) :
    s'.probabilities = t'.probabilities ∧ s'.residuals = t'.residuals ∧
      s'.iterations = t'.iterations := by
  have key : ∀ b x, s.probabilities.at? b = some x →
      s'.probabilities.at? b = t'.probabilities.at? b ∧ s'.residuals.at? b = t'.residuals.at? b ∧
      s'.iterations.at? b = t'.iterations.at? b := by
    intro b x hx
    obtain ⟨r, n, y, h1, h2, h3, k1, k2, k3⟩ := st.cellAt hs hx
    obtain ⟨l1, l2, l3⟩ := tt.cell b x r n y (hp ▸ hx) (hr ▸ h1) (hi ▸ h2) h3
    rw [k1, k2, k3, l1, l2, l3, hp, hi, he, hd]
    exact ⟨rfl, rfl, rfl⟩
  refine ⟨Tensor.ext_some (by rw [st.pdtype, tt.pdtype, hp]) (by rw [st.pshape, tt.pshape, hp])
      fun i x hx => ?_, Tensor.ext_some (by rw [st.rdtype, tt.rdtype, hr])
      (by rw [st.rshape, tt.rshape, hr]) fun i x hx => ?_,
    Tensor.ext_some (by rw [st.idtype, tt.idtype, hi]) (by rw [st.ishape, tt.ishape, hi])
      fun i x hx => ?_⟩
  · obtain ⟨y, hy⟩ := Controller.at?_some_of_shape (b := s.probabilities) st.pshape.symm hx
    rw [← (key i y hy).1]; exact hx
  · obtain ⟨y, hy⟩ := Controller.at?_some_of_shape (b := s.probabilities)
      (by rw [st.rshape, hs.res_shape]) hx
    rw [← (key i y hy).2.1]; exact hx
  · obtain ⟨y, hy⟩ := Controller.at?_some_of_shape (b := s.probabilities)
      (by rw [st.ishape, hs.it_shape]) hx
    rw [← (key i y hy).2.2]; exact hx

/-- The same for `reset_batches`. -/
theorem ResetStep.core_eq {s t s' t' : ACTStates α} (hs : s.WF)
    (st : ResetStep s s') (tt : ResetStep t t') (he : s.epsilon = t.epsilon)
    (hp : s.probabilities = t.probabilities)
    (hr : s.residuals = t.residuals) (hi : s.iterations = t.iterations) :
    s'.probabilities = t'.probabilities ∧ s'.residuals = t'.residuals ∧
      s'.iterations = t'.iterations := by
  have key : ∀ b x, s.probabilities.at? b = some x →
      s'.probabilities.at? b = t'.probabilities.at? b ∧ s'.residuals.at? b = t'.residuals.at? b ∧
      s'.iterations.at? b = t'.iterations.at? b := by
    intro b x hx
    obtain ⟨r, n, h1, h2⟩ := hs.cell hx
    obtain ⟨k1, k2, k3⟩ := st.cell b x r n hx h1 h2
    obtain ⟨l1, l2, l3⟩ := tt.cell b x r n (hp ▸ hx) (hr ▸ h1) (hi ▸ h2)
    rw [k1, k2, k3, l1, l2, l3, hp, hi, he]
    exact ⟨rfl, rfl, rfl⟩
  refine ⟨Tensor.ext_some (by rw [st.pdtype, tt.pdtype, hp]) (by rw [st.pshape, tt.pshape, hp])
      fun i x hx => ?_, Tensor.ext_some (by rw [st.rdtype, tt.rdtype, hr])
      (by rw [st.rshape, tt.rshape, hr]) fun i x hx => ?_,
    Tensor.ext_some (by rw [st.idtype, tt.idtype, hi]) (by rw [st.ishape, tt.ishape, hi])
      fun i x hx => ?_⟩
  · obtain ⟨y, hy⟩ := Controller.at?_some_of_shape (b := s.probabilities) st.pshape.symm hx
    rw [← (key i y hy).1]; exact hx
  · obtain ⟨y, hy⟩ := Controller.at?_some_of_shape (b := s.probabilities)
      (by rw [st.rshape, hs.res_shape]) hx
    rw [← (key i y hy).2.1]; exact hx
  · obtain ⟨y, hy⟩ := Controller.at?_some_of_shape (b := s.probabilities)
      (by rw [st.ishape, hs.it_shape]) hx
    rw [← (key i y hy).2.2]; exact hx

/-- A leaf before and after an iteration. -/
theorem IterStep.leaf {s s' : ACTStates α} {h : Tensor α} (st : IterStep s h s') {n : String}
    {k : Nat} :
    (leaf? s.accumulators n k = none ∧ leaf? s'.accumulators n k = none) ∨
    ∃ ta tu ta', leaf? s.accumulators n k = some (.tensor ta) ∧
      leaf? s.updates n k = some (.tensor tu) ∧ leaf? s'.accumulators n k = some (.tensor ta') ∧
      LeafStep s h ta tu ta' := by
  cases hg : s.accumulators.get? n with
  | none =>
    have hg' : s'.accumulators.get? n = none := by
      rw [Dict.get?_eq_none_iff, st.akeys]; exact Dict.get?_eq_none_iff.1 hg
    left
    simp [leaf?, hg, hg']
  | some a =>
    obtain ⟨u, a', e1, e2, e3⟩ := st.tree n a hg
    have hlen : a'.treeLeaves.length = a.treeLeaves.length := by
      rw [← PyTree.treeStructure_leaves_length, e3.struct, PyTree.treeStructure_leaves_length]
    cases hl : a.treeLeaves[k]? with
    | none =>
      left
      refine ⟨by simp [leaf?, hg, hl], ?_⟩
      simp only [leaf?, e2]
      rw [List.getElem?_eq_none_iff] at hl ⊢
      omega
    | some l =>
      right
      obtain ⟨ta, tu, ta', f1, f2, f3, f4⟩ := e3.leaf k l hl
      subst f1
      exact ⟨ta, tu, ta', by simp [leaf?, hg, hl], by simp [leaf?, e1, f2], by simp [leaf?, e2, f3],
        f4⟩

/-- A leaf before and after a reset. -/
theorem ResetStep.leaf {s s' : ACTStates α} (hwf : s.WF) (st : ResetStep s s') {n : String}
    {k : Nat} :
    (leaf? s.accumulators n k = none ∧ leaf? s'.accumulators n k = none) ∨
    ∃ ta td ta', leaf? s.accumulators n k = some (.tensor ta) ∧
      leaf? s.defaults n k = some (.tensor td) ∧ leaf? s'.accumulators n k = some (.tensor ta') ∧
      td.shape = ta.shape ∧ LeafReset s ta td ta' := by
  cases hg : s.accumulators.get? n with
  | none =>
    have hg' : s'.accumulators.get? n = none := by
      rw [Dict.get?_eq_none_iff, st.akeys]; exact Dict.get?_eq_none_iff.1 hg
    left
    simp [leaf?, hg, hg']
  | some a =>
    obtain ⟨d, a', e1, e2, e3, -, e4⟩ := st.tree n a hg
    have hlen : a'.treeLeaves.length = a.treeLeaves.length := by
      rw [← PyTree.treeStructure_leaves_length, e3, PyTree.treeStructure_leaves_length]
    cases hl : a.treeLeaves[k]? with
    | none =>
      left
      refine ⟨by simp [leaf?, hg, hl], ?_⟩
      simp only [leaf?, e2]
      rw [List.getElem?_eq_none_iff] at hl ⊢
      omega
    | some l =>
      right
      obtain ⟨ta, td, ta', f1, f2, f3, f4⟩ := e4 k l hl
      subst f1
      obtain ⟨hk, hkt⟩ := List.getElem?_eq_some_iff.1 hl
      obtain ⟨hkd, hkdt⟩ := List.getElem?_eq_some_iff.1 f2
      obtain ⟨x1, x2, g1, g2, g3, -⟩ :=
        (List.forall₂_iff_get.1 (hwf.same n a d hg e1).2).2 k hk hkd
      simp only [List.get_eq_getElem, hkt, hkdt] at g1 g2
      cases g1; cases g2
      exact ⟨ta, td, ta', by simp [leaf?, hg, hl], by simp [leaf?, e1, f2], by simp [leaf?, e2, f3],
        g3.symm, f4⟩

/-- After an iteration no update is pending. -/
theorem IterStep.no_update {s s' : ACTStates α} {h : Tensor α} (hwf : s.WF) (st : IterStep s h s')
    (n : String) (k : Nat) : leaf? s'.updates n k = none := by
  by_cases hn : n ∈ s.accumulators.keys
  · simp [leaf?, st.cleared n hn, PyTree.treeLeaves, PyTree.leaves, PyTree.canon]
  · have : s'.updates.get? n = none := by
      rw [Dict.get?_eq_none_iff, st.ukeys, hwf.upd_iff]; exact hn
    simp [leaf?, this]

omit [Arith α] in
theorem ACTStates.WF.prob_of_leaf {s : ACTStates α} (hwf : s.WF) {n : String} {k : Nat}
    {ta : Tensor α} {i : List Nat} {a : α} (h : leaf? s.accumulators n k = some (.tensor ta))
    (ha : ta.at? i = some a) :
    ∃ p, s.probabilities.at? (i.take s.probabilities.shape.length) = some p :=
  hwf.prob_of_entry (entry?_eq_some.2 ⟨_, h, ha⟩)

theorem SameLeaf.iterate {n m : String} {k j : Nat} {s t s' t' : ACTStates α} {h : Tensor α}
    (hs : s.WF) (ht : t.WF) (e : SameLeaf n k m j s t) (st : IterStep s h s')
    (tt : IterStep t h t') : SameLeaf n k m j s' t' := by
  obtain ⟨c1, c2, c3⟩ := st.core_eq hs tt e.epsilon e.depression e.probabilities e.residuals
    e.iterations
  refine ⟨by rw [st.epsilon, tt.epsilon, e.epsilon], by rw [st.depression, tt.depression, e.depression],
    c1, c2, c3, ?_, by rw [st.defaults, tt.defaults, e.default],
    by rw [st.no_update hs, tt.no_update ht]⟩
  have ea := e.acc
  rcases st.leaf (n := n) (k := k) with ⟨a1, a2⟩ | ⟨ta, tu, ta', a1, a2, a3, a4⟩ <;>
    rcases tt.leaf (n := m) (k := j) with ⟨b1, b2⟩ | ⟨tb, tv, tb', b1, b2, b3, b4⟩
  · rw [a2, b2]
  · rw [a1, b1] at ea; cases ea
  · rw [a1, b1] at ea; cases ea
  · have eu := e.upd
    rw [a1, b1] at ea
    rw [a2, b2] at eu
    cases ea
    cases eu
    rw [a3, b3]
    congr 2
    refine Tensor.ext_some (a4.dtype.trans b4.dtype.symm) (a4.shape.trans b4.shape.symm)
      fun i x hx => ?_
    obtain ⟨a, ha⟩ := Controller.at?_some_of_shape (b := ta) a4.shape.symm hx
    obtain ⟨u, hu⟩ := Controller.at?_some_of_shape (b := tu) a4.ushape ha
    obtain ⟨p, hp⟩ := hs.prob_of_leaf a1 ha
    obtain ⟨y, hy⟩ := Controller.at?_some_of_shape (b := h) st.hshape hp
    have k1 := a4.entry i a u p y ha hu hp hy
    rw [e.probabilities] at hp hy
    have k2 := b4.entry i a u p y ha hu hp hy
    rw [k1] at hx
    rw [k2, ← hx, e.probabilities, e.epsilon, e.depression]

theorem SameLeaf.reset {n m : String} {k j : Nat} {s t s' t' : ACTStates α}
    (hs : s.WF) (ht : t.WF) (e : SameLeaf n k m j s t) (st : ResetStep s s')
    (tt : ResetStep t t') : SameLeaf n k m j s' t' := by
  obtain ⟨c1, c2, c3⟩ := st.core_eq hs tt e.epsilon e.probabilities e.residuals e.iterations
  refine ⟨by rw [st.epsilon, tt.epsilon, e.epsilon], by rw [st.depression, tt.depression, e.depression],
    c1, c2, c3, ?_, by rw [st.defaults, tt.defaults, e.default],
    by rw [st.updates, tt.updates, e.upd]⟩
  have ea := e.acc
  rcases st.leaf hs (n := n) (k := k) with ⟨a1, a2⟩ | ⟨ta, td, ta', a1, a2, a3, a5, a4⟩ <;>
    rcases tt.leaf ht (n := m) (k := j) with ⟨b1, b2⟩ | ⟨tb, te, tb', b1, b2, b3, b5, b4⟩
  · rw [a2, b2]
  · rw [a1, b1] at ea; cases ea
  · rw [a1, b1] at ea; cases ea
  · have eu := e.default
    rw [a1, b1] at ea
    rw [a2, b2] at eu
    cases ea
    cases eu
    rw [a3, b3]
    congr 2
    refine Tensor.ext_some (a4.dtype.trans b4.dtype.symm) (a4.shape.trans b4.shape.symm)
      fun i x hx => ?_
    obtain ⟨a, ha⟩ := Controller.at?_some_of_shape (b := ta) a4.shape.symm hx
    obtain ⟨d, hd⟩ := Controller.at?_some_of_shape (b := td) a5 ha
    obtain ⟨p, hp⟩ := hs.prob_of_leaf a1 ha
    have k1 := a4.entry i a d p ha hd hp
    rw [e.probabilities] at hp
    have k2 := b4.entry i a d p ha hd hp
    rw [k1] at hx
    rw [k2, ← hx, e.probabilities, e.epsilon]

/-- C93: two controllers with the same halting state, one keeping some tensor as leaf `k` of accumulator
`n`, the other as leaf `j` of accumulator `m`.  Whatever else the two keep, after the same iterations and
resets, with the same update for that leaf, they hold the same tensor there and the same halting state.
Any arithmetic, any number of calls. -/
theorem C93_leaf {n m : String} {k j : Nat} {ops ops' : List (Op α)}
    (ho : SameForLeaf n k m j ops ops') {s t : ACTStates α} (hs : s.WF) (ht : t.WF)
    (e : SameLeaf n k m j s t) {c d : Controller α} (hc : run ⟨s⟩ ops = .ok c)
    (hd : run ⟨t⟩ ops' = .ok d) : SameLeaf n k m j c.state d.state := by
  induction ho generalizing s t with
  | nil => cases hc; cases hd; exact e
  | left hne _ ih =>
    simp only [run, bind_ok, Op.call] at hc
    obtain ⟨⟨s1⟩, h1, h2⟩ := hc
    have st := Controller.cacheUpdate_ok_iff.1 h1
    have w := Controller.CacheStep.wf hs st
    obtain ⟨e1, e2⟩ := st
    simp only at e2
    subst e2
    refine ih w ht { e with upd := ?_ } h2 hd
    rw [← e.upd]
    simp only [leaf?]
    rw [Dict.get?_set_ne _ hne]
  | right hne _ ih =>
    simp only [run, bind_ok, Op.call] at hd
    obtain ⟨⟨s1⟩, h1, h2⟩ := hd
    have st := Controller.cacheUpdate_ok_iff.1 h1
    have w := Controller.CacheStep.wf ht st
    obtain ⟨e1, e2⟩ := st
    simp only at e2
    subst e2
    refine ih hs w { e with upd := ?_ } hc h2
    rw [e.upd]
    simp only [leaf?]
    rw [Dict.get?_set_ne _ hne]
  | cache hxy _ ih =>
    simp only [run, bind_ok, Op.call] at hc hd
    obtain ⟨⟨s1⟩, h1, h2⟩ := hc
    obtain ⟨⟨t1⟩, h3, h4⟩ := hd
    have st := Controller.cacheUpdate_ok_iff.1 h1
    have tt := Controller.cacheUpdate_ok_iff.1 h3
    have w1 := Controller.CacheStep.wf hs st
    have w2 := Controller.CacheStep.wf ht tt
    obtain ⟨e1, e2⟩ := st
    obtain ⟨e3, e4⟩ := tt
    simp only at e2 e4
    subst e2
    subst e4
    refine ih w1 w2 { e with upd := ?_ } h2 h4
    simp only [leaf?]
    rw [Dict.get?_set_self, Dict.get?_set_self]
    exact hxy
  | iterate h _ ih =>
    simp only [run, bind_ok, Op.call] at hc hd
    obtain ⟨c1, h1, h2⟩ := hc
    obtain ⟨d1, h3, h4⟩ := hd
    have st := Controller.iterateAct_ok hs h1
    have tt := Controller.iterateAct_ok ht h3
    exact ih (Controller.IterStep.wf hs st) (Controller.IterStep.wf ht tt) (e.iterate hs ht st tt)
      h2 h4
  | reset _ ih =>
    simp only [run, bind_ok, Op.call] at hc hd
    obtain ⟨c1, h1, h2⟩ := hc
    obtain ⟨d1, h3, h4⟩ := hd
    have st := Controller.resetBatches_ok hs h1
    have tt := Controller.resetBatches_ok ht h3
    exact ih (Controller.ResetStep.wf hs st) (Controller.ResetStep.wf ht tt) (e.reset hs ht st tt)
      h2 h4

/-! ## One list instead of many accumulators -/

/-- Number of leaves before those of `n`. -/
def offset (len : String → Nat) : List String → String → Nat
  | [], _ => 0
  | m :: ns, n => if m = n then 0 else len m + offset len ns n

theorem getElem?_offset {β : Type} (f : String → List β) {len : String → Nat} :
    ∀ {names : List String} {n : String} {k : Nat}, (∀ m ∈ names, (f m).length = len m) →
      n ∈ names → k < len n → (names.flatMap f)[offset len names n + k]? = (f n)[k]?
  | [], n, k, _, hn, _ => by cases hn
  | m :: ns, n, k, hl, hn, hk => by
    have hm := hl m (by simp)
    by_cases h : m = n
    · subst h
      simp only [offset, if_true, List.flatMap_cons, Nat.zero_add]
      rw [List.getElem?_append_left (by omega)]
    · simp only [offset, if_neg h, List.flatMap_cons]
      rw [List.getElem?_append_right (by omega),
        show len m + offset len ns n + k - (f m).length = offset len ns n + k by omega]
      refine getElem?_offset f (fun m' h' => hl m' (by simp [h'])) ?_ hk
      rcases List.mem_cons.1 hn with h' | h'
      · exact absurd h'.symm h
      · exact h'

theorem eq_flatMap_of_offset {β : Type} (f : String → List β) {len : String → Nat} :
    ∀ {names : List String} {L : List β}, names.Nodup → (∀ m ∈ names, (f m).length = len m) →
      L.length = (names.flatMap f).length →
      (∀ n ∈ names, ∀ k, k < len n → L[offset len names n + k]? = (f n)[k]?) →
      L = names.flatMap f
  | [], L, _, _, hL, _ => by simpa using hL
  | m :: ns, L, hnd, hl, hL, h => by
    have hm := hl m (by simp)
    simp only [List.flatMap_cons, List.length_append] at hL ⊢
    have h1 : L.take (len m) = f m := by
      refine List.ext_getElem? fun k => ?_
      by_cases hk : k < len m
      · rw [List.getElem?_take_of_lt hk]
        have := h m (by simp) k hk
        simpa only [offset, if_true, Nat.zero_add] using this
      · rw [List.getElem?_eq_none (by rw [List.length_take]; omega),
          List.getElem?_eq_none (by omega)]
    have h2 : L.drop (len m) = ns.flatMap f := by
      refine eq_flatMap_of_offset f (len := len) (List.nodup_cons.1 hnd).2
        (fun m' h' => hl m' (by simp [h'])) (by rw [List.length_drop]; omega) fun n hn k hk => ?_
      have hne : m ≠ n := by rintro rfl; exact (List.nodup_cons.1 hnd).1 hn
      have := h n (by simp [hn]) k hk
      simp only [offset, if_neg hne] at this
      rw [List.getElem?_drop, ← this, Nat.add_assoc]
    rw [← h1, ← h2, List.take_append_drop]

omit [Arith α] in
theorem listOf_leaves (names : List String) (d : Dict (PyTree (Leaf α))) :
    (listOf names d).treeLeaves = names.flatMap fun n => ((d.get? n).getD .none).treeLeaves := by
  simp only [listOf, PyTree.treeLeaves, PyTree.canon, PyTree.sortNode, PyTree.leaves,
    PyTree.leavesL_eq, PyTree.canonL_eq, List.map_map, List.flatMap_def, Function.comp_def]

omit [Arith α] in
theorem listOf_structure (names : List String) (d : Dict (PyTree (Leaf α))) :
    (listOf names d).treeStructure =
      .node .list (names.map fun n => ((d.get? n).getD .none).treeStructure) := by
  simp only [listOf, PyTree.treeStructure, PyTree.canon, PyTree.sortNode, PyTree.struct, PyTree.map,
    PyTree.mapL_eq, PyTree.canonL_eq, List.map_map, Function.comp_def]

theorem forall₂_flatMap {β γ : Type} {R : β → γ → Prop} {f : String → List β} {g : String → List γ} :
    ∀ {names : List String}, (∀ n ∈ names, List.Forall₂ R (f n) (g n)) →
      List.Forall₂ R (names.flatMap f) (names.flatMap g)
  | [], _ => .nil
  | m :: ns, h => by
    simp only [List.flatMap_cons]
    exact List.rel_append (h m (by simp)) (forall₂_flatMap fun n hn => h n (by simp [hn]))

omit [Arith α] in
theorem listOf_sameType {names : List String} {d e : Dict (PyTree (Leaf α))}
    (h : ∀ n ∈ names, ∃ t u, d.get? n = some t ∧ e.get? n = some u ∧ SameType t u) :
    SameType (listOf names d) (listOf names e) := by
  constructor
  · rw [listOf_structure, listOf_structure]
    congr 1
    refine List.map_congr_left fun n hn => ?_
    obtain ⟨t, u, h1, h2, h3⟩ := h n hn
    rw [h1, h2]
    exact h3.1
  · rw [listOf_leaves, listOf_leaves]
    refine forall₂_flatMap fun n hn => ?_
    obtain ⟨t, u, h1, h2, h3⟩ := h n hn
    rw [h1, h2]
    exact h3.2

omit [Arith α] in
theorem ACTStates.WF.grouped {s : ACTStates α} (hs : s.WF) (N : String) : (s.grouped N).WF where
  floating := hs.floating
  res_shape := hs.res_shape
  res_dtype := hs.res_dtype
  it_shape := hs.it_shape
  it_dtype := hs.it_dtype
  acc_keys := by simp [Dict.WF, Dict.keys, ACTStates.grouped]
  def_keys := by simp [Dict.WF, Dict.keys, ACTStates.grouped]
  upd_keys := by simp [Dict.WF, Dict.keys, ACTStates.grouped]
  def_iff := fun n => Iff.rfl
  upd_iff := fun n => Iff.rfl
  batched := by
    intro n t h l hl
    obtain ⟨-, rfl⟩ := Fixtures.get?_one h
    rw [listOf_leaves, List.mem_flatMap] at hl
    obtain ⟨m, hm, hl⟩ := hl
    obtain ⟨a, ha⟩ := Dict.mem_keys_iff.1 hm
    rw [ha] at hl
    exact hs.batched m a ha l hl
  same := by
    intro n t u h1 h2
    obtain ⟨-, rfl⟩ := Fixtures.get?_one h1
    obtain ⟨-, rfl⟩ := Fixtures.get?_one h2
    refine listOf_sameType fun m hm => ?_
    obtain ⟨a, ha⟩ := Dict.mem_keys_iff.1 hm
    obtain ⟨d, hd⟩ := Dict.mem_keys_iff.1 ((hs.def_iff m).2 hm)
    exact ⟨a, d, ha, hd, hs.same m a d ha hd⟩

/-- What is pending after the caches of a round was pending before or is cached by the round. -/
theorem caches_from : ∀ (us : Dict (PyTree (Leaf α))) {s : ACTStates α} {c' : Controller α}, us.WF →
    run ⟨s⟩ (us.map fun nu => Op.cache nu.1 nu.2) = .ok c' → ∀ n u,
    c'.state.updates.get? n = some u → s.updates.get? n = some u ∨ us.get? n = some u
  | [], s, c', _, hr, n, u, h => by cases hr; exact .inl h
  | (m, x) :: us, s, c', hw, hr, n, u, h => by
    simp only [List.map_cons, run, bind_ok, Op.call] at hr
    obtain ⟨⟨s1⟩, h1, h2⟩ := hr
    obtain ⟨e1, e2⟩ := Controller.cacheUpdate_ok_iff.1 h1
    simp only at e2
    subst e2
    have hw' : Dict.WF us ∧ m ∉ Dict.keys us := by
      unfold Dict.WF at hw ⊢
      simp only [Dict.keys, List.map_cons, List.nodup_cons] at hw ⊢
      exact ⟨hw.2, hw.1⟩
    rw [Dict.get?_cons]
    rcases caches_from us hw'.1 h2 n u h with h3 | h3
    · simp only [Dict.get?_set] at h3
      split at h3
      · rename_i e
        cases h3
        exact .inr (by simp [e])
      · exact .inl h3
    · refine .inr ?_
      have : m ≠ n := by rintro rfl; exact hw'.2 (Dict.mem_keys_iff.2 ⟨_, h3⟩)
      simp [this, h3]

/-- What a successful round from an idle controller tells about the round. -/
theorem round_fits {r : Round α} {s : ACTStates α} {c' : Controller α} (hwf : s.WF)
    (hidle : ∀ n u, s.updates.get? n = some u → u = .none) (hw : Dict.WF r.updates)
    (hr : run ⟨s⟩ r.ops = .ok c') :
    c'.state.WF ∧ (∀ n u, c'.state.updates.get? n = some u → u = .none) ∧
    r.halting.shape = s.probabilities.shape ∧
    r.halting.dtype.withFloat = s.probabilities.dtype ∧
    ∀ n a, s.accumulators.get? n = some a → ∃ u, Dict.get? r.updates n = some u ∧
      UpdateFits s.probabilities.dtype a u := by
  unfold Round.ops at hr
  rw [run_append, bind_ok] at hr
  obtain ⟨⟨s1⟩, h1, h2⟩ := hr
  obtain ⟨f1, ⟨U, f2⟩, -⟩ := caches_ok _ hwf h1
  have hfrom := caches_from _ hw h1
  simp only at f1 f2 hfrom
  subst f2
  simp only [run, bind_ok, Op.call] at h2
  obtain ⟨c2, h3, h4⟩ := h2
  cases h4
  have st := Controller.iterateAct_ok f1 h3
  obtain ⟨g1, g2, g3⟩ := (C13_iterate_succeeds_iff f1 r.halting).1 ⟨_, h3⟩
  refine ⟨Controller.IterStep.wf f1 st, fun n u hu => ?_, g1, g2, fun n a ha => ?_⟩
  · have hn : n ∈ s.accumulators.keys := by
      rw [← f1.upd_iff, ← st.ukeys]; exact Dict.mem_keys_iff.2 ⟨_, hu⟩
    rw [st.cleared n hn] at hu
    exact (Option.some.inj hu).symm
  · obtain ⟨u, k1, k2⟩ := g3 n a ha
    rcases hfrom n u k1 with h | h
    · exact absurd (hidle n u h) k2.1
    · exact ⟨u, h, k2⟩

/-- The same for several rounds: every round fits the accumulators of the first state. -/
theorem rounds_fit : ∀ (rs : List (Round α)) {s : ACTStates α} {c' : Controller α}, s.WF →
    (∀ n u, s.updates.get? n = some u → u = .none) → (∀ r ∈ rs, Dict.WF r.updates) →
    run ⟨s⟩ (roundOps rs) = .ok c' → ∀ r ∈ rs, r.halting.shape = s.probabilities.shape ∧
      r.halting.dtype.withFloat = s.probabilities.dtype ∧
      ∀ n a, s.accumulators.get? n = some a → ∃ u, Dict.get? r.updates n = some u ∧
        UpdateFits s.probabilities.dtype a u
  | [], _, _, _, _, _, _, r, hr => by cases hr
  | q :: rs, s, c', hwf, hidle, hw, hrun, r, hr => by
    simp only [roundOps, List.flatMap_cons, run_append, bind_ok] at hrun
    obtain ⟨⟨s1⟩, h1, h2⟩ := hrun
    obtain ⟨w, i, a1, a2, a3⟩ := round_fits hwf hidle (hw q (by simp)) h1
    rcases List.mem_cons.1 hr with rfl | hr
    · exact ⟨a1, a2, a3⟩
    · obtain ⟨t1, t2, t3, t4, -⟩ := C14_types_invariant hwf _ h1
      obtain ⟨b1, b2, b3⟩ := rounds_fit rs w i (fun r h => hw r (by simp [h])) h2 r hr
      refine ⟨b1.trans t3, b2.trans t4, fun n a ha => ?_⟩
      obtain ⟨a', e1, e2⟩ := t2 n a ha
      obtain ⟨u, e3, e4⟩ := b3 n a' e1
      refine ⟨u, e3, ?_⟩
      have hst : SameType a' a := by
        refine ⟨e2.1.symm, List.Forall₂.flip (List.Forall₂.imp ?_ e2.2)⟩
        rintro x y ⟨p, q, h1, h2, h3, h4⟩
        exact ⟨q, p, h2, h1, h3.symm, h4.symm⟩
      have := UpdateFits.of_sameType hst e4
      rw [show s1.probabilities.dtype = s.probabilities.dtype from t4] at this
      exact this

/-- Rounds that fit the only accumulator succeed. -/
theorem single_rounds {N : String} {A : PyTree (Leaf α)} {S : List Nat} {D : DType} :
    ∀ (qs : List (Tensor α × PyTree (Leaf α))) {t : ACTStates α} {B : PyTree (Leaf α)}, t.WF →
    t.accumulators.keys = [N] → t.updates.get? N = some .none → t.accumulators.get? N = some B →
    SameType A B → t.probabilities.shape = S → t.probabilities.dtype = D →
    (∀ q ∈ qs, q.1.shape = S ∧ q.1.dtype.withFloat = D ∧ UpdateFits D A q.2) →
    ∃ d, run ⟨t⟩ (roundOps (qs.map fun q => (⟨[(N, q.2)], q.1⟩ : Round α))) = .ok d
  | [], t, _, _, _, _, _, _, _, _, _ => ⟨⟨t⟩, rfl⟩
  | (h, y) :: qs, t, B, hwf, hk, hu, hB, hAB, hS, hD, hq => by
    obtain ⟨q1, q2, q3⟩ := hq (h, y) (by simp)
    have hc : Controller.cacheUpdate ⟨t⟩ N y =
        .ok (⟨{ t with updates := t.updates.set N y }⟩ : Controller α) :=
      Controller.cacheUpdate_ok_iff.2 ⟨hu, rfl⟩
    have w1 := Controller.CacheStep.wf hwf (Controller.cacheUpdate_ok_iff.1 hc)
    obtain ⟨c2, h2⟩ := (C13_iterate_succeeds_iff w1 h).2
      ⟨q1.trans hS.symm, q2.trans hD.symm, fun n a ha => by
        have hn : n = N := by
          have : n ∈ t.accumulators.keys := Dict.mem_keys_iff.2 ⟨_, ha⟩
          rw [hk] at this
          simpa using this
        subst hn
        rw [show t.accumulators.get? n = some a from ha] at hB
        cases hB
        exact ⟨y, by simp, by rw [show t.probabilities.dtype = D from hD]; exact q3.of_sameType hAB⟩⟩
    have hrun : run ⟨t⟩ (Round.ops (⟨[(N, y)], h⟩ : Round α)) = .ok c2 := by
      show (do let c ← Controller.cacheUpdate ⟨t⟩ N y; let c ← Controller.iterateAct c h; run c []) = _
      rw [hc, ok_bind, h2]
      rfl
    have st := Controller.iterateAct_ok w1 h2
    obtain ⟨t1, t2, t3, t4, -⟩ := C14_types_invariant hwf _ hrun
    obtain ⟨B', e1, e2⟩ := t2 N B hB
    obtain ⟨d, hd⟩ := single_rounds qs (Controller.IterStep.wf w1 st)
      (show c2.state.accumulators.keys = [N] from t1.trans hk)
      (st.cleared N (by simp [hk])) e1 (hAB.trans e2) (t3.trans hS) (t4.trans hD)
      (fun q h => hq q (by simp [h]))
    refine ⟨d, ?_⟩
    simp only [List.map_cons, roundOps, List.flatMap_cons, run_append]
    rw [hrun]
    exact hd

omit [Arith α] in
theorem SameForLeaf.lefts {n m : String} {k j : Nat} {ops ops' : List (Op α)} :
    ∀ (us : Dict (PyTree (Leaf α))), n ∉ us.keys → SameForLeaf n k m j ops ops' →
      SameForLeaf n k m j (us.map (fun nu => Op.cache nu.1 nu.2) ++ ops) ops'
  | [], _, h => h
  | (a, x) :: us, hn, h => by
    simp only [Dict.keys, List.map_cons, List.mem_cons, not_or] at hn
    exact .left (fun e => hn.1 e.symm) (SameForLeaf.lefts us hn.2 h)

omit [Arith α] in
theorem SameForLeaf.caches {n m : String} {k j : Nat} {ops ops' : List (Op α)}
    {x y : PyTree (Leaf α)} (hxy : x.treeLeaves[k]? = y.treeLeaves[j]?)
    (h : SameForLeaf n k m j ops ops') :
    ∀ (us : Dict (PyTree (Leaf α))), us.WF → us.get? n = some x →
      SameForLeaf n k m j (us.map (fun nu => Op.cache nu.1 nu.2) ++ ops) (.cache m y :: ops')
  | [], _, hg => by cases hg
  | (a, z) :: us, hw, hg => by
    have hw' : Dict.WF us ∧ a ∉ Dict.keys us := by
      unfold Dict.WF at hw ⊢
      simp only [Dict.keys, List.map_cons, List.nodup_cons] at hw ⊢
      exact ⟨hw.2, hw.1⟩
    rw [Dict.get?_cons] at hg
    split at hg
    · rename_i e
      simp only at e hg
      subst e
      cases hg
      exact .cache hxy (SameForLeaf.lefts us hw'.2 h)
    · rename_i e
      exact .left e (SameForLeaf.caches hxy h us hw'.1 hg)

omit [Arith α] in
/-- The grouped rounds have the same iterations and the same updates of a leaf. -/
theorem SameForLeaf.rounds {N : String} {names : List String} {n : String} {k j : Nat} :
    ∀ (rs : List (Round α)), (∀ r ∈ rs, Dict.WF r.updates) →
    (∀ r ∈ rs, ∃ x, Dict.get? r.updates n = some x ∧
      x.treeLeaves[k]? = (listOf names r.updates).treeLeaves[j]?) →
    SameForLeaf n k N j (roundOps rs) (roundOps (rs.map (Round.grouped N names)))
  | [], _, _ => .nil
  | r :: rs, hw, h => by
    obtain ⟨x, h1, h2⟩ := h r (by simp)
    have ih := SameForLeaf.rounds (N := N) rs (fun r hr => hw r (by simp [hr]))
      (fun r hr => h r (by simp [hr]))
    have := SameForLeaf.caches h2 (SameForLeaf.iterate (m := N) r.halting ih) r.updates
      (hw r (by simp)) h1
    simpa [roundOps, Round.ops, Round.grouped] using this

/-- The halting state does not depend on the accumulators at all. -/
theorem rounds_core {N : String} {names : List String} :
    ∀ (rs : List (Round α)) {s t : ACTStates α} {c d : Controller α}, s.WF → t.WF →
    s.epsilon = t.epsilon → s.depression_constant = t.depression_constant →
    s.probabilities = t.probabilities → s.residuals = t.residuals → s.iterations = t.iterations →
    run ⟨s⟩ (roundOps rs) = .ok c → run ⟨t⟩ (roundOps (rs.map (Round.grouped N names))) = .ok d →
    c.state.probabilities = d.state.probabilities ∧ c.state.residuals = d.state.residuals ∧
      c.state.iterations = d.state.iterations
  | [], s, t, c, d, _, _, _, _, h3, h4, h5, hc, hd => by cases hc; cases hd; exact ⟨h3, h4, h5⟩
  | r :: rs, s, t, c, d, hs, ht, h1, h2, h3, h4, h5, hc, hd => by
    simp only [roundOps, List.map_cons, List.flatMap_cons, run_append, bind_ok] at hc hd
    obtain ⟨c1, a1, a2⟩ := hc
    obtain ⟨d1, b1, b2⟩ := hd
    obtain ⟨U, u1, u2, -⟩ := round_ok_get hs a1
    obtain ⟨V, v1, v2, -⟩ := round_ok_get ht b1
    obtain ⟨e1, e2, e3⟩ := u2.core_eq u1 v2 h1 h2 h3 h4 h5
    exact rounds_core rs (Controller.IterStep.wf u1 u2) (Controller.IterStep.wf v1 v2)
      (by rw [u2.epsilon, v2.epsilon]; exact h1) (by rw [u2.depression, v2.depression]; exact h2)
      e1 e2 e3 a2 b2

/-- C93: all accumulators of an idle controller may be kept in one list instead.  If complete rounds
succeed on the controller with separate accumulators, then they succeed on the controller with the one
list, when the updates are passed as a list as well; the halting state is the same and the list holds
the accumulators of the first controller (`canon`: up to the order in which dicts keep their keys).  Any
arithmetic, any number of rounds. -/
theorem C93_grouping {s : ACTStates α} (hs : s.WF)
    (hidle : ∀ n u, s.updates.get? n = some u → u = .none) (N : String) (rs : List (Round α))
    (hw : ∀ r ∈ rs, Dict.WF r.updates) {c : Controller α} (hc : run ⟨s⟩ (roundOps rs) = .ok c) :
    ∃ d A, run ⟨s.grouped N⟩ (roundOps (rs.map (Round.grouped N s.accumulators.keys))) = .ok d ∧
      d.state.probabilities = c.state.probabilities ∧ d.state.residuals = c.state.residuals ∧
      d.state.iterations = c.state.iterations ∧ d.state.accumulators.get? N = some A ∧
      A.canon = (listOf s.accumulators.keys c.state.accumulators).canon := by
  have hfit := rounds_fit rs hs hidle hw hc
  have hg := hs.grouped N
  set names := s.accumulators.keys with hnames
  have hG : (s.grouped N).accumulators.get? N = some (listOf names s.accumulators) := by
    simp [ACTStates.grouped, Dict.get?, hnames]
  have hfitG : ∀ r ∈ rs, UpdateFits s.probabilities.dtype (listOf names s.accumulators)
      (listOf names r.updates) := by
    intro r hr
    refine ⟨by simp [listOf], ?_⟩
    rw [listOf_leaves, listOf_leaves]
    refine forall₂_flatMap fun n hn => ?_
    obtain ⟨a, ha⟩ := Dict.mem_keys_iff.1 hn
    obtain ⟨u, h1, h2⟩ := (hfit r hr).2.2 n a ha
    rw [ha, h1]
    exact h2.2
  obtain ⟨d, hd⟩ : ∃ d, run ⟨s.grouped N⟩ (roundOps (rs.map (Round.grouped N names))) = .ok d := by
    have := single_rounds (N := N) (rs.map fun r => (r.halting, listOf names r.updates)) hg
      (by simp [ACTStates.grouped, Dict.keys]) (by simp [ACTStates.grouped, Dict.get?]) hG
      (SameType.refl_of_batched (hg.batched N _ hG)) rfl rfl (by
        intro q hq
        obtain ⟨r, hr, rfl⟩ := List.mem_map.1 hq
        exact ⟨(hfit r hr).1, (hfit r hr).2.1, hfitG r hr⟩)
    rw [List.map_map] at this
    exact this
  obtain ⟨tk, tt, -⟩ := C14_types_invariant hs _ hc
  obtain ⟨-, tg, -⟩ := C14_types_invariant hg _ hd
  obtain ⟨A, hA, hAT⟩ := tg N _ hG
  obtain ⟨k1, k2, k3⟩ := rounds_core rs hs hg rfl rfl rfl rfl rfl hc hd
  refine ⟨d, A, hd, k1.symm, k2.symm, k3.symm, hA, ?_⟩
  have hT : SameType (listOf names s.accumulators) (listOf names c.state.accumulators) := by
    refine listOf_sameType fun n hn => ?_
    obtain ⟨a, ha⟩ := Dict.mem_keys_iff.1 hn
    obtain ⟨a', h1, h2⟩ := tt n a ha
    exact ⟨a, a', ha, h1, h2⟩
  refine PyTree.eq_of_struct_leaves (hAT.1.symm.trans hT.1) ?_
  show A.treeLeaves = (listOf names c.state.accumulators).treeLeaves
  have hlen : A.treeLeaves.length = (listOf names c.state.accumulators).treeLeaves.length :=
    hAT.2.length_eq.symm.trans hT.2.length_eq
  rw [listOf_leaves] at hlen ⊢
  refine eq_flatMap_of_offset _
    (len := fun n => ((s.accumulators.get? n).getD .none).treeLeaves.length) hs.acc_keys ?_ hlen ?_
  · intro n hn
    obtain ⟨a, ha⟩ := Dict.mem_keys_iff.1 hn
    obtain ⟨a', h1, h2⟩ := tt n a ha
    rw [show c.state.accumulators.get? n = some a' from h1, ha]
    exact h2.2.length_eq.symm
  · intro n hn k hk
    obtain ⟨a, ha⟩ := Dict.mem_keys_iff.1 hn
    obtain ⟨a', h1, h2⟩ := tt n a ha
    obtain ⟨dn, hdn⟩ := Dict.mem_keys_iff.1 ((hs.def_iff n).2 hn)
    set len := fun n => ((s.accumulators.get? n).getD .none).treeLeaves.length with hl
    have e : SameLeaf n k N (offset len names n + k) s (s.grouped N) := by
      refine ⟨rfl, rfl, rfl, rfl, rfl, ?_, ?_, ?_⟩
      · simp only [leaf?, hG, ha]
        rw [listOf_leaves, getElem?_offset (len := len) _ (fun _ _ => rfl) hn hk, ha]
        rfl
      · have : (s.grouped N).defaults.get? N = some (listOf names s.defaults) := by
          simp [ACTStates.grouped, Dict.get?, hnames]
        simp only [leaf?, this, hdn]
        rw [listOf_leaves, getElem?_offset (len := len) _ ?_ hn hk, hdn]
        · rfl
        · intro m hm
          obtain ⟨b, hb⟩ := Dict.mem_keys_iff.1 hm
          obtain ⟨db, hdb⟩ := Dict.mem_keys_iff.1 ((hs.def_iff m).2 hm)
          simp only [hl, hb, hdb]
          exact (hs.same m b db hb hdb).2.length_eq.symm
      · obtain ⟨u, hu⟩ := Dict.mem_keys_iff.1 ((hs.upd_iff n).2 hn)
        have h0 : (s.grouped N).updates.get? N = some .none := by
          simp [ACTStates.grouped, Dict.get?]
        simp [leaf?, hu, hidle n u hu, h0, PyTree.treeLeaves, PyTree.leaves, PyTree.canon]
    have ho : SameForLeaf n k N (offset len names n + k) (roundOps rs)
        (roundOps (rs.map (Round.grouped N names))) := by
      refine SameForLeaf.rounds rs hw fun r hr => ?_
      obtain ⟨x, hx, -⟩ := (hfit r hr).2.2 n a ha
      refine ⟨x, hx, ?_⟩
      rw [listOf_leaves, getElem?_offset (len := len) _ ?_ hn hk, hx]
      · rfl
      · intro m hm
        obtain ⟨b, hb⟩ := Dict.mem_keys_iff.1 hm
        obtain ⟨y, hy, hf⟩ := (hfit r hr).2.2 m b hb
        simp only [hl, hb, hy]
        exact hf.2.length_eq.symm
    have := (C93_leaf ho hs hg e hc hd).acc
    simp only [leaf?, show d.state.accumulators.get? N = some A from hA,
      show c.state.accumulators.get? n = some a' from h1] at this
    rw [← this, show c.state.accumulators.get? n = some a' from h1]
    rfl

section Examples
open Fixtures
attribute [local instance] Arith.exact

/-- The rounds of the examples. -/
def groupRounds : List (Round ℚ) := [round [1/2, 2/3] 4 6, round [1/4, 2/3] 8 3]

/-- The hypotheses of `C93_grouping` are met by `fresh` (a bare tensor and a list of two tensors) and two
rounds in which the updates are cached in another order than the accumulators are kept; the second tensor
of `tree` is the third of the list. -/
theorem C93_grouping_example :
    fresh.WF ∧ (∀ n u, fresh.updates.get? n = some u → u = .none) ∧
    (∀ r ∈ groupRounds, Dict.WF r.updates) ∧
    obs (run ⟨fresh⟩ (roundOps groupRounds))
      (fun c => entry? c.accumulators "tree" 1 [1, 0]) = some (1 + 2/3 * 4 + 1/3 * 8) ∧
    obs (run ⟨fresh.grouped "all"⟩ (roundOps (groupRounds.map (Round.grouped "all" ["out", "tree"]))))
      (fun c => entry? c.accumulators "all" 2 [1, 0]) = some (1 + 2/3 * 4 + 1/3 * 8) := by
  refine ⟨fresh_wf, ?_, ?_, by decide +kernel, by decide +kernel⟩
  · intro n u hu
    rcases get?_two hu with ⟨-, rfl⟩ | ⟨-, rfl⟩ <;> rfl
  · intro r hr
    simp only [groupRounds, List.mem_cons, List.not_mem_nil, or_false] at hr
    rcases hr with rfl | rfl <;> (unfold Dict.WF; decide)

/-- The converse of `C93_grouping` fails: only the flattened updates are compared with the flattened
accumulators, so updates that are distributed differently over the names are accepted within one list
and refused by the separate accumulators. -/
theorem C93_grouping_converse_fails :
    let r : Round ℚ := ⟨[("out", pair (col 4 6) (vec [4, 6])), ("tree", bare (col 6 4))], vec [1/2, 2/3]⟩
    raised (run ⟨fresh⟩ (roundOps [r])) = some .runtimeError ∧
    succeeds (run ⟨fresh.grouped "all"⟩ (roundOps [r.grouped "all" ["out", "tree"]])) = true :=
  ⟨by decide +kernel, by decide +kernel⟩

/-- With `reset_batches` among the calls `C93_grouping` fails: a bare tensor is reset, the list holding
the same tensor raises `AttributeError` (compare `C16_containers_raise`). -/
theorem C93_grouping_reset_fails :
    succeeds (run ⟨simple⟩ (roundOps [sround [1/2, 1] 4 6] ++ [.reset])) = true ∧
    raised (run ⟨simple.grouped "all"⟩
      (roundOps [(sround [1/2, 1] 4 6).grouped "all" ["out"]] ++ [.reset])) = some .attributeError :=
  ⟨by decide +kernel, by decide +kernel⟩

/-- `simple` with its accumulator called `y`. -/
def renamed : ACTStates ℚ :=
  { simple with
    defaults := [("y", bare (col 0 0))]
    accumulators := [("y", bare (col 0 0))]
    updates := [("y", .none)] }

/-- A renamed accumulator meets the hypotheses of `C93_leaf`, with a reset between two rounds. -/
theorem C93_leaf_example :
    let ops : String → List (Op ℚ) := fun n => [.cache n (bare (col 4 6)), .iterate (vec [1/2, 1]),
      .reset, .cache n (bare (col 8 3)), .iterate (vec [1/4, 1/3])]
    SameLeaf "out" 0 "y" 0 simple renamed ∧ SameForLeaf "out" 0 "y" 0 (ops "out") (ops "y") ∧
    obs (run ⟨simple⟩ (ops "out")) (fun c => entry? c.accumulators "out" 0 [0, 0]) = some 4 ∧
    obs (run ⟨renamed⟩ (ops "y")) (fun c => entry? c.accumulators "y" 0 [0, 0]) = some 4 ∧
    obs (run ⟨renamed⟩ (ops "y")) (fun c => entry? c.accumulators "y" 0 [1, 0]) = some 1 :=
  ⟨⟨rfl, rfl, rfl, rfl, rfl, rfl, rfl, rfl⟩,
    .cache rfl (.iterate _ (.reset (.cache rfl (.iterate _ .nil)))),
    by decide +kernel, by decide +kernel, by decide +kernel⟩

end Examples

end JaxAct
