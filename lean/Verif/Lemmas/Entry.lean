import Verif.Lemmas.History

/-! # What one call does to one accumulator entry -/

namespace JaxAct
variable {α : Type}

namespace ACTStates

theorem leaf?_eq_some {d : Dict (PyTree (Leaf α))} {n : String} {k : Nat} {l : Leaf α} :
    leaf? d n k = some l ↔ ∃ t, d.get? n = some t ∧ t.treeLeaves[k]? = some l := by
  unfold leaf?
  cases d.get? n <;> simp

theorem entry?_eq_some {d : Dict (PyTree (Leaf α))} {n : String} {k : Nat} {i : List Nat} {x : α} :
    entry? d n k i = some x ↔ ∃ l, leaf? d n k = some l ∧ l.at? i = some x := by
  unfold entry?
  cases leaf? d n k <;> simp

theorem WF.leaf_tensor {s : ACTStates α} (hwf : s.WF) {n : String} {k : Nat} {l : Leaf α}
    (h : leaf? s.accumulators n k = some l) : ∃ t, l = .tensor t ∧ t.dtype.isFloating = true ∧
      s.probabilities.shape <+: t.shape := by
  obtain ⟨t, h1, h2⟩ := leaf?_eq_some.1 h
  exact hwf.batched n t h1 l (List.mem_of_getElem? h2)

/-- An accumulator entry lies under a batch index. -/
theorem WF.prob_of_entry {s : ACTStates α} (hwf : s.WF) {n : String} {k : Nat} {i : List Nat} {x : α}
    (h : entry? s.accumulators n k i = some x) :
    ∃ p, s.probabilities.at? (i.take s.probabilities.shape.length) = some p := by
  obtain ⟨l, h1, h2⟩ := entry?_eq_some.1 h
  obtain ⟨t, rfl, -, ⟨r, hr⟩⟩ := hwf.leaf_tensor h1
  have h2' : t.arr.at? i = some x := h2
  have hi : InB t.arr.shape i := Arr.at?_isSome.1 (by rw [h2']; rfl)
  simp only [Tensor.shape] at hr
  rw [← hr] at hi
  have := Arr.at?_isSome.2 (Arr.inB_take hi)
  exact Option.isSome_iff_exists.1 this

end ACTStates

open ACTStates

variable [Arith α]

/-- The entries after `iterate_act` are given by the specification. -/
theorem IterStep.entry {s s' : ACTStates α} {h : Tensor α} (hwf : s.WF) (st : IterStep s h s')
    {n : String} {k : Nat} {i : List Nat} {a : α} (ha : entry? s.accumulators n k i = some a) :
    ∃ u p x dA dU, entry? s.updates n k i = some u ∧
      s.probabilities.at? (i.take s.probabilities.shape.length) = some p ∧
      h.at? (i.take s.probabilities.shape.length) = some x ∧
      entry? s'.accumulators n k i = some (Spec.accStep s.probabilities.dtype dA dU s.epsilon
        s.depression_constant p (convS h.dtype s.probabilities.dtype x) a u) := by
  obtain ⟨p, hp⟩ := hwf.prob_of_entry ha
  obtain ⟨x, hx⟩ := Controller.at?_some_of_shape (b := h) st.hshape hp
  obtain ⟨l, h1, h2⟩ := entry?_eq_some.1 ha
  obtain ⟨t, h3, h4⟩ := leaf?_eq_some.1 h1
  obtain ⟨u, a', e1, e2, e3⟩ := st.tree n t h3
  obtain ⟨ta, tu, ta', f1, f2, f3, f4⟩ := e3.leaf k l h4
  subst f1
  obtain ⟨y, hy⟩ := Controller.at?_some_of_shape (b := tu) f4.ushape (show ta.at? i = some a from h2)
  have := f4.entry i a y p x h2 hy hp hx
  exact ⟨y, p, x, ta.dtype, tu.dtype,
    entry?_eq_some.2 ⟨_, leaf?_eq_some.2 ⟨u, e1, f2⟩, hy⟩, hp, hx,
    entry?_eq_some.2 ⟨_, leaf?_eq_some.2 ⟨a', e2, f3⟩, this⟩⟩

/-- No entries appear. -/
theorem IterStep.entry_none {s s' : ACTStates α} {h : Tensor α} (st : IterStep s h s')
    {n : String} {k : Nat} {i : List Nat} (ha : entry? s.accumulators n k i = none) :
    entry? s'.accumulators n k i = none := by
  by_contra hne
  obtain ⟨y, hy⟩ := Option.ne_none_iff_exists'.1 hne
  obtain ⟨l, h1, h2⟩ := entry?_eq_some.1 hy
  obtain ⟨t', h3, h4⟩ := leaf?_eq_some.1 h1
  have hn : n ∈ s.accumulators.keys := by rw [← st.akeys]; exact Dict.mem_keys_iff.2 ⟨_, h3⟩
  obtain ⟨t, ht⟩ := Dict.mem_keys_iff.1 hn
  obtain ⟨u, a', e1, e2, e3⟩ := st.tree n t ht
  rw [h3] at e2
  cases e2
  have hlen : t'.treeLeaves.length = t.treeLeaves.length := by
    rw [← PyTree.treeStructure_leaves_length, e3.struct, PyTree.treeStructure_leaves_length]
  have hk : k < t.treeLeaves.length := by
    rw [← hlen]; exact (List.getElem?_eq_some_iff.1 h4).1
  obtain ⟨ta, tu, ta', f1, f2, f3, f4⟩ := e3.leaf k _ (List.getElem?_eq_getElem hk)
  rw [h4] at f3
  cases f3
  obtain ⟨z, hz⟩ := Controller.at?_some_of_shape (b := ta) f4.shape.symm (show ta'.at? i = some y from h2)
  have : entry? s.accumulators n k i = some z :=
    entry?_eq_some.2 ⟨_, leaf?_eq_some.2 ⟨t, ht, List.getElem?_eq_getElem hk⟩, by rw [f1]; exact hz⟩
  rw [ha] at this
  cases this

/-- The entries after `reset_batches`. -/
theorem ResetStep.entry {s s' : ACTStates α} (hwf : s.WF) (st : ResetStep s s')
    {n : String} {k : Nat} {i : List Nat} {a : α} (ha : entry? s.accumulators n k i = some a) :
    ∃ x p, entry? s.defaults n k i = some x ∧
      s.probabilities.at? (i.take s.probabilities.shape.length) = some p ∧
      entry? s'.accumulators n k i =
        some (Spec.resetEntry s.probabilities.dtype s.epsilon p a x) := by
  obtain ⟨p, hp⟩ := hwf.prob_of_entry ha
  obtain ⟨l, h1, h2⟩ := entry?_eq_some.1 ha
  obtain ⟨t, h3, h4⟩ := leaf?_eq_some.1 h1
  obtain ⟨d, a', e1, e2, -, -, e3⟩ := st.tree n t h3
  obtain ⟨ta, td, ta', f1, f2, f3, f4⟩ := e3 k l h4
  subst f1
  obtain ⟨-, hsame⟩ := hwf.same n t d h3 e1
  obtain ⟨hk, hkt⟩ := List.getElem?_eq_some_iff.1 h4
  obtain ⟨hkd, hkdt⟩ := List.getElem?_eq_some_iff.1 f2
  obtain ⟨x1, x2, g1, g2, g3, -⟩ := (List.forall₂_iff_get.1 hsame).2 k hk hkd
  simp only [List.get_eq_getElem, hkt, hkdt] at g1 g2
  cases g1; cases g2
  obtain ⟨y, hy⟩ := Controller.at?_some_of_shape (b := td) g3.symm (show ta.at? i = some a from h2)
  exact ⟨y, p, entry?_eq_some.2 ⟨_, leaf?_eq_some.2 ⟨d, e1, f2⟩, hy⟩, hp,
    entry?_eq_some.2 ⟨_, leaf?_eq_some.2 ⟨a', e2, f3⟩, f4.entry i a y p h2 hy hp⟩⟩

theorem ResetStep.entry_none {s s' : ACTStates α} (st : ResetStep s s')
    {n : String} {k : Nat} {i : List Nat} (ha : entry? s.accumulators n k i = none) :
    entry? s'.accumulators n k i = none := by
  by_contra hne
  obtain ⟨y, hy⟩ := Option.ne_none_iff_exists'.1 hne
  obtain ⟨l, h1, h2⟩ := entry?_eq_some.1 hy
  obtain ⟨t', h3, h4⟩ := leaf?_eq_some.1 h1
  have hn : n ∈ s.accumulators.keys := by rw [← st.akeys]; exact Dict.mem_keys_iff.2 ⟨_, h3⟩
  obtain ⟨t, ht⟩ := Dict.mem_keys_iff.1 hn
  obtain ⟨u, a', e1, e2, e3, -, e4⟩ := st.tree n t ht
  rw [h3] at e2
  cases e2
  have hlen : t'.treeLeaves.length = t.treeLeaves.length := by
    rw [← PyTree.treeStructure_leaves_length, e3, PyTree.treeStructure_leaves_length]
  have hk : k < t.treeLeaves.length := by
    rw [← hlen]; exact (List.getElem?_eq_some_iff.1 h4).1
  obtain ⟨ta, tu, ta', f1, f2, f3, f4⟩ := e4 k _ (List.getElem?_eq_getElem hk)
  rw [h4] at f3
  cases f3
  obtain ⟨z, hz⟩ := Controller.at?_some_of_shape (b := ta) f4.shape.symm (show ta'.at? i = some y from h2)
  have : entry? s.accumulators n k i = some z :=
    entry?_eq_some.2 ⟨_, leaf?_eq_some.2 ⟨t, ht, List.getElem?_eq_getElem hk⟩, by rw [f1]; exact hz⟩
  rw [ha] at this
  cases this

/-- The cell at a batch index after `iterate_act`. -/
theorem IterStep.cellAt {s s' : ACTStates α} {h : Tensor α} (hwf : s.WF) (st : IterStep s h s')
    {b : List Nat} {p : α} (hp : s.probabilities.at? b = some p) :
    ∃ r n x, s.residuals.at? b = some r ∧ s.iterations.at? b = some n ∧ h.at? b = some x ∧
      let c := Spec.step s.probabilities.dtype s.iterations.dtype s.epsilon s.depression_constant
        ⟨p, r, n⟩ (convS h.dtype s.probabilities.dtype x)
      s'.probabilities.at? b = some c.prob ∧ s'.residuals.at? b = some c.resid ∧
      s'.iterations.at? b = some c.iter := by
  obtain ⟨r, n, hr, hn⟩ := hwf.cell hp
  obtain ⟨x, hx⟩ := Controller.at?_some_of_shape (b := h) st.hshape hp
  exact ⟨r, n, x, hr, hn, hx, st.cell b p r n x hp hr hn hx⟩

/-- Batch indices do not change. -/
theorem IterStep.index {s s' : ACTStates α} {h : Tensor α} (st : IterStep s h s')
    {b : List Nat} {p' : α} (hp : s'.probabilities.at? b = some p') :
    ∃ p, s.probabilities.at? b = some p := at?_of_shape_eq st.pshape hp

theorem ResetStep.index {s s' : ACTStates α} (st : ResetStep s s')
    {b : List Nat} {p' : α} (hp : s'.probabilities.at? b = some p') :
    ∃ p, s.probabilities.at? b = some p := at?_of_shape_eq st.pshape hp

/-- `halted_batches[b]` is a comparison of `probabilities[b]` with the threshold. -/
theorem halted_iff {s : ACTStates α} (hf : s.probabilities.dtype.isFloating = true) {b : List Nat}
    {x : Bool} : (Controller.haltedBatches ⟨s⟩).at? b = some x ↔
      ∃ p, s.probabilities.at? b = some p ∧
        Spec.isHalted s.probabilities.dtype s.epsilon p = x := by
  rw [Controller.at?_haltedBatches _ hf]
  simp [Controller.probabilities]

end JaxAct
