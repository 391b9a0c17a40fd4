import Verif.Lemmas.History
import Verif.Props.Fixtures

/-! # C14 Structure, shape and dtype never change -/

namespace JaxAct
variable {α : Type} [Arith α]

omit [Arith α] in
theorem SameType.trans {a b c : PyTree (Leaf α)} (h1 : SameType a b) (h2 : SameType b c) :
    SameType a c := by
  refine ⟨h1.1.trans h2.1, ?_⟩
  obtain ⟨l1, f1⟩ := List.forall₂_iff_get.1 h1.2
  obtain ⟨l2, f2⟩ := List.forall₂_iff_get.1 h2.2
  refine List.forall₂_iff_get.2 ⟨l1.trans l2, fun k hk1 hk2 => ?_⟩
  obtain ⟨x, y, e1, e2, e3, e4⟩ := f1 k hk1 (l1 ▸ hk1)
  obtain ⟨y', z, g1, g2, g3, g4⟩ := f2 k (l1 ▸ hk1) hk2
  rw [e2] at g1
  cases g1
  exact ⟨x, z, e1, g2, e3.trans g3, e4.trans g4⟩

omit [Arith α] in
theorem SameType.of_leaves {a b : PyTree (Leaf α)} (hs : b.treeStructure = a.treeStructure)
    (hl : ∀ (k : Nat) l, a.treeLeaves[k]? = some l → ∃ ta tb, l = .tensor ta ∧
      b.treeLeaves[k]? = some (.tensor tb) ∧ tb.shape = ta.shape ∧ tb.dtype = ta.dtype) :
    SameType a b := by
  refine ⟨hs.symm, ?_⟩
  have hlen : a.treeLeaves.length = b.treeLeaves.length := by
    rw [← PyTree.treeStructure_leaves_length, ← PyTree.treeStructure_leaves_length, hs]
  refine List.forall₂_iff_get.2 ⟨hlen, fun k hk1 hk2 => ?_⟩
  obtain ⟨ta, tb, e1, e2, e3, e4⟩ := hl k _ (List.getElem?_eq_getElem hk1)
  rw [List.getElem?_eq_getElem hk2] at e2
  exact ⟨ta, tb, e1, Option.some.inj e2, e3.symm, e4.symm⟩

omit [Arith α] in
theorem SameType.refl_of_batched {b : List Nat} {t : PyTree (Leaf α)} (h : Batched b t) :
    SameType t t := by
  refine ⟨rfl, List.forall₂_same.2 fun l hl => ?_⟩
  obtain ⟨a, ha, -⟩ := h l hl
  exact ⟨a, a, ha, ha, rfl, rfl⟩

/-- C14: after every successful sequence of calls the accumulator names (and their order) are the
same, every accumulator has the structure it had, with leaves of the same shape and dtype, and so do
`probabilities`, `residuals` and `iterations`.  Any arithmetic. -/
theorem C14_types_invariant {s : ACTStates α} (hwf : s.WF) (ops : List (Op α)) {c' : Controller α}
    (hrun : run ⟨s⟩ ops = .ok c') :
    c'.accumulators.keys = s.accumulators.keys ∧
    (∀ name acc, s.accumulators.get? name = some acc →
      ∃ acc', c'.accumulators.get? name = some acc' ∧ SameType acc acc') ∧
    c'.probabilities.shape = s.probabilities.shape ∧
    c'.probabilities.dtype = s.probabilities.dtype ∧
    c'.residuals.shape = s.residuals.shape ∧ c'.residuals.dtype = s.residuals.dtype ∧
    c'.iterations.shape = s.iterations.shape ∧ c'.iterations.dtype = s.iterations.dtype := by
  refine (run_induction (Inv := fun t => t.accumulators.keys = s.accumulators.keys ∧
    (∀ name acc, s.accumulators.get? name = some acc →
      ∃ acc', t.accumulators.get? name = some acc' ∧ SameType acc acc') ∧
    t.probabilities.shape = s.probabilities.shape ∧
    t.probabilities.dtype = s.probabilities.dtype ∧
    t.residuals.shape = s.residuals.shape ∧ t.residuals.dtype = s.residuals.dtype ∧
    t.iterations.shape = s.iterations.shape ∧ t.iterations.dtype = s.iterations.dtype)
    ?_ ?_ ?_ ops hwf ?_ hrun).2
  · rintro t n x t' - ⟨-, rfl⟩ h
    exact h
  · rintro t h t' - st ⟨h1, h2, h3, h4, h5, h6, h7, h8⟩
    refine ⟨st.akeys.trans h1, fun name acc hacc => ?_, st.pshape.trans h3, st.pdtype.trans h4,
      st.rshape.trans h5, st.rdtype.trans h6, st.ishape.trans h7, st.idtype.trans h8⟩
    obtain ⟨a, ha, hs⟩ := h2 name acc hacc
    obtain ⟨u, a', -, ha', ts⟩ := st.tree name a ha
    refine ⟨a', ha', hs.trans (SameType.of_leaves ts.struct fun k l hl => ?_)⟩
    obtain ⟨ta, tu, ta', e1, -, e3, e4⟩ := ts.leaf k l hl
    exact ⟨ta, ta', e1, e3, e4.shape, e4.dtype⟩
  · rintro t t' - st ⟨h1, h2, h3, h4, h5, h6, h7, h8⟩
    refine ⟨st.akeys.trans h1, fun name acc hacc => ?_, st.pshape.trans h3, st.pdtype.trans h4,
      st.rshape.trans h5, st.rdtype.trans h6, st.ishape.trans h7, st.idtype.trans h8⟩
    obtain ⟨a, ha, hs⟩ := h2 name acc hacc
    obtain ⟨d, a', -, ha', hstr, -, ts⟩ := st.tree name a ha
    refine ⟨a', ha', hs.trans (SameType.of_leaves hstr fun k l hl => ?_)⟩
    obtain ⟨ta, td, ta', e1, -, e3, e4⟩ := ts k l hl
    exact ⟨ta, ta', e1, e3, e4.shape, e4.dtype⟩
  · exact ⟨rfl, fun name acc h => ⟨acc, h, SameType.refl_of_batched (hwf.batched name acc h)⟩,
      rfl, rfl, rfl, rfl, rfl, rfl⟩

section Example
open Fixtures
attribute [local instance] Arith.exact

/-- A history with two rounds and a reset that succeeds. -/
example : simple.WF ∧ succeeds (run ⟨simple⟩ (roundOps [sround [1/2, 1] 4 6, sround [1/4, 2/3] 8 3]
    ++ [.reset])) = true := ⟨simple_wf, by decide +kernel⟩

end Example
end JaxAct
