import Verif.Lemmas.Entry
import Verif.Props.Fixtures

/-! # C13 Exact success condition and error kinds of iterate_act -/

namespace JaxAct
open ACTStates
variable {α : Type} [Arith α]

omit [Arith α] in
/-- Specification: the update tree fits the accumulator tree of a controller whose probabilities
have dtype `d`: leaf by leaf tensors of the same shape, with dtypes that promote to the accumulator's
dtype. -/
def UpdateFits (d : DType) (acc upd : PyTree (Leaf α)) : Prop :=
  upd ≠ .none ∧
  List.Forall₂ (fun la lu => ∃ ta tu, la = Leaf.tensor ta ∧ lu = Leaf.tensor tu ∧
    tu.shape = ta.shape ∧ DType.promote ta.dtype (DType.promote d tu.dtype) = ta.dtype)
    acc.treeLeaves upd.treeLeaves

omit [Arith α] in
theorem isNone_false_iff {β : Type} {t : PyTree β} : t.isNone = false ↔ t ≠ .none := by
  cases t <;> simp [PyTree.isNone]

/-- C13, success.  `iterate_act` succeeds exactly if the halting tensor has the batch shape, its
dtype after clipping is that of the probabilities, and each accumulator's update fits. -/
theorem C13_iterate_succeeds_iff {s : ACTStates α} (hwf : s.WF) (h : Tensor α) :
    (∃ c', Controller.iterateAct ⟨s⟩ h = .ok c') ↔
      h.shape = s.probabilities.shape ∧ h.dtype.withFloat = s.probabilities.dtype ∧
      ∀ name acc, s.accumulators.get? name = some acc →
        ∃ upd, s.updates.get? name = some upd ∧ UpdateFits s.probabilities.dtype acc upd := by
  constructor
  · rintro ⟨c', hc⟩
    have st := Controller.iterateAct_ok hwf hc
    refine ⟨st.hshape, st.hdtype, fun name acc hacc => ?_⟩
    obtain ⟨u, a', h1, h2, h3⟩ := st.tree name acc hacc
    refine ⟨u, h1, isNone_false_iff.1 h3.notNone, ?_⟩
    rw [List.forall₂_iff_get]
    refine ⟨h3.count.symm, fun k hk1 hk2 => ?_⟩
    obtain ⟨ta, tu, ta', e1, e2, e3, e4⟩ := h3.leaf k _ (List.getElem?_eq_getElem hk1)
    refine ⟨ta, tu, e1, ?_, e4.ushape, e4.dtypes⟩
    rw [List.getElem?_eq_getElem hk2] at e2
    exact Option.some.inj e2
  · rintro ⟨h1, h2, h3⟩
    refine Controller.iterateAct_of hwf h1 h2 fun n a u ha hu => ?_
    obtain ⟨u', hu', h4, h5⟩ := h3 n a ha
    rw [hu] at hu'
    cases hu'
    refine ⟨isNone_false_iff.2 h4, h5.length_eq.symm, fun k la lu hla hlu => ?_⟩
    obtain ⟨hk1, e1⟩ := List.getElem?_eq_some_iff.1 hla
    obtain ⟨hk2, e2⟩ := List.getElem?_eq_some_iff.1 hlu
    have := (List.forall₂_iff_get.1 h5).2 k hk1 hk2
    simp only [List.get_eq_getElem, e1, e2] at this
    exact this

/-- C13, errors.  `ValueError` exactly for a wrong batch shape, `TypeError` exactly for a wrong dtype
(and right shape), `RuntimeError` exactly for a misfit of some update (and right shape and dtype);
no other exception. -/
theorem C13_iterate_errors {s : ACTStates α} (hwf : s.WF) (h : Tensor α) :
    (Controller.iterateAct ⟨s⟩ h = .error .valueError ↔ h.shape ≠ s.probabilities.shape) ∧
    (Controller.iterateAct ⟨s⟩ h = .error .typeError ↔
      h.shape = s.probabilities.shape ∧ h.dtype.withFloat ≠ s.probabilities.dtype) ∧
    (Controller.iterateAct ⟨s⟩ h = .error .runtimeError ↔
      h.shape = s.probabilities.shape ∧ h.dtype.withFloat = s.probabilities.dtype ∧
      ¬ ∀ name acc, s.accumulators.get? name = some acc →
        ∃ upd, s.updates.get? name = some upd ∧ UpdateFits s.probabilities.dtype acc upd) ∧
    ∀ e, Controller.iterateAct ⟨s⟩ h = .error e →
      e = .valueError ∨ e = .typeError ∨ e = .runtimeError := by
  have hok := C13_iterate_succeeds_iff hwf h
  have herr := fun e => Controller.iterateAct_error (e := e) hwf (h := h)
  cases hr : Controller.iterateAct ⟨s⟩ h with
  | ok c' =>
    obtain ⟨h1, h2, h3⟩ := hok.1 ⟨c', hr⟩
    refine ⟨by simp [h1], by simp [h2], ?_, by simp⟩
    constructor
    · intro h; cases h
    · rintro ⟨-, -, h4⟩; exact absurd h3 h4
  | error e =>
    have hnot : ¬ ∃ c', Controller.iterateAct ⟨s⟩ h = .ok c' := by
      rintro ⟨c', hc⟩; rw [hr] at hc; cases hc
    rw [hok] at hnot
    rcases herr e hr with ⟨h1, rfl⟩ | ⟨h1, h2, rfl⟩ | ⟨h1, h2, rfl⟩
    · simp [h1]
    · simp [h1, h2]
    · refine ⟨by simp [h1], by simp [h2], ?_, by simp⟩
      simp only [h1, h2, true_and] at hnot ⊢
      simpa using hnot

section Example
open Fixtures
attribute [local instance] Arith.exact

/-- All four outcomes on the fresh controller: wrong shape, wrong dtype, missing update, success. -/
example :
    raised (Controller.iterateAct ⟨fresh⟩ (vec [1, 1, 1])) = some .valueError ∧
    raised (Controller.iterateAct ⟨fresh⟩ { vec [1, 1] with dtype := .f64 }) = some .typeError ∧
    raised (Controller.iterateAct ⟨fresh⟩ (vec [1, 1])) = some .runtimeError ∧
    succeeds (run ⟨fresh⟩ (roundOps [round [1, 1] 2 3])) = true := by decide +kernel

/-- The structure of the update tree is not compared, only leaf number and shapes: a tuple is accepted
for a list. -/
example : succeeds (run ⟨fresh⟩ (roundOps [⟨[("out", bare (col 1 1)),
    ("tree", .node .tuple [bare (vec [1, 2]), bare (col 1 1)])], vec [1, 1]⟩])) = true := by
  decide +kernel

/-- Likewise a namedtuple. -/
example : succeeds (run ⟨fresh⟩ (roundOps [⟨[("out", bare (col 1 1)),
    ("tree", .node (.user "Point") [bare (vec [1, 2]), bare (col 1 1)])], vec [1, 1]⟩])) = true := by
  decide +kernel

/-- A `float16` accumulator in a `float32` controller can never be iterated: the product has dtype
`float32`, which the accumulator dtype does not absorb. -/
theorem C13_low_precision_accumulator_never_iterates {s : ACTStates ℚ} (hwf : s.WF)
    (hd : s.probabilities.dtype = .f32) {name acc} (hacc : s.accumulators.get? name = some acc)
    {t : Tensor ℚ} (hl : Leaf.tensor t ∈ acc.treeLeaves) (ht : t.dtype = .f16) (h : Tensor ℚ) :
    ¬ ∃ c', Controller.iterateAct ⟨s⟩ h = .ok c' := by
  rw [C13_iterate_succeeds_iff hwf]
  rintro ⟨-, -, h3⟩
  obtain ⟨u, -, -, h4⟩ := h3 name acc hacc
  obtain ⟨k, hk, e⟩ := List.mem_iff_getElem.1 hl
  obtain ⟨ta, tu, e1, -, -, e2⟩ := (List.forall₂_iff_get.1 h4).2 k hk (h4.length_eq ▸ hk)
  simp only [List.get_eq_getElem, e] at e1
  cases e1
  rw [ht, hd] at e2
  revert e2
  cases tu.dtype <;> decide

end Example

end JaxAct
