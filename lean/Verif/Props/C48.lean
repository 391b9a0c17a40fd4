import Verif.Props.C04

/-! # C48 Depression constant and epsilon act monotonically -/

namespace JaxAct
open ACTStates
variable {K : Type} [Field K] [LinearOrder K] [IsStrictOrderedRing K]
attribute [local instance] Arith.exact

/-- C48, monotonicity.  Two controllers (possibly with different accumulators) receive the same
halting probabilities at `b`; the first has the smaller (or equal) depression constant and the
smaller (or equal) epsilon.  If `b` is halted in the first, it is halted in the second. -/
theorem C48_monotone {s t : ACTStates K} (hs : s.WF) (ht : t.WF)
    (he0 : 0 < s.epsilon) (he : s.epsilon ≤ t.epsilon) (he1 : t.epsilon ≤ 1)
    (hd0 : 0 ≤ s.depression_constant) (hd : s.depression_constant ≤ t.depression_constant)
    {b : List Nat} (hb : s.probabilities.at? b = some 0) (hb' : t.probabilities.at? b = some 0)
    {rs rs' : List (Round K)} (hlen : rs.length = rs'.length) (h : Nat → K)
    (hh : ∀ j r, rs[j]? = some r → r.halting.at? b = some (h j))
    (hh' : ∀ j r, rs'[j]? = some r → r.halting.at? b = some (h j))
    {c d : Controller K} (h1 : run ⟨s⟩ (roundOps rs) = .ok c) (h2 : run ⟨t⟩ (roundOps rs') = .ok d)
    (hhalt : c.haltedBatches.at? b = some true) : d.haltedBatches.at? b = some true := by
  have e1 := (C04_probability_and_halting hs he0 (he.trans he1) hd0 rs h1 h hb hh).2
  have e2 := (C04_probability_and_halting ht (he0.trans_le he) he1 (hd0.trans hd) rs' h2 h hb' hh').2
  rw [e2, ← hlen, Graves.crossed_iff (hd0.trans hd)]
  rw [e1, Graves.crossed_iff hd0] at hhalt
  have hcum : Graves.cumDemand s.depression_constant h rs.length ≤
      Graves.cumDemand t.depression_constant h rs.length :=
    Finset.sum_le_sum fun j _ => mul_le_mul_of_nonneg_right hd (Graves.clip_nonneg _)
  linarith

omit [IsStrictOrderedRing K] in
/-- C48, depression constant 0: no history of caches and iterations changes the probability or any
accumulator entry of an element that is not halted (and it is not halted afterwards). -/
theorem C48_zero_depression {s : ACTStates K} (hwf : s.WF) (hd : s.depression_constant = 0)
    (ops : List (Op K)) (hops : ∀ op ∈ ops, op.NotReset) {c' : Controller K}
    (hrun : run ⟨s⟩ ops = .ok c') {b : List Nat}
    (hb : (Controller.haltedBatches ⟨s⟩).at? b = some false) :
    c'.haltedBatches.at? b = some false ∧ c'.probabilities.at? b = s.probabilities.at? b ∧
    ∀ name k i a, i.take s.probabilities.shape.length = b →
      entry? s.accumulators name k i = some a → entry? c'.accumulators name k i = some a := by
  have := run_induction_noReset (Inv := fun t => t.depression_constant = 0 ∧
      t.probabilities.shape = s.probabilities.shape ∧
      (Controller.haltedBatches ⟨t⟩).at? b = some false ∧
      t.probabilities.at? b = s.probabilities.at? b ∧
      ∀ name k i a, i.take s.probabilities.shape.length = b →
        entry? s.accumulators name k i = some a → entry? t.accumulators name k i = some a)
    ?_ ?_ ops hops hwf ⟨hd, rfl, hb, rfl, fun _ _ _ _ _ h => h⟩ hrun
  · exact this.2.2.2
  · rintro t n x t' - ⟨-, rfl⟩ h; exact h
  · rintro t h t' htwf st ⟨h1, h2, h3, h4, h5⟩
    obtain ⟨p, hp, hh⟩ := (halted_iff htwf.floating).1 h3
    obtain ⟨r, n, x, -, -, hx, hc, -, -⟩ := st.cellAt htwf hp
    have hnc : Spec.crosses t.probabilities.dtype t.epsilon t.depression_constant p
        (convS h.dtype t.probabilities.dtype x) = false := by
      rw [Spec.crosses_false_iff, h1, zero_mul, zero_add]
      exact Spec.isHalted_false_iff.1 hh
    have hw : Spec.weight t.probabilities.dtype t.epsilon t.depression_constant p
        (convS h.dtype t.probabilities.dtype x) = 0 := by
      rw [Spec.weight_of_not hnc, h1, zero_mul]
    rw [Spec.step_prob, hw] at hc
    simp only [add_zero] at hc
    refine ⟨st.depression.trans h1, st.pshape.trans h2, ?_, ?_, fun name k i a hi ha => ?_⟩
    · refine (halted_iff (by rw [st.pdtype]; exact htwf.floating)).2 ⟨p, hc, ?_⟩
      rw [st.pdtype, st.epsilon]; exact hh
    · rw [hc, ← h4, hp]
    · obtain ⟨u, p2, x2, dA, dU, -, hp2, hx2, he⟩ := st.entry htwf (h5 name k i a hi ha)
      rw [h2, hi, hp] at hp2
      cases hp2
      rw [h2, hi, hx] at hx2
      cases hx2
      rw [he, Spec.accStep_eq, hw, zero_mul, add_zero, ite_self]

section Example
open Fixtures

/-- With depression 1/2 element 0 is not halted after two rounds of 1/2; with depression 1 it is. -/
example :
    obs (run ⟨{ fresh with depression_constant := 1/2 }⟩
        (roundOps [round [1/2, 1] 1 2, round [1/2, 1] 1 2]))
      (fun c => some (c.haltedBatches.at? [0], c.haltedBatches.at? [1])) =
      some (some false, some true) ∧
    obs (run ⟨fresh⟩ (roundOps [round [1/2, 1] 1 2, round [1/2, 1] 1 2]))
      (fun c => some (c.haltedBatches.at? [0], c.haltedBatches.at? [1])) =
      some (some true, some true) ∧
    obs (run ⟨{ fresh with depression_constant := 0 }⟩ (roundOps [round [1, 1] 1 2]))
      (fun c => some (c.probabilities.at? [0], entry? c.accumulators "tree" 1 [1, 0])) =
      some (some 0, some 1) := by decide +kernel

end Example
end JaxAct
