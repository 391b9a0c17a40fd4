import Verif.Props.C48
import Verif.Lemmas.Ponder
import Mathlib.Algebra.Order.BigOperators.Ring.Finset

/-!
# C83 Epsilon bounds the error of stopping early

Epsilon cuts off the tail of the weights.  The accumulators obtained with two epsilons differ by at most the
larger one times the variation of the updates after the earlier halting step.
-/

namespace JaxAct
open ACTStates
variable {K : Type} [Field K] [LinearOrder K] [IsStrictOrderedRing K]
attribute [local instance] Arith.exact

namespace Graves

omit [IsStrictOrderedRing K] in
/-- Before the last step the weight is the demand. -/
theorem weight_of_not {eps dep : K} {h : Nat → K} {t : Nat} (hn : ¬ Crossed eps dep h (t + 1)) :
    weight eps dep h t = dep * clip (h t) := by
  unfold weight; rw [if_pos hn]

omit [IsStrictOrderedRing K] in
/-- After the last step the weights are zero. -/
theorem weight_of_crossed {eps dep : K} {h : Nat → K} {t : Nat} (hc : Crossed eps dep h t) :
    weight eps dep h t = 0 := by
  unfold weight
  rw [if_neg (by simpa using hc.mono (Nat.le_succ t)), if_neg (by simpa using hc)]

/-- The difference of the outputs: the tail of the longer run, relative to the last update of the shorter
one. -/
theorem sum_epsilon {eps eps' dep : K} (he : eps ≤ eps') (he1 : eps' ≤ 1) (hd : 0 ≤ dep)
    {h u : Nat → K} {t : Nat} (hc : Crossed eps dep h t) (hc' : Crossed eps' dep h t) :
    ∑ j ∈ Finset.range t, weight eps dep h j * u j - ∑ j ∈ Finset.range t, weight eps' dep h j * u j =
      ∑ j ∈ Finset.Ico (steps eps' dep h t) t,
        weight eps dep h j * (u j - u (steps eps' dep h t - 1)) := by
  obtain ⟨n0, nt, nn, nc⟩ := steps_of_crossed (by linarith) hc'
  generalize steps eps' dep h t = N at *
  have s1 := sum_weight_of_crossed (by linarith) hc
  have s2 := sum_weight_of_crossed (by linarith) hc'
  have key : ∑ j ∈ Finset.range t, weight eps dep h j * u j -
      ∑ j ∈ Finset.range t, weight eps' dep h j * u j =
      ∑ j ∈ Finset.range t, (weight eps dep h j - weight eps' dep h j) * (u j - u (N - 1)) := by
    simp only [sub_mul, mul_sub, Finset.sum_sub_distrib, ← Finset.sum_mul, s1, s2]
    ring
  rw [key, ← Finset.sum_range_add_sum_Ico _ nt]
  rw [Finset.sum_eq_zero (s := Finset.range N), zero_add]
  · refine Finset.sum_congr rfl fun j hj => ?_
    rw [Finset.mem_Ico] at hj
    rw [weight_of_crossed (nc.mono hj.1), sub_zero]
  · intro j hj
    rw [Finset.mem_range] at hj
    rcases Nat.lt_or_ge j (N - 1) with hlt | hge
    · have h1 : ¬ Crossed eps' dep h (j + 1) := fun hx => nn (hx.mono (by omega))
      have h2 : ¬ Crossed eps dep h (j + 1) := by
        rw [crossed_iff hd] at h1 ⊢
        intro hx
        exact h1 (by linarith)
      rw [weight_of_not h1, weight_of_not h2, sub_self, zero_mul]
    · obtain rfl : j = N - 1 := by omega
      rw [sub_self, mul_zero]

/-- The mass of the tail: nonnegative and at most the larger epsilon. -/
theorem tail_epsilon {eps eps' dep : K} (he0 : 0 < eps) (he : eps ≤ eps') (he1 : eps' ≤ 1) (hd : 0 ≤ dep)
    {h : Nat → K} {t : Nat} (hc : Crossed eps dep h t) (hc' : Crossed eps' dep h t) :
    ∑ j ∈ Finset.Ico (steps eps' dep h t) t, weight eps dep h j ≤ eps' := by
  obtain ⟨n0, nt, nn, nc⟩ := steps_of_crossed (by linarith) hc'
  generalize steps eps' dep h t = N at *
  have s1 := sum_weight_of_crossed (by linarith) hc
  rw [← Finset.sum_range_add_sum_Ico _ nt] at s1
  by_cases hn : Crossed eps dep h N
  · rw [sum_weight_of_crossed (by linarith) hn] at s1
    linarith
  · rw [sum_weight_of_not hn] at s1
    rw [crossed_iff hd] at nc
    linarith

end Graves

/-- C83.  Two controllers get the same halting probabilities `h` for a batch element and the same update
entries `u` for an accumulator entry of it; they differ in epsilon (and possibly in everything else).  If the
element is halted at the end with the smaller epsilon, then it is with the larger one, and the two
accumulator entries differ by at most the larger epsilon times `M`, where `M` bounds the distance of the
updates after the step that halts it (under the larger epsilon) from the update of that step. -/
theorem C83_epsilon_bounds_error {s t : ACTStates K} (hs : s.WF) (ht : t.WF)
    (he0 : 0 < s.epsilon) (he : s.epsilon ≤ t.epsilon) (he1 : t.epsilon ≤ 1)
    (hd0 : 0 ≤ s.depression_constant) (hd : s.depression_constant = t.depression_constant)
    {name name' : String} {k k' : Nat} {i i' : List Nat} {a0 : K}
    (hb : s.probabilities.at? (i.take s.probabilities.shape.length) = some 0)
    (hb' : t.probabilities.at? (i'.take t.probabilities.shape.length) = some 0)
    (ha : entry? s.accumulators name k i = some a0) (ha' : entry? t.accumulators name' k' i' = some a0)
    {rs rs' : List (Round K)} (hlen : rs.length = rs'.length) (u h : Nat → K)
    (hu : ∀ j r, rs[j]? = some r → entry? r.updates name k i = some (u j))
    (hu' : ∀ j r, rs'[j]? = some r → entry? r.updates name' k' i' = some (u j))
    (hh : ∀ j r, rs[j]? = some r →
      r.halting.at? (i.take s.probabilities.shape.length) = some (h j))
    (hh' : ∀ j r, rs'[j]? = some r →
      r.halting.at? (i'.take t.probabilities.shape.length) = some (h j))
    {c d : Controller K} (h1 : run ⟨s⟩ (roundOps rs) = .ok c) (h2 : run ⟨t⟩ (roundOps rs') = .ok d)
    (hhalt : c.haltedBatches.at? (i.take s.probabilities.shape.length) = some true) {M : K} (hM : 0 ≤ M)
    (hvar : ∀ j, Graves.steps t.epsilon t.depression_constant h rs.length ≤ j → j < rs.length →
      |u j - u (Graves.steps t.epsilon t.depression_constant h rs.length - 1)| ≤ M) :
    d.haltedBatches.at? (i'.take t.probabilities.shape.length) = some true ∧
    ∃ a a', entry? c.accumulators name k i = some a ∧ entry? d.accumulators name' k' i' = some a' ∧
      |a - a'| ≤ t.epsilon * M := by
  have hd1 : 0 ≤ t.depression_constant := hd ▸ hd0
  have e1 := (C04_probability_and_halting hs he0 (he.trans he1) hd0 rs h1 h hb hh).2
  have e2 := (C04_probability_and_halting ht (he0.trans_le he) he1 hd1 rs' h2 h hb' hh').2
  have g1 := (C04_graves_weights hs he0 (he.trans he1) hd0 rs h1 u h hb ha hu hh).1
  have g2 := (C04_graves_weights ht (he0.trans_le he) he1 hd1 rs' h2 u h hb' ha' hu' hh').1
  rw [hd] at e1 g1
  rw [← hlen] at e2 g2
  have hc := e1.1 hhalt
  have hc' : Graves.Crossed t.epsilon t.depression_constant h rs.length := by
    rw [Graves.crossed_iff hd1] at hc ⊢
    linarith
  refine ⟨e2.2 hc', _, _, g1, g2, ?_⟩
  rw [add_sub_add_left_eq_sub, Graves.sum_epsilon he he1 hd1 hc hc']
  refine (Finset.abs_sum_le_sum_abs _ _).trans ?_
  calc _ ≤ ∑ j ∈ Finset.Ico (Graves.steps t.epsilon t.depression_constant h rs.length) rs.length,
        Graves.weight s.epsilon t.depression_constant h j * M := by
        refine Finset.sum_le_sum fun j hj => ?_
        rw [Finset.mem_Ico] at hj
        rw [abs_mul, abs_of_nonneg (Graves.weight_nonneg hd1 he0.le)]
        exact mul_le_mul_of_nonneg_left (hvar j hj.1 hj.2) (Graves.weight_nonneg hd1 he0.le)
    _ ≤ t.epsilon * M := by
        rw [← Finset.sum_mul]
        exact mul_le_mul_of_nonneg_right (Graves.tail_epsilon he0 he he1 hd1 hc hc') hM

section Example
open Fixtures

/-- Halting probabilities 3/4 and 1/4: with epsilon 1/2 element 0 halts in the first round, with epsilon
1/10 in the second.  The updates 4 and 8 vary by 4, the results 4 and 5 by 1, which is at most `1/2 * 4`. -/
example :
    obs (run ⟨{ fresh with epsilon := 1/2 }⟩ (roundOps [round [3/4, 1] 4 1, round [1/4, 1] 8 1]))
      (fun c => some (c.haltedBatches.at? [0], c.iterations.at? [0],
        entry? c.accumulators "out" 0 [0, 0])) = some (some true, some 1, some 4) ∧
    obs (run ⟨fresh⟩ (roundOps [round [3/4, 1] 4 1, round [1/4, 1] 8 1]))
      (fun c => some (c.haltedBatches.at? [0], c.iterations.at? [0],
        entry? c.accumulators "out" 0 [0, 0])) = some (some true, some 2, some 5) ∧
    Graves.steps (1/2 : ℚ) 1 (fun j => if j = 0 then 3/4 else 1/4) 2 = 1 := by
  decide +kernel

end Example

end JaxAct
