import Verif.Props.C04
import Mathlib.Algebra.BigOperators.Ring.Finset

/-! # C49 Accumulators stay inside the convex hull of their inputs -/

namespace JaxAct
open ACTStates
variable {K : Type} [Field K] [LinearOrder K] [IsStrictOrderedRing K]
attribute [local instance] Arith.exact

/-- C49, bounds: starting from 0, with all update entries at the position in `[lo, hi]`,
`lo ≤ 0 ≤ hi`, the accumulator entry lies in `[lo, hi]` after any number of rounds. -/
theorem C49_convex_bounds {s : ACTStates K} (hwf : s.WF)
    (he0 : 0 < s.epsilon) (he1 : s.epsilon ≤ 1) (hdep : 0 ≤ s.depression_constant)
    (rs : List (Round K)) {c' : Controller K} (hrun : run ⟨s⟩ (roundOps rs) = .ok c')
    {name : String} {k : Nat} {i : List Nat} (u h : Nat → K) {lo hi : K} (hlo : lo ≤ 0) (hhi : 0 ≤ hi)
    (hfresh : s.probabilities.at? (i.take s.probabilities.shape.length) = some 0)
    (hacc : entry? s.accumulators name k i = some 0)
    (hu : ∀ t r, rs[t]? = some r → entry? r.updates name k i = some (u t) ∧ lo ≤ u t ∧ u t ≤ hi)
    (hh : ∀ t r, rs[t]? = some r →
      r.halting.at? (i.take s.probabilities.shape.length) = some (h t)) :
    ∃ a, entry? c'.accumulators name k i = some a ∧ lo ≤ a ∧ a ≤ hi := by
  obtain ⟨h1, -⟩ := C04_graves_weights hwf he0 he1 hdep rs hrun u h hfresh hacc
    (fun t r ht => (hu t r ht).1) hh
  refine ⟨_, h1, ?_⟩
  rw [zero_add]
  set w := Graves.weight s.epsilon s.depression_constant h with hw
  have hw0 : ∀ t, 0 ≤ w t := fun t => Graves.weight_nonneg hdep he0.le
  have hsum : ∑ t ∈ Finset.range rs.length, w t ≤ 1 := by
    by_cases hc : Graves.Crossed s.epsilon s.depression_constant h rs.length
    · rw [hw, Graves.sum_weight_of_crossed (by linarith) hc]
    · rw [hw, Graves.sum_weight_of_not hc]
      rw [Graves.crossed_iff hdep] at hc
      linarith [not_lt.1 hc]
  have hbd : ∀ t ∈ Finset.range rs.length, lo ≤ u t ∧ u t ≤ hi := by
    intro t ht
    exact (hu t _ (List.getElem?_eq_getElem (Finset.mem_range.1 ht))).2
  constructor
  · calc lo = lo * 1 := (mul_one lo).symm
      _ ≤ lo * ∑ t ∈ Finset.range rs.length, w t := mul_le_mul_of_nonpos_left hsum hlo
      _ = ∑ t ∈ Finset.range rs.length, w t * lo := by
          rw [Finset.mul_sum]; exact Finset.sum_congr rfl fun _ _ => mul_comm _ _
      _ ≤ _ := Finset.sum_le_sum fun t ht => mul_le_mul_of_nonneg_left (hbd t ht).1 (hw0 t)
  · calc ∑ t ∈ Finset.range rs.length, w t * u t
        ≤ ∑ t ∈ Finset.range rs.length, w t * hi :=
          Finset.sum_le_sum fun t ht => mul_le_mul_of_nonneg_left (hbd t ht).2 (hw0 t)
      _ = (∑ t ∈ Finset.range rs.length, w t) * hi := (Finset.sum_mul _ _ _).symm
      _ ≤ 1 * hi := mul_le_mul_of_nonneg_right hsum hhi
      _ = hi := one_mul hi

/-- C49, weighted mean: once the element is halted, the accumulator entry is a weighted mean of the
update entries, with non-negative weights that sum to one (and depend on the halting probabilities
only); so it lies between any bounds of the updates, whatever the sign of the bounds. -/
theorem C49_weighted_mean {s : ACTStates K} (hwf : s.WF)
    (he0 : 0 < s.epsilon) (he1 : s.epsilon ≤ 1) (hdep : 0 ≤ s.depression_constant)
    (rs : List (Round K)) {c' : Controller K} (hrun : run ⟨s⟩ (roundOps rs) = .ok c')
    {name : String} {k : Nat} {i : List Nat} (u h : Nat → K)
    (hfresh : s.probabilities.at? (i.take s.probabilities.shape.length) = some 0)
    (hacc : entry? s.accumulators name k i = some 0)
    (hu : ∀ t r, rs[t]? = some r → entry? r.updates name k i = some (u t))
    (hh : ∀ t r, rs[t]? = some r →
      r.halting.at? (i.take s.probabilities.shape.length) = some (h t))
    (hhalt : c'.haltedBatches.at? (i.take s.probabilities.shape.length) = some true) :
    ∃ w : Nat → K, (∀ t, 0 ≤ w t) ∧ ∑ t ∈ Finset.range rs.length, w t = 1 ∧
      entry? c'.accumulators name k i = some (∑ t ∈ Finset.range rs.length, w t * u t) ∧
      ∀ lo hi, (∀ t < rs.length, lo ≤ u t ∧ u t ≤ hi) →
        lo ≤ ∑ t ∈ Finset.range rs.length, w t * u t ∧
        ∑ t ∈ Finset.range rs.length, w t * u t ≤ hi := by
  obtain ⟨h1, -⟩ := C04_graves_weights hwf he0 he1 hdep rs hrun u h hfresh hacc hu hh
  rw [(C04_probability_and_halting hwf he0 he1 hdep rs hrun h hfresh hh).2] at hhalt
  have hs := Graves.sum_weight_of_crossed (by linarith) hhalt
  have hw0 : ∀ t, 0 ≤ Graves.weight s.epsilon s.depression_constant h t :=
    fun t => Graves.weight_nonneg hdep he0.le
  refine ⟨Graves.weight s.epsilon s.depression_constant h, hw0, hs, by rw [h1, zero_add],
    fun lo hi hb => ⟨?_, ?_⟩⟩
  · calc lo = (∑ t ∈ Finset.range rs.length, Graves.weight s.epsilon s.depression_constant h t) * lo
          := by rw [hs, one_mul]
      _ = ∑ t ∈ Finset.range rs.length, Graves.weight s.epsilon s.depression_constant h t * lo :=
          Finset.sum_mul _ _ _
      _ ≤ _ := Finset.sum_le_sum fun t ht =>
          mul_le_mul_of_nonneg_left (hb t (Finset.mem_range.1 ht)).1 (hw0 t)
  · calc _ ≤ ∑ t ∈ Finset.range rs.length, Graves.weight s.epsilon s.depression_constant h t * hi :=
          Finset.sum_le_sum fun t ht =>
            mul_le_mul_of_nonneg_left (hb t (Finset.mem_range.1 ht)).2 (hw0 t)
      _ = (∑ t ∈ Finset.range rs.length, Graves.weight s.epsilon s.depression_constant h t) * hi :=
          (Finset.sum_mul _ _ _).symm
      _ = hi := by rw [hs, one_mul]

section Example
open Fixtures

/-- Updates 2 and 8 with weights 1/2 and 1/2 at element 0 (halted): mean 5. -/
example : entry? fresh.accumulators "out" 0 [0, 0] = some 0 ∧
    obs (run ⟨fresh⟩ (roundOps [round [1/2, 1] 2 2, round [1/2, 1] 8 8]))
      (fun c => some (c.haltedBatches.at? [0], entry? c.accumulators "out" 0 [0, 0])) =
      some (some true, some 5) := by decide +kernel

end Example
end JaxAct
