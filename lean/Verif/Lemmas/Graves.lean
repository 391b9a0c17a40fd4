import Verif.Spec.Graves
import Verif.Lemmas.Exact
import Mathlib.Algebra.BigOperators.Intervals
import Mathlib.Algebra.Order.BigOperators.Group.Finset

/-! # Facts about the Graves weights -/

namespace JaxAct.Graves
variable {K : Type} [Field K] [LinearOrder K] [IsStrictOrderedRing K]

omit [IsStrictOrderedRing K] in
theorem Crossed.mono {eps dep : K} {h : Nat → K} {t t' : Nat} (hc : Crossed eps dep h t)
    (ht : t ≤ t') : Crossed eps dep h t' := by
  obtain ⟨j, h1, h2⟩ := hc
  exact ⟨j, h1.trans ht, h2⟩

omit [IsStrictOrderedRing K] in
theorem not_crossed_zero {eps dep : K} {h : Nat → K} (he : 0 ≤ 1 - eps) :
    ¬ Crossed eps dep h 0 := by
  rintro ⟨j, h1, h2⟩
  obtain rfl : j = 0 := by omega
  simp only [cumDemand, Finset.range_zero, Finset.sum_empty] at h2
  exact absurd h2 (not_lt.2 he)

omit [IsStrictOrderedRing K] in
theorem cumDemand_succ (dep : K) (h : Nat → K) (t : Nat) :
    cumDemand dep h (t + 1) = cumDemand dep h t + dep * clip (h t) :=
  Finset.sum_range_succ _ _

omit [IsStrictOrderedRing K] in
theorem crossed_succ {eps dep : K} {h : Nat → K} {t : Nat} (hn : ¬ Crossed eps dep h t) :
    Crossed eps dep h (t + 1) ↔ 1 - eps < cumDemand dep h (t + 1) := by
  constructor
  · rintro ⟨j, h1, h2⟩
    rcases Nat.lt_or_ge j (t + 1) with hj | hj
    · exact absurd ⟨j, by omega, h2⟩ hn
    · obtain rfl : j = t + 1 := by omega
      exact h2
  · intro h2; exact ⟨t + 1, le_refl _, h2⟩

omit [IsStrictOrderedRing K] in
theorem sum_weight_of_not {eps dep : K} {h : Nat → K} {t : Nat} (hn : ¬ Crossed eps dep h t) :
    ∑ j ∈ Finset.range t, weight eps dep h j = cumDemand dep h t := by
  refine Finset.sum_congr rfl fun j hj => ?_
  rw [Finset.mem_range] at hj
  unfold weight
  rw [if_pos fun hc => hn (hc.mono (by omega))]

omit [IsStrictOrderedRing K] in
/-- After the crossing the weights sum to one. -/
theorem sum_weight_of_crossed {eps dep : K} {h : Nat → K} (he : 0 ≤ 1 - eps) :
    ∀ {t : Nat}, Crossed eps dep h t → ∑ j ∈ Finset.range t, weight eps dep h j = 1
  | 0, hc => absurd hc (not_crossed_zero he)
  | t + 1, hc => by
    rw [Finset.sum_range_succ]
    by_cases hn : Crossed eps dep h t
    · rw [sum_weight_of_crossed he hn]
      unfold weight
      rw [if_neg (by simpa using hc), if_neg (by simpa using hn), add_zero]
    · rw [sum_weight_of_not hn]
      unfold weight
      rw [if_neg (by simpa using hc), if_pos hn]
      ring

theorem clip_nonneg (x : K) : 0 ≤ clip x := le_min zero_le_one (le_max_left _ _)

omit [IsStrictOrderedRing K] in
theorem clip_le_one (x : K) : clip x ≤ 1 := min_le_left _ _

theorem cumDemand_mono {dep : K} (hd : 0 ≤ dep) (h : Nat → K) {t t' : Nat} (ht : t ≤ t') :
    cumDemand dep h t ≤ cumDemand dep h t' := by
  induction t', ht using Nat.le_induction with
  | base => exact le_refl _
  | succ n _ ih =>
    rw [cumDemand_succ]
    have := mul_nonneg hd (clip_nonneg (h n))
    linarith

/-- With a non-negative depression constant, crossing is decided by the last sum. -/
theorem crossed_iff {eps dep : K} (hd : 0 ≤ dep) {h : Nat → K} {t : Nat} :
    Crossed eps dep h t ↔ 1 - eps < cumDemand dep h t := by
  constructor
  · rintro ⟨j, h1, h2⟩; exact h2.trans_le (cumDemand_mono hd h h1)
  · intro h2; exact ⟨t, le_refl _, h2⟩

theorem weight_nonneg {eps dep : K} (hd : 0 ≤ dep) (he : 0 ≤ eps) {h : Nat → K} {t : Nat} :
    0 ≤ weight eps dep h t := by
  unfold weight
  split
  · exact mul_nonneg hd (clip_nonneg _)
  · split
    · rename_i hn
      rw [crossed_iff hd, not_lt] at hn
      linarith
    · exact le_refl _

/-- One scalar step of the model's specification adds the Graves weight. -/
theorem spec_weight {d : DType} {eps dep : K} (he : 0 < eps) (he1 : 0 ≤ 1 - eps) (hd : 0 ≤ dep)
    {h : Nat → K} {t : Nat} :
    letI := Arith.exact K
    Spec.weight d eps dep (∑ j ∈ Finset.range t, weight eps dep h j) (h t) =
      weight eps dep h t ∧
    (Spec.isHalted d eps (∑ j ∈ Finset.range t, weight eps dep h j) = true ↔
      Crossed eps dep h t) := by
  let _ := Arith.exact K
  by_cases hc : Crossed eps dep h t
  · rw [sum_weight_of_crossed he1 hc]
    have hh : Spec.isHalted d eps (1 : K) = true := by rw [Spec.isHalted_iff]; linarith
    refine ⟨?_, by simp [hh, hc]⟩
    rw [Spec.weight_of_crosses (Spec.crosses_of_halted hd hh)]
    unfold weight
    rw [if_neg (by simpa using hc.mono (Nat.le_succ t)), if_neg (by simpa using hc)]
    ring
  · rw [sum_weight_of_not hc]
    have hle : cumDemand dep h t ≤ 1 - eps := by
      rw [crossed_iff hd, not_lt] at hc; exact hc
    have hh : Spec.isHalted d eps (cumDemand dep h t) = false := Spec.isHalted_false_iff.2 hle
    refine ⟨?_, by simp [hh, hc]⟩
    unfold weight
    by_cases hc' : Crossed eps dep h (t + 1)
    · rw [if_neg (by simpa using hc'), if_pos hc]
      rw [crossed_succ hc, cumDemand_succ] at hc'
      refine Spec.weight_of_crosses (Spec.crosses_iff.2 ?_)
      have : Spec.clamp (h t) = clip (h t) := rfl
      rw [this]; linarith
    · rw [if_pos hc']
      rw [crossed_succ hc, cumDemand_succ, not_lt] at hc'
      refine Spec.weight_of_not (Spec.crosses_false_iff.2 ?_)
      have : Spec.clamp (h t) = clip (h t) := rfl
      rw [this]; linarith

end JaxAct.Graves
