import Verif.Spec.Ponder
import Verif.Lemmas.Graves
import Mathlib.Algebra.Order.Group.MinMax
import Mathlib.Algebra.BigOperators.Ring.Finset

/-! # Facts about the ponder cost -/

namespace JaxAct.Graves
variable {K : Type} [Field K] [LinearOrder K]

theorem steps_zero (eps dep : K) (h : Nat → K) : steps eps dep h 0 = 0 := by simp [steps]

theorem steps_succ (eps dep : K) (h : Nat → K) (t : Nat) :
    steps eps dep h (t + 1) = if Crossed eps dep h t then steps eps dep h t
      else steps eps dep h t + 1 := by
  unfold steps
  rw [Finset.range_add_one, Finset.filter_insert]
  by_cases hc : Crossed eps dep h t
  · rw [if_neg (by simpa using hc), if_pos hc]
  · rw [if_pos hc, if_neg hc, Finset.card_insert_of_notMem (by simp)]

theorem steps_of_not {eps dep : K} {h : Nat → K} : ∀ {t : Nat}, ¬ Crossed eps dep h t →
    steps eps dep h t = t
  | 0, _ => steps_zero ..
  | t + 1, hn => by
    have hn' : ¬ Crossed eps dep h t := fun hc => hn (hc.mono (Nat.le_succ t))
    rw [steps_succ, if_neg hn', steps_of_not hn']

/-- The last step: it is the first one that crosses. -/
theorem steps_of_crossed {eps dep : K} (he : 0 ≤ 1 - eps) {h : Nat → K} :
    ∀ {t : Nat}, Crossed eps dep h t → 0 < steps eps dep h t ∧ steps eps dep h t ≤ t ∧
      ¬ Crossed eps dep h (steps eps dep h t - 1) ∧ Crossed eps dep h (steps eps dep h t)
  | 0, hc => absurd hc (not_crossed_zero he)
  | t + 1, hc => by
    rw [steps_succ]
    by_cases hn : Crossed eps dep h t
    · rw [if_pos hn]
      obtain ⟨a, b, c, d⟩ := steps_of_crossed he hn
      exact ⟨a, b.trans (Nat.le_succ t), c, d⟩
    · rw [if_neg hn, steps_of_not hn]
      exact ⟨Nat.succ_pos t, le_rfl, hn, hc⟩

/-- The number of steps is the first time at which the sum has crossed. -/
theorem steps_unique {eps dep : K} (he : 0 ≤ 1 - eps) {h : Nat → K} {t n : Nat}
    (hc : Crossed eps dep h t) (h1 : ¬ Crossed eps dep h (n - 1)) (h2 : Crossed eps dep h n) :
    steps eps dep h t = n := by
  obtain ⟨a, b, c, d⟩ := steps_of_crossed he hc
  rcases Nat.lt_trichotomy (steps eps dep h t) n with hl | hl | hl
  · exact absurd (d.mono (by omega)) h1
  · exact hl
  · exact absurd (h2.mono (by omega)) c

theorem remainder_succ {eps dep : K} {h : Nat → K} {t : Nat} :
    remainder eps dep h (t + 1) = if Crossed eps dep h t then remainder eps dep h t
      else if Crossed eps dep h (t + 1) then 1 - cumDemand dep h t else 0 := by
  unfold remainder
  rw [steps_succ]
  by_cases hn : Crossed eps dep h t
  · rw [if_pos hn, if_pos hn, if_pos hn, if_pos (hn.mono (Nat.le_succ t))]
  · rw [if_neg hn, if_neg hn, steps_of_not hn]; rfl

/-- The weighted sum of updates, when the sum has not crossed. -/
theorem sum_of_not {eps dep : K} {h u : Nat → K} {t : Nat} (hn : ¬ Crossed eps dep h t) :
    ∑ j ∈ Finset.range t, weight eps dep h j * u j =
      ∑ j ∈ Finset.range t, dep * clip (h j) * u j := by
  refine Finset.sum_congr rfl fun j hj => ?_
  rw [Finset.mem_range] at hj
  unfold weight
  rw [if_pos fun hc => hn (hc.mono (by omega))]

/-- The weighted sum of updates, when it has: the demands, and the remainder for the last step. -/
theorem sum_of_crossed {eps dep : K} (he : 0 ≤ 1 - eps) {h u : Nat → K} : ∀ {t : Nat},
    Crossed eps dep h t → ∑ j ∈ Finset.range t, weight eps dep h j * u j =
      ∑ j ∈ Finset.range (steps eps dep h t - 1), dep * clip (h j) * u j +
        remainder eps dep h t * u (steps eps dep h t - 1)
  | 0, hc => absurd hc (not_crossed_zero he)
  | t + 1, hc => by
    rw [Finset.sum_range_succ, steps_succ, remainder_succ]
    by_cases hn : Crossed eps dep h t
    · rw [if_pos hn, if_pos hn, sum_of_crossed he hn]
      unfold weight
      rw [if_neg (by simpa using hc), if_neg (by simpa using hn), zero_mul, add_zero]
    · rw [if_neg hn, if_neg hn, if_pos hc, steps_of_not hn, sum_of_not hn]
      unfold weight
      rw [if_neg (by simpa using hc), if_pos hn]
      rfl

/-- How the weighted sum responds to other halting probabilities with the same last step. -/
theorem sum_response {eps dep : K} (he : 0 ≤ 1 - eps) {h h' u : Nat → K} {t : Nat}
    (hc : Crossed eps dep h t) (hc' : Crossed eps dep h' t)
    (hs : steps eps dep h' t = steps eps dep h t) :
    ∑ j ∈ Finset.range t, weight eps dep h' j * u j -
        ∑ j ∈ Finset.range t, weight eps dep h j * u j =
      ∑ j ∈ Finset.range (steps eps dep h t - 1),
        dep * (clip (h' j) - clip (h j)) * (u j - u (steps eps dep h t - 1)) := by
  rw [sum_of_crossed he hc, sum_of_crossed he hc', hs, remainder, remainder, if_pos hc, if_pos hc',
    hs]
  generalize steps eps dep h t - 1 = n
  unfold cumDemand
  have : ∀ j, dep * (clip (h' j) - clip (h j)) * (u j - u n) =
      (dep * clip (h' j) * u j - dep * clip (h j) * u j) -
        (dep * clip (h' j) - dep * clip (h j)) * u n := fun j => by ring
  simp only [this, Finset.sum_sub_distrib, ← Finset.sum_mul]
  ring

theorem remainder_response {eps dep : K} {h h' : Nat → K} {t : Nat}
    (hc : Crossed eps dep h t) (hc' : Crossed eps dep h' t)
    (hs : steps eps dep h' t = steps eps dep h t) :
    remainder eps dep h' t - remainder eps dep h t =
      - ∑ j ∈ Finset.range (steps eps dep h t - 1), dep * (clip (h' j) - clip (h j)) := by
  rw [remainder, remainder, if_pos hc, if_pos hc', hs]
  unfold cumDemand
  simp only [mul_sub, Finset.sum_sub_distrib]
  ring

variable [IsStrictOrderedRing K]

theorem clip_lipschitz (x y : K) : |clip x - clip y| ≤ |x - y| := by
  unfold clip
  calc |min 1 (max 0 x) - min 1 (max 0 y)| ≤ max |1 - 1| |max 0 x - max 0 y| :=
        abs_min_sub_min_le_max _ _ _ _
    _ ≤ max |(1 : K) - 1| (max |0 - 0| |x - y|) :=
        max_le_max le_rfl (abs_max_sub_max_le_max _ _ _ _)
    _ ≤ |x - y| := by simp

theorem cumDemand_close {dep δ : K} (hd : 0 ≤ dep) (hδ : 0 ≤ δ) {h h' : Nat → K} {n t : Nat}
    (ht : t ≤ n) (hh : ∀ j, j < n → |h' j - h j| ≤ δ) :
    |cumDemand dep h' t - cumDemand dep h t| ≤ dep * δ * n := by
  unfold cumDemand
  rw [← Finset.sum_sub_distrib]
  refine (Finset.abs_sum_le_sum_abs _ _).trans ?_
  refine (Finset.sum_le_card_nsmul _ _ (dep * δ) fun j hj => ?_).trans ?_
  · rw [← mul_sub, abs_mul, abs_of_nonneg hd]
    exact mul_le_mul_of_nonneg_left ((clip_lipschitz _ _).trans
      (hh j ((Finset.mem_range.1 hj).trans_le ht))) hd
  · rw [Finset.card_range, nsmul_eq_mul, mul_comm]
    exact mul_le_mul_of_nonneg_left (by exact_mod_cast ht) (mul_nonneg hd hδ)

/-- When the sum before the last step is strictly below the threshold, the last step is the same for
all halting probabilities that are close enough. -/
theorem steps_stable {eps dep : K} (he : 0 ≤ 1 - eps) (hd : 0 ≤ dep) {h : Nat → K} {t : Nat}
    (hc : Crossed eps dep h t) (hlt : cumDemand dep h (steps eps dep h t - 1) < 1 - eps) :
    ∃ δ, 0 < δ ∧ ∀ h' : Nat → K, (∀ j, j < t → |h' j - h j| ≤ δ) →
      Crossed eps dep h' t ∧ steps eps dep h' t = steps eps dep h t := by
  obtain ⟨a, b, c, d⟩ := steps_of_crossed he hc
  rw [crossed_iff hd] at d
  generalize hN : steps eps dep h t = N at *
  have hm : 0 < min (1 - eps - cumDemand dep h (N - 1)) (cumDemand dep h N - (1 - eps)) :=
    lt_min (by linarith) (by linarith)
  generalize hM : min (1 - eps - cumDemand dep h (N - 1)) (cumDemand dep h N - (1 - eps)) = M at hm
  have h1 : M ≤ 1 - eps - cumDemand dep h (N - 1) := hM ▸ min_le_left _ _
  have h2 : M ≤ cumDemand dep h N - (1 - eps) := hM ▸ min_le_right _ _
  have hq : 0 < dep * t + 1 := by positivity
  refine ⟨M / (dep * t + 1), div_pos hm hq, fun h' hh => ?_⟩
  have hb : dep * (M / (dep * t + 1)) * t < M := by
    have : dep * (M / (dep * t + 1)) * t = M * (dep * t) / (dep * t + 1) := by ring
    rw [this, div_lt_iff₀ hq]
    nlinarith
  have k1 := cumDemand_close hd (div_pos hm hq).le (t := N - 1) (by omega) hh
  have k2 := cumDemand_close hd (div_pos hm hq).le (t := N) b hh
  rw [abs_le] at k1 k2
  have c1 : ¬ Crossed eps dep h' (N - 1) := by rw [crossed_iff hd, not_lt]; linarith [k1.2]
  have c2 : Crossed eps dep h' N := by rw [crossed_iff hd]; linarith [k2.1]
  have c3 := c2.mono b
  exact ⟨c3, steps_unique he c3 c1 c2⟩

theorem remainder_bounds {eps dep : K} (he : 0 ≤ 1 - eps) (hd : 0 ≤ dep) {h : Nat → K} {t : Nat}
    (hc : Crossed eps dep h t) : eps ≤ remainder eps dep h t ∧ remainder eps dep h t ≤ 1 := by
  obtain ⟨-, -, h3, -⟩ := steps_of_crossed he hc
  rw [crossed_iff hd, not_lt] at h3
  have h0 := cumDemand_mono hd h (Nat.zero_le (steps eps dep h t - 1))
  simp only [cumDemand, Finset.range_zero, Finset.sum_empty] at h0
  unfold remainder
  rw [if_pos hc]
  unfold cumDemand at h3 ⊢
  exact ⟨by linarith, by linarith⟩

theorem cumDemand_le {dep dep' : K} (hd0 : 0 ≤ dep) (hd : dep ≤ dep') {h h' : Nat → K} {t : Nat}
    (hh : ∀ j, j < t → clip (h j) ≤ clip (h' j)) : cumDemand dep h t ≤ cumDemand dep' h' t :=
  Finset.sum_le_sum fun j hj => mul_le_mul hd (hh j (Finset.mem_range.1 hj)) (clip_nonneg _)
    (hd0.trans hd)

/-- Larger halting probabilities, depression constant or epsilon: the element halts no later and
costs no more. -/
theorem ponder_anti {eps eps' dep dep' : K} (he : eps ≤ eps') (he1 : eps' ≤ 1) (he0 : 0 < eps)
    (hd0 : 0 ≤ dep) (hd : dep ≤ dep') {h h' : Nat → K} {t : Nat}
    (hh : ∀ j, j < t → clip (h j) ≤ clip (h' j)) (hc : Crossed eps dep h t) :
    Crossed eps' dep' h' t ∧ steps eps' dep' h' t ≤ steps eps dep h t ∧
      ponder eps' dep' h' t ≤ ponder eps dep h t := by
  have hd' := hd0.trans hd
  obtain ⟨a, b, c, d⟩ := steps_of_crossed (by linarith) hc
  have d' : Crossed eps' dep' h' (steps eps dep h t) := by
    rw [crossed_iff hd0] at d
    rw [crossed_iff hd']
    have := cumDemand_le hd0 hd (t := steps eps dep h t) (h := h) (h' := h')
      fun j hj => hh j (by omega)
    linarith
  have hc' := d'.mono b
  obtain ⟨a', b', c', e'⟩ := steps_of_crossed (by linarith) hc'
  have hle : steps eps' dep' h' t ≤ steps eps dep h t := by
    by_contra hlt
    exact c' (d'.mono (by omega))
  refine ⟨hc', hle, ?_⟩
  rcases hle.lt_or_eq with hlt | heq
  · have h1 := (remainder_bounds (by linarith) hd' hc').2
    have h2 := (remainder_bounds (by linarith) hd0 hc).1
    have h3 : ((steps eps' dep' h' t : Nat) : K) + 1 ≤ (steps eps dep h t : Nat) := by
      exact_mod_cast hlt
    unfold ponder
    linarith
  · unfold ponder remainder
    rw [if_pos hc', if_pos hc, heq]
    have := cumDemand_le hd0 hd (t := steps eps dep h t - 1) (h := h) (h' := h')
      fun j hj => hh j (by omega)
    linarith

end JaxAct.Graves
