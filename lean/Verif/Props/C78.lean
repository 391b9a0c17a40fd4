import Verif.Spec.Gradient
import Verif.Props.C68
import Verif.Props.C77

/-!
# C78 The gradients are those of Graves' paper

What forward-mode differentiation of any number of rounds returns, in closed form.
-/

namespace JaxAct
open ACTStates
variable {K : Type} [Field K] [LinearOrder K]
attribute [local instance] Arith.exact Arith.dual

namespace Graves

theorem dremainder_succ {eps dep : K} {h dh : Nat → K} {t : Nat} :
    dremainder eps dep h dh (t + 1) = if Crossed eps dep h t then dremainder eps dep h dh t
      else if Crossed eps dep h (t + 1) then - dcumDemand dep h dh t else 0 := by
  unfold dremainder
  rw [steps_succ]
  by_cases hn : Crossed eps dep h t
  · rw [if_pos hn, if_pos hn, if_pos hn, if_pos (hn.mono (Nat.le_succ t))]
  · rw [if_neg hn, if_neg hn, steps_of_not hn]; rfl

theorem dhalting_succ {eps dep : K} {h dh u : Nat → K} {t : Nat} :
    dhalting eps dep h dh u (t + 1) = if Crossed eps dep h t then dhalting eps dep h dh u t
      else if Crossed eps dep h (t + 1) then
        dhalting eps dep h dh u t - dcumDemand dep h dh t * u t
      else dhalting eps dep h dh u t + dep * dclip (h t) (dh t) * u t := by
  unfold dhalting
  rw [steps_succ]
  by_cases hn : Crossed eps dep h t
  · rw [if_pos hn, if_pos hn, if_pos hn, if_pos (hn.mono (Nat.le_succ t))]
  · rw [if_neg hn, if_neg hn, if_neg hn, steps_of_not hn]
    by_cases hc : Crossed eps dep h (t + 1)
    · rw [if_pos hc, if_pos hc, Nat.add_sub_cancel]
      simp only [mul_sub, Finset.sum_sub_distrib, ← Finset.sum_mul]
      rfl
    · rw [if_neg hc, if_neg hc, Finset.sum_range_succ]

end Graves

variable [IsStrictOrderedRing K]

theorem clamp_eq_dual (x dx : K) : Spec.clamp (⟨x, dx⟩ : Dual K) = ⟨Graves.clip x, Graves.dclip x dx⟩ := by
  refine Dual.ext (clamp_re _) ?_
  show (if (1 : K) < (if (0 : K) < x then ⟨x, dx⟩ else if x < 0 then ⟨0, 0⟩ else
      ⟨0, (0 + dx) / 2⟩ : Dual K).re then ⟨1, 0⟩ else
      if (if (0 : K) < x then ⟨x, dx⟩ else if x < 0 then ⟨0, 0⟩ else
        ⟨0, (0 + dx) / 2⟩ : Dual K).re < 1 then (if (0 : K) < x then ⟨x, dx⟩ else if x < 0 then ⟨0, 0⟩
        else ⟨0, (0 + dx) / 2⟩ : Dual K) else
      ⟨1, (0 + (if (0 : K) < x then ⟨x, dx⟩ else if x < 0 then ⟨0, 0⟩
        else ⟨0, (0 + dx) / 2⟩ : Dual K).im) / 2⟩ : Dual K).im = _
  have z1 : (0 : K) < 1 := zero_lt_one
  unfold Graves.dclip
  rcases lt_trichotomy x 0 with h | h | h
  · simp [h, h.not_gt, z1, z1.not_gt]
  · subst h
    simp [z1, z1.not_gt]
  · simp only [h, if_true]
    rcases lt_trichotomy x 1 with k | k | k
    · rw [if_neg k.not_gt, if_pos k, if_neg (by rintro (a | a) <;> [exact h.not_gt a; exact k.not_gt a]),
        if_neg (by rintro (a | a) <;> [exact h.ne' a; exact k.ne a])]
    · subst k
      simp [z1.not_gt]
    · rw [if_pos k, if_pos (.inr k)]

/-- One scalar step on dual numbers, at the values and tangents an element has after `t` steps. -/
theorem weight_dual {d : DType} {eps dep : K} (he : 0 < eps) (he1 : 0 ≤ 1 - eps) (hd : 0 ≤ dep)
    {h dh : Nat → K} {t : Nat} :
    Spec.weight d (⟨eps, 0⟩ : Dual K) ⟨dep, 0⟩ ⟨∑ j ∈ Finset.range t, Graves.weight eps dep h j,
      if Graves.Crossed eps dep h t then 0 else Graves.dcumDemand dep h dh t⟩ ⟨h t, dh t⟩ =
      ⟨Graves.weight eps dep h t, if Graves.Crossed eps dep h t then 0
        else if Graves.Crossed eps dep h (t + 1) then - Graves.dcumDemand dep h dh t
        else dep * Graves.dclip (h t) (dh t)⟩ ∧
    (Spec.crosses d (⟨eps, 0⟩ : Dual K) ⟨dep, 0⟩ ⟨∑ j ∈ Finset.range t, Graves.weight eps dep h j,
      if Graves.Crossed eps dep h t then 0 else Graves.dcumDemand dep h dh t⟩ ⟨h t, dh t⟩ = true ↔
      Graves.Crossed eps dep h (t + 1)) := by
  obtain ⟨g1, g2⟩ := Graves.spec_weight (d := d) he he1 hd (h := h) (t := t)
  have hx : Spec.crosses d (⟨eps, 0⟩ : Dual K) ⟨dep, 0⟩ ⟨∑ j ∈ Finset.range t, Graves.weight eps dep h j,
      if Graves.Crossed eps dep h t then 0 else Graves.dcumDemand dep h dh t⟩ ⟨h t, dh t⟩ = true ↔
      Graves.Crossed eps dep h (t + 1) := by
    rw [crosses_re]
    by_cases hc : Graves.Crossed eps dep h t
    · exact iff_of_true (Spec.crosses_of_halted hd (g2.2 hc)) (hc.mono (Nat.le_succ t))
    · rw [Graves.crossed_succ hc, Graves.cumDemand_succ, Spec.crosses_iff, add_comm]
      simp only [Graves.sum_weight_of_not hc]
      rfl
  refine ⟨Dual.ext ((weight_re ..).trans g1) ?_, hx⟩
  unfold Spec.weight
  by_cases hc : Graves.Crossed eps dep h t
  · rw [if_pos (hx.2 (hc.mono (Nat.le_succ t)))]
    simp only [if_pos hc]
    show (0 : K) - 0 = 0
    ring
  · by_cases hc' : Graves.Crossed eps dep h (t + 1)
    · rw [if_pos (hx.2 hc')]
      simp only [if_neg hc, if_pos hc']
      show (0 : K) - Graves.dcumDemand dep h dh t = _
      ring
    · rw [if_neg (fun x => hc' (hx.1 x))]
      simp only [if_neg hc, if_neg hc']
      unfold Spec.demand
      rw [clamp_eq_dual]
      show 0 * Graves.clip (h t) + dep * Graves.dclip (h t) (dh t) = _
      ring

/-- C78, bookkeeping: tangents after any number of rounds for one batch element that starts with zero
probability, residual and counter; step `t` is given halting probability `h t` with tangent `dh t`; epsilon
and the depression constant are constants.  The cumulative probability has the tangent of the demands so
far, and none once it is complete.  The counter has no derivative, and that of the residual is the one of
Graves' paper. -/
theorem C78_bookkeeping {s : ACTStates (Dual K)} (hwf : s.WF) {eps dep : K} (he : s.epsilon = ⟨eps, 0⟩)
    (hd : s.depression_constant = ⟨dep, 0⟩) (he0 : 0 < eps) (he1 : eps ≤ 1) (hdep : 0 ≤ dep)
    (rs : List (Round (Dual K))) {c' : Controller (Dual K)} (hrun : run ⟨s⟩ (roundOps rs) = .ok c')
    {b : List Nat} (h dh : Nat → K) (hp : s.probabilities.at? b = some ⟨0, 0⟩)
    (hr : s.residuals.at? b = some ⟨0, 0⟩) (hi : s.iterations.at? b = some ⟨0, 0⟩)
    (hh : ∀ (t : Nat) r, rs[t]? = some r → r.halting.at? b = some ⟨h t, dh t⟩) :
    c'.probabilities.at? b = some ⟨∑ t ∈ Finset.range rs.length, Graves.weight eps dep h t,
      if Graves.Crossed eps dep h rs.length then 0 else Graves.dcumDemand dep h dh rs.length⟩ ∧
    c'.iterations.at? b = some ⟨(Graves.steps eps dep h rs.length : K), 0⟩ ∧
    c'.residuals.at? b =
      some ⟨Graves.remainder eps dep h rs.length, Graves.dremainder eps dep h dh rs.length⟩ ∧
    (c'.haltedBatches.at? b = some true ↔ Graves.Crossed eps dep h rs.length) := by
  have := rounds_induction hwf (Inv := fun rs t =>
      (∀ (j : Nat) r, rs[j]? = some r → r.halting.at? b = some ⟨h j, dh j⟩) →
      t.epsilon = s.epsilon ∧ t.depression_constant = s.depression_constant ∧
      t.probabilities.at? b = some ⟨∑ t ∈ Finset.range rs.length, Graves.weight eps dep h t,
          if Graves.Crossed eps dep h rs.length then 0 else Graves.dcumDemand dep h dh rs.length⟩ ∧
      t.iterations.at? b = some ⟨(Graves.steps eps dep h rs.length : K), 0⟩ ∧
      t.residuals.at? b =
        some ⟨Graves.remainder eps dep h rs.length, Graves.dremainder eps dep h dh rs.length⟩)
    ?_ ?_ rs hrun
  · obtain ⟨w, k⟩ := this
    obtain ⟨k1, k2, k3, k4, k5⟩ := k hh
    refine ⟨k3, k4, k5, ?_⟩
    rw [show c' = ⟨c'.state⟩ from rfl, halted_iff w.floating]
    obtain ⟨-, g2⟩ := Graves.spec_weight (d := c'.state.probabilities.dtype) he0 (by linarith) hdep
      (h := h) (t := rs.length)
    rw [← g2]
    constructor
    · rintro ⟨p, hp, hx⟩
      rw [k3] at hp
      cases hp
      rw [k1, he, isHalted_re] at hx
      exact hx
    · intro hx
      refine ⟨_, k3, ?_⟩
      rw [k1, he, isHalted_re]
      exact hx
  · intro _
    have hn := Graves.not_crossed_zero (eps := eps) (dep := dep) (h := h) (by linarith)
    refine ⟨rfl, rfl, ?_, ?_, ?_⟩
    · simp [hp, hn, Graves.dcumDemand]
    · simp [hi, Graves.steps_zero]
    · simp [hr, Graves.remainder, Graves.dremainder, hn]
  · intro rs r t U t' _ hw st hU ih hh
    have hlast : (rs ++ [r])[rs.length]? = some r := by simp
    have hpre : ∀ (j : Nat) r', rs[j]? = some r' → (rs ++ [r])[j]? = some r' := by
      intro j r' hj
      rw [List.getElem?_append_left (List.getElem?_eq_some_iff.1 hj).1]; exact hj
    obtain ⟨e1, e2, e4, e5, e6⟩ := ih (fun j r' hj => hh j r' (hpre j r' hj))
    obtain ⟨-, g2⟩ := Graves.spec_weight (d := t.probabilities.dtype) he0 (by linarith) hdep
      (h := h) (t := rs.length)
    obtain ⟨w1, w2⟩ := weight_dual (d := t.probabilities.dtype) he0 (by linarith) hdep
      (h := h) (dh := dh) (t := rs.length)
    have hlen : (rs ++ [r]).length = rs.length + 1 := by simp
    have q1 : t.epsilon = ⟨eps, 0⟩ := e1.trans he
    have q2 : t.depression_constant = ⟨dep, 0⟩ := e2.trans hd
    have g2' : Spec.isHalted t.probabilities.dtype (⟨eps, 0⟩ : Dual K)
        ⟨∑ j ∈ Finset.range rs.length, Graves.weight eps dep h j,
          if Graves.Crossed eps dep h rs.length then 0 else Graves.dcumDemand dep h dh rs.length⟩ = true ↔
        Graves.Crossed eps dep h rs.length := by rw [isHalted_re]; exact g2
    refine ⟨st.epsilon.trans e1, st.depression.trans e2, ?_⟩
    obtain ⟨f1, f2, f3⟩ := st.cell _ _ _ _ _ e4 e6 e5 (hh _ _ hlast)
    simp only [convS_dual] at f1 f2 f3
    rw [f1, f2, f3, hlen]
    refine ⟨?_, ?_, ?_⟩
    · unfold Spec.step
      simp only [q1, q2, w1]
      rw [Finset.sum_range_succ]
      congr 1
      refine Dual.ext rfl ?_
      show (if Graves.Crossed eps dep h rs.length then 0 else Graves.dcumDemand dep h dh rs.length) + _ =
        (if Graves.Crossed eps dep h (rs.length + 1) then 0 else Graves.dcumDemand dep h dh (rs.length + 1))
      by_cases hc : Graves.Crossed eps dep h rs.length
      · rw [if_pos hc, if_pos hc, if_pos (hc.mono (Nat.le_succ _)), add_zero]
      · rw [if_neg hc, if_neg hc]
        by_cases hc' : Graves.Crossed eps dep h (rs.length + 1)
        · rw [if_pos hc', if_pos hc', add_neg_cancel]
        · rw [if_neg hc', if_neg hc']
          unfold Graves.dcumDemand
          rw [Finset.sum_range_succ]
    · unfold Spec.step
      simp only [q1]
      rw [Graves.steps_succ]
      by_cases hc : Graves.Crossed eps dep h rs.length
      · rw [if_pos (g2'.2 hc), if_pos hc]
      · rw [if_neg (fun x => hc (g2'.1 x)), if_neg hc, Nat.cast_add, Nat.cast_one]
        congr 1
        exact Dual.ext rfl (add_zero 0)
    · unfold Spec.step
      simp only [q1, q2]
      by_cases hc : Graves.Crossed eps dep h rs.length
      · rw [g2'.2 hc, Graves.remainder_succ, Graves.dremainder_succ]; simp [hc]
      · rw [Bool.eq_false_iff.2 fun x => hc (g2'.1 x)]
        by_cases hc' : Graves.Crossed eps dep h (rs.length + 1)
        · rw [w2.2 hc', Graves.remainder_succ, Graves.dremainder_succ]
          simp only [Bool.not_false, Bool.and_self, if_true, if_neg hc, if_pos hc']
          rw [Graves.sum_weight_of_not hc]
          congr 1
          exact Dual.ext rfl (zero_sub _)
        · rw [Bool.eq_false_iff.2 fun x => hc' (w2.1 x), Graves.remainder_succ, Graves.dremainder_succ]
          simp only [Bool.false_and, if_neg hc, if_neg hc']
          rw [Graves.remainder, Graves.dremainder, if_neg hc, if_neg hc]
          rfl

/-- C78: tangents after any number of rounds.  The element starts with zero probability, residual and
counter; step `t` is given halting probability `h t` with tangent `dh t` and update entry `u t` with tangent
`du t`; epsilon and the depression constant are constants.  The counter has no derivative, the derivatives
of residual and output are those of Graves' paper. -/
theorem C78_gradients {s : ACTStates (Dual K)} (hwf : s.WF) {eps dep : K} (he : s.epsilon = ⟨eps, 0⟩)
    (hd : s.depression_constant = ⟨dep, 0⟩) (he0 : 0 < eps) (he1 : eps ≤ 1) (hdep : 0 ≤ dep)
    (rs : List (Round (Dual K))) {c' : Controller (Dual K)} (hrun : run ⟨s⟩ (roundOps rs) = .ok c')
    {name : String} {k : Nat} {i : List Nat} {a0 da0 : K} (u du h dh : Nat → K)
    (hp : s.probabilities.at? (i.take s.probabilities.shape.length) = some ⟨0, 0⟩)
    (hr : s.residuals.at? (i.take s.probabilities.shape.length) = some ⟨0, 0⟩)
    (hi : s.iterations.at? (i.take s.probabilities.shape.length) = some ⟨0, 0⟩)
    (hacc : entry? s.accumulators name k i = some ⟨a0, da0⟩)
    (hu : ∀ (t : Nat) r, rs[t]? = some r → entry? r.updates name k i = some ⟨u t, du t⟩)
    (hh : ∀ (t : Nat) r, rs[t]? = some r →
      r.halting.at? (i.take s.probabilities.shape.length) = some ⟨h t, dh t⟩) :
    c'.iterations.at? (i.take s.probabilities.shape.length) =
      some ⟨(Graves.steps eps dep h rs.length : K), 0⟩ ∧
    c'.residuals.at? (i.take s.probabilities.shape.length) =
      some ⟨Graves.remainder eps dep h rs.length, Graves.dremainder eps dep h dh rs.length⟩ ∧
    entry? c'.accumulators name k i = some ⟨a0 + ∑ t ∈ Finset.range rs.length,
      Graves.weight eps dep h t * u t, da0 + Graves.doutput eps dep h dh u du rs.length⟩ := by
  have := rounds_induction hwf (Inv := fun rs t =>
      (∀ (j : Nat) r, rs[j]? = some r → entry? r.updates name k i = some ⟨u j, du j⟩) →
      (∀ (j : Nat) r, rs[j]? = some r →
        r.halting.at? (i.take s.probabilities.shape.length) = some ⟨h j, dh j⟩) →
      t.epsilon = s.epsilon ∧ t.depression_constant = s.depression_constant ∧
      t.probabilities.shape = s.probabilities.shape ∧
      t.probabilities.at? (i.take s.probabilities.shape.length) =
        some ⟨∑ t ∈ Finset.range rs.length, Graves.weight eps dep h t,
          if Graves.Crossed eps dep h rs.length then 0 else Graves.dcumDemand dep h dh rs.length⟩ ∧
      (∃ r, t.residuals.at? (i.take s.probabilities.shape.length) = some r) ∧
      (∃ n, t.iterations.at? (i.take s.probabilities.shape.length) = some n) ∧
      entry? t.accumulators name k i = some ⟨a0 + ∑ t ∈ Finset.range rs.length,
        Graves.weight eps dep h t * u t, da0 + Graves.doutput eps dep h dh u du rs.length⟩)
    ?_ ?_ rs hrun
  · obtain ⟨-, k1, k2, -⟩ := C78_bookkeeping hwf he hd he0 he1 hdep rs hrun h dh hp hr hi hh
    exact ⟨k1, k2, (this.2 hu hh).2.2.2.2.2.2⟩
  · intro _ _
    have hn := Graves.not_crossed_zero (eps := eps) (dep := dep) (h := h) (by linarith)
    refine ⟨rfl, rfl, rfl, ?_, ⟨_, hr⟩, ⟨_, hi⟩, ?_⟩
    · simp [hp, hn, Graves.dcumDemand]
    · simp [hacc, Graves.doutput, Graves.dhalting, hn]
  · intro rs r t U t' _ hw st hU ih hu hh
    have hlast : (rs ++ [r])[rs.length]? = some r := by simp
    have hpre : ∀ (j : Nat) r', rs[j]? = some r' → (rs ++ [r])[j]? = some r' := by
      intro j r' hj
      rw [List.getElem?_append_left (List.getElem?_eq_some_iff.1 hj).1]; exact hj
    obtain ⟨e1, e2, e3, e4, ⟨r6, e6⟩, ⟨r5, e5⟩, e7⟩ := ih (fun j r' hj => hu j r' (hpre j r' hj))
      (fun j r' hj => hh j r' (hpre j r' hj))
    obtain ⟨-, g2⟩ := Graves.spec_weight (d := t.probabilities.dtype) he0 (by linarith) hdep
      (h := h) (t := rs.length)
    obtain ⟨w1, w2⟩ := weight_dual (d := t.probabilities.dtype) he0 (by linarith) hdep
      (h := h) (dh := dh) (t := rs.length)
    have hlen : (rs ++ [r]).length = rs.length + 1 := by simp
    have q1 : t.epsilon = ⟨eps, 0⟩ := e1.trans he
    have q2 : t.depression_constant = ⟨dep, 0⟩ := e2.trans hd
    have g2' : Spec.isHalted t.probabilities.dtype (⟨eps, 0⟩ : Dual K)
        ⟨∑ j ∈ Finset.range rs.length, Graves.weight eps dep h j,
          if Graves.Crossed eps dep h rs.length then 0 else Graves.dcumDemand dep h dh rs.length⟩ = true ↔
        Graves.Crossed eps dep h rs.length := by rw [isHalted_re]; exact g2
    refine ⟨st.epsilon.trans e1, st.depression.trans e2, st.pshape.trans e3, ?_⟩
    obtain ⟨f1, f2, f3⟩ := st.cell _ _ _ _ _ e4 e6 e5 (hh _ _ hlast)
    simp only [convS_dual] at f1 f2 f3
    rw [f1, hlen]
    refine ⟨?_, ⟨_, f2⟩, ⟨_, f3⟩, ?_⟩
    · unfold Spec.step
      simp only [q1, q2, w1]
      rw [Finset.sum_range_succ]
      congr 1
      refine Dual.ext rfl ?_
      show (if Graves.Crossed eps dep h rs.length then 0 else Graves.dcumDemand dep h dh rs.length) + _ =
        (if Graves.Crossed eps dep h (rs.length + 1) then 0 else Graves.dcumDemand dep h dh (rs.length + 1))
      by_cases hc : Graves.Crossed eps dep h rs.length
      · rw [if_pos hc, if_pos hc, if_pos (hc.mono (Nat.le_succ _)), add_zero]
      · rw [if_neg hc, if_neg hc]
        by_cases hc' : Graves.Crossed eps dep h (rs.length + 1)
        · rw [if_pos hc', if_pos hc', add_neg_cancel]
        · rw [if_neg hc', if_neg hc']
          unfold Graves.dcumDemand
          rw [Finset.sum_range_succ]
    · obtain ⟨u', p, x, dA, dU, f1, f2, f3, f4⟩ := st.entry hw (n := name) (k := k) (i := i) e7
      simp only at f1 f2 f3 f4
      rw [hU _ _ _ _ (hu _ _ hlast)] at f1
      cases f1
      rw [e3] at f2 f3
      rw [e4] at f2
      cases f2
      rw [hh _ _ hlast] at f3
      cases f3
      rw [f4]
      unfold Spec.accStep
      simp only [convS_dual, q1, q2, w1]
      rw [Finset.sum_range_succ]
      unfold Graves.doutput
      rw [Finset.sum_range_succ, Graves.dhalting_succ]
      by_cases hc : Graves.Crossed eps dep h rs.length
      · have : Graves.weight eps dep h rs.length = 0 := by
          unfold Graves.weight
          rw [if_neg (by simpa using hc.mono (Nat.le_succ _)), if_neg (by simpa using hc)]
        rw [if_pos (g2'.2 hc), if_pos hc, this]
        simp
      · rw [if_neg (fun x => hc (g2'.1 x)), if_neg hc, if_neg hc]
        congr 1
        refine Dual.ext ?_ ?_
        · show _ + _ + _ * u rs.length = _
          ring
        · show _ + _ + (_ * u rs.length + Graves.weight eps dep h rs.length * du rs.length) = _
          by_cases hc' : Graves.Crossed eps dep h (rs.length + 1)
          · rw [if_pos hc', if_pos hc']; ring
          · rw [if_neg hc', if_neg hc']; ring

section Example
open OneElement

/-- One round for the controller with one element. -/
private def oneRound (u h : Dual ℚ) : Round (Dual ℚ) := ⟨[("out", tree u)], one h⟩

/-- Counter, residual and accumulator at the end. -/
private def outcome (rs : List (Round (Dual ℚ))) :
    Option (Option (Dual ℚ) × Option (Dual ℚ) × Option (Dual ℚ)) :=
  match run ⟨start (⟨1 / 10, 0⟩ : Dual ℚ) ⟨0, 0⟩ ⟨1, 0⟩⟩ (roundOps rs) with
  | .ok c => some (c.state.iterations.at? [0], c.state.residuals.at? [0],
      entry? c.state.accumulators "out" 0 [0])
  | .error _ => Option.none

/-- Updates 4, 6, 100 with halting probabilities 1/3, 2/3, 1/2.  Moving the first halting probability: the
residual 2/3 falls at rate 1, the output moves weight from 6 to 4.  Moving the second or third one does
nothing.  Moving the second update counts with its weight 2/3. -/
example :
    outcome [oneRound ⟨4, 0⟩ ⟨1 / 3, 1⟩, oneRound ⟨6, 0⟩ ⟨2 / 3, 0⟩, oneRound ⟨100, 0⟩ ⟨1 / 2, 0⟩] =
      some (some ⟨2, 0⟩, some ⟨2 / 3, -1⟩, some ⟨4 / 3 + 4, 4 - 6⟩) ∧
    outcome [oneRound ⟨4, 0⟩ ⟨1 / 3, 0⟩, oneRound ⟨6, 0⟩ ⟨2 / 3, 1⟩, oneRound ⟨100, 0⟩ ⟨1 / 2, 1⟩] =
      some (some ⟨2, 0⟩, some ⟨2 / 3, 0⟩, some ⟨4 / 3 + 4, 0⟩) ∧
    outcome [oneRound ⟨4, 0⟩ ⟨1 / 3, 0⟩, oneRound ⟨6, 1⟩ ⟨2 / 3, 0⟩, oneRound ⟨100, 1⟩ ⟨1 / 2, 0⟩] =
      some (some ⟨2, 0⟩, some ⟨2 / 3, 0⟩, some ⟨4 / 3 + 4, 2 / 3⟩) := by
  refine ⟨?_, ?_, ?_⟩ <;> decide +kernel

/-- The specification says the same. -/
example : let h : Nat → ℚ := fun j => if j = 0 then 1 / 3 else if j = 1 then 2 / 3 else 1 / 2
    let u : Nat → ℚ := fun j => if j = 0 then 4 else if j = 1 then 6 else 100
    Graves.dremainder (1 / 10) 1 h (fun j => if j = 0 then 1 else 0) 3 = -1 ∧
    Graves.doutput (1 / 10) 1 h (fun j => if j = 0 then 1 else 0) u (fun _ => 0) 3 = 4 - 6 := by
  refine ⟨?_, ?_⟩ <;> decide +kernel

end Example

end JaxAct
