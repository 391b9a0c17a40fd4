import Verif.Props.C04
import Verif.Lemmas.Ponder

/-! # C68 The ponder cost

`iterations + residuals` is the ponder cost that training adds to the loss (Graves 2016). -/

namespace JaxAct
variable {K : Type} [Field K] [LinearOrder K] [IsStrictOrderedRing K]
attribute [local instance] Arith.exact
open ACTStates

/-- C68: the counter and the residual of an element are the number of its steps and the remainder of
its last step. -/
theorem C68_counter_and_residual {s : ACTStates K} (hwf : s.WF)
    (he0 : 0 < s.epsilon) (he1 : s.epsilon ≤ 1) (hdep : 0 ≤ s.depression_constant)
    (rs : List (Round K)) {c' : Controller K} (hrun : run ⟨s⟩ (roundOps rs) = .ok c')
    {b : List Nat} (h : Nat → K) (hp : s.probabilities.at? b = some 0)
    (hr : s.residuals.at? b = some 0) (hi : s.iterations.at? b = some 0)
    (hh : ∀ t r, rs[t]? = some r → r.halting.at? b = some (h t)) :
    c'.iterations.at? b =
      some (Graves.steps s.epsilon s.depression_constant h rs.length : K) ∧
    c'.residuals.at? b =
      some (Graves.remainder s.epsilon s.depression_constant h rs.length) := by
  have := rounds_induction hwf (Inv := fun rs t =>
      (∀ j r, rs[j]? = some r → r.halting.at? b = some (h j)) →
      t.epsilon = s.epsilon ∧ t.depression_constant = s.depression_constant ∧
      t.probabilities.at? b =
        some (∑ t ∈ Finset.range rs.length, Graves.weight s.epsilon s.depression_constant h t) ∧
      t.iterations.at? b = some (Graves.steps s.epsilon s.depression_constant h rs.length : K) ∧
      t.residuals.at? b = some (Graves.remainder s.epsilon s.depression_constant h rs.length))
    ?_ ?_ rs hrun
  · exact (this.2 hh).2.2.2
  · intro _
    refine ⟨rfl, rfl, by simpa using hp, ?_, ?_⟩
    · rw [hi, List.length_nil, Graves.steps_zero, Nat.cast_zero]
    · rw [hr, List.length_nil, Graves.remainder, if_neg (Graves.not_crossed_zero (by linarith))]
  · intro rs r t U t' _ hw st hU ih hh
    have hlast : (rs ++ [r])[rs.length]? = some r := by simp
    have hpre : ∀ (j : Nat) r', rs[j]? = some r' → (rs ++ [r])[j]? = some r' := by
      intro j r' hj
      rw [List.getElem?_append_left (List.getElem?_eq_some_iff.1 hj).1]; exact hj
    obtain ⟨e1, e2, e5, e6, e7⟩ := ih (fun j r' hj => hh j r' (hpre j r' hj))
    obtain ⟨g1, g2⟩ := Graves.spec_weight (d := t.probabilities.dtype) he0 (by linarith) hdep
      (h := h) (t := rs.length)
    refine ⟨st.epsilon.trans e1, st.depression.trans e2, ?_⟩
    have hcell := st.cell b _ _ _ _ e5 e7 e6 (hh _ _ hlast)
    simp only [Spec.convS_exact] at hcell
    obtain ⟨f1, f2, f3⟩ := hcell
    have hlen : (rs ++ [r]).length = rs.length + 1 := by simp
    rw [f1, f2, f3, hlen]
    have q1 : t.epsilon = s.epsilon := e1
    have q2 : t.depression_constant = s.depression_constant := e2
    refine ⟨?_, ?_, ?_⟩
    · rw [Spec.step_prob, Finset.sum_range_succ]
      simp only [q1, q2]
      rw [g1]
    · unfold Spec.step
      simp only [q1]
      rw [Graves.steps_succ]
      by_cases hc : Graves.Crossed s.epsilon s.depression_constant h rs.length
      · rw [if_pos (g2.2 hc), if_pos hc]
      · rw [if_neg (fun x => hc (g2.1 x)), if_neg hc, Nat.cast_add, Nat.cast_one]
        rfl
    · unfold Spec.step
      simp only [q1, q2]
      rw [Graves.remainder_succ]
      by_cases hc : Graves.Crossed s.epsilon s.depression_constant h rs.length
      · rw [if_pos hc, g2.2 hc]; simp
      · have hn := Bool.eq_false_iff.2 fun x => hc (g2.1 x)
        rw [if_neg hc, hn, Graves.sum_weight_of_not hc]
        have hx : (Spec.crosses t.probabilities.dtype s.epsilon s.depression_constant
            (Graves.cumDemand s.depression_constant h rs.length) (h rs.length) = true) ↔
            Graves.Crossed s.epsilon s.depression_constant h (rs.length + 1) := by
          rw [Graves.crossed_succ hc, Graves.cumDemand_succ, Spec.crosses_iff, add_comm]
          rfl
        by_cases hc' : Graves.Crossed s.epsilon s.depression_constant h (rs.length + 1)
        · rw [if_pos hc', hx.2 hc']; rfl
        · rw [if_neg hc', Bool.eq_false_iff.2 fun x => hc' (hx.1 x)]
          simp only [Bool.false_and]
          rw [Graves.remainder, if_neg hc]
          rfl

/-- C68: the ponder cost of a halted element.  Its residual is between epsilon and one, so the cost
is above the number of steps and at most one more. -/
theorem C68_bounds {s : ACTStates K} (hwf : s.WF)
    (he0 : 0 < s.epsilon) (he1 : s.epsilon ≤ 1) (hdep : 0 ≤ s.depression_constant)
    (rs : List (Round K)) {c' : Controller K} (hrun : run ⟨s⟩ (roundOps rs) = .ok c')
    {b : List Nat} (h : Nat → K) (hp : s.probabilities.at? b = some 0)
    (hr : s.residuals.at? b = some 0) (hi : s.iterations.at? b = some 0)
    (hh : ∀ t r, rs[t]? = some r → r.halting.at? b = some (h t)) {n r : K}
    (hn : c'.iterations.at? b = some n) (hr' : c'.residuals.at? b = some r) :
    (c'.haltedBatches.at? b = some true → s.epsilon ≤ r ∧ r ≤ 1 ∧ 1 ≤ n ∧ n ≤ rs.length) ∧
    (c'.haltedBatches.at? b ≠ some true → r = 0 ∧ n = rs.length) := by
  obtain ⟨h1, h2⟩ := C68_counter_and_residual hwf he0 he1 hdep rs hrun h hp hr hi hh
  have h3 := (C04_probability_and_halting hwf he0 he1 hdep rs hrun h hp hh).2
  rw [h1] at hn
  rw [h2] at hr'
  cases hn
  cases hr'
  rw [ne_eq, h3]
  refine ⟨fun hc => ?_, fun hc => ?_⟩
  · obtain ⟨a, b, -⟩ := Graves.steps_of_crossed (by linarith) hc
    obtain ⟨x, y⟩ := Graves.remainder_bounds (by linarith) hdep hc
    exact ⟨x, y, by exact_mod_cast a, by exact_mod_cast b⟩
  · exact ⟨by rw [Graves.remainder, if_neg hc], by rw [Graves.steps_of_not hc]⟩

/-- C68: larger halting probabilities never cost more.  Two runs of the same number of rounds, the
second with halting probabilities that are at least those of the first, and with at least the
depression constant and epsilon.  If the element is halted in the first, it is in the second, its
counter is not larger, and its ponder cost is not larger. -/
theorem C68_monotone {s t : ACTStates K} (hs : s.WF) (ht : t.WF)
    (he0 : 0 < s.epsilon) (he : s.epsilon ≤ t.epsilon) (he1 : t.epsilon ≤ 1)
    (hd0 : 0 ≤ s.depression_constant) (hd : s.depression_constant ≤ t.depression_constant)
    {b : List Nat}
    (hp : s.probabilities.at? b = some 0) (hr : s.residuals.at? b = some 0)
    (hi : s.iterations.at? b = some 0) (hp' : t.probabilities.at? b = some 0)
    (hr' : t.residuals.at? b = some 0) (hi' : t.iterations.at? b = some 0)
    {rs rs' : List (Round K)} (hlen : rs.length = rs'.length)
    (h h' : Nat → K) (hle : ∀ j, j < rs.length → h j ≤ h' j)
    (hh : ∀ j r, rs[j]? = some r → r.halting.at? b = some (h j))
    (hh' : ∀ j r, rs'[j]? = some r → r.halting.at? b = some (h' j))
    {c d : Controller K} (h1 : run ⟨s⟩ (roundOps rs) = .ok c) (h2 : run ⟨t⟩ (roundOps rs') = .ok d)
    {n r n' r' : K} (hn : c.iterations.at? b = some n) (hR : c.residuals.at? b = some r)
    (hn' : d.iterations.at? b = some n') (hR' : d.residuals.at? b = some r')
    (hhalt : c.haltedBatches.at? b = some true) :
    d.haltedBatches.at? b = some true ∧ n' ≤ n ∧ n' + r' ≤ n + r := by
  obtain ⟨a1, a2⟩ := C68_counter_and_residual hs he0 (he.trans he1) hd0 rs h1 h hp hr hi hh
  obtain ⟨b1, b2⟩ := C68_counter_and_residual ht (he0.trans_le he) he1 (hd0.trans hd) rs' h2 h' hp'
    hr' hi' hh'
  have a3 := (C04_probability_and_halting hs he0 (he.trans he1) hd0 rs h1 h hp hh).2
  have b3 := (C04_probability_and_halting ht (he0.trans_le he) he1 (hd0.trans hd) rs' h2 h' hp'
    hh').2
  rw [hn] at a1
  rw [hR] at a2
  rw [hn'] at b1
  rw [hR'] at b2
  cases a1
  cases a2
  cases b1
  cases b2
  obtain ⟨x, y, z⟩ := Graves.ponder_anti he he1 he0 hd0 hd
    (fun j hj => (Spec.clamp_mono (hle j hj) : Graves.clip (h j) ≤ Graves.clip (h' j))) (a3.1 hhalt)
  rw [b3, ← hlen]
  exact ⟨x, by exact_mod_cast y, z⟩

section Example
open Fixtures

/-- Element 1 of the fresh controller with halting probabilities 1/3, 1/3, 2/3 takes three steps and
has remainder 1/3; with 1/2, 1/3, 2/3 it takes three steps and has remainder 1/6; with 2/3 each time
it takes two. -/
example :
    let look := fun c : Controller ℚ => some (c.iterations.at? [1], c.residuals.at? [1])
    obs (run ⟨fresh⟩ (roundOps [round [0, 1/3] 1 2, round [0, 1/3] 1 2, round [0, 2/3] 1 2])) look =
      some (some 3, some (1/3)) ∧
    obs (run ⟨fresh⟩ (roundOps [round [0, 1/2] 1 2, round [0, 1/3] 1 2, round [0, 2/3] 1 2])) look =
      some (some 3, some (1/6)) ∧
    obs (run ⟨fresh⟩ (roundOps [round [0, 2/3] 1 2, round [0, 2/3] 1 2, round [0, 2/3] 1 2])) look =
      some (some 2, some (1/3)) := by decide +kernel

/-- The specification says the same. -/
example : Graves.ponder (1/10 : ℚ) 1 (fun j => if j = 2 then 2/3 else 1/3) 3 = 3 + 1/3 ∧
    Graves.ponder (1/10 : ℚ) 1 (fun _ => 2/3) 3 = 2 + 1/3 := by decide +kernel

/-- Without the first run being halted the costs cannot be compared: an element that is about to
halt pays its remainder at the halting step. -/
example :
    let look := fun c : Controller ℚ => some (c.iterations.at? [1], c.residuals.at? [1])
    obs (run ⟨fresh⟩ (roundOps [round [0, 1/3] 1 2])) look = some (some 1, some 0) ∧
    obs (run ⟨fresh⟩ (roundOps [round [0, 1] 1 2])) look = some (some 1, some 1) := by decide +kernel

end Example

end JaxAct
