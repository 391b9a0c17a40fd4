import Verif.Lemmas.Entry
import Verif.Lemmas.Exact
import Verif.Props.Fixtures

/-! # C01 Cumulative probability stays in [0,1] -/

namespace JaxAct
variable {K : Type} [Field K] [LinearOrder K] [IsStrictOrderedRing K]
attribute [local instance] Arith.exact

/-- C01.  Every successful history of calls keeps all cumulative probabilities in `[0, 1]`. -/
theorem C01_probabilities_in_unit_interval {s : ACTStates K} (hwf : s.WF)
    (heps : 0 ≤ s.epsilon) (hdep : 0 ≤ s.depression_constant)
    (hp : ∀ b p, s.probabilities.at? b = some p → 0 ≤ p ∧ p ≤ 1)
    (ops : List (Op K)) {c' : Controller K} (hrun : run ⟨s⟩ ops = .ok c') :
    ∀ b p, c'.probabilities.at? b = some p → 0 ≤ p ∧ p ≤ 1 := by
  have := run_induction (Inv := fun t => 0 ≤ t.epsilon ∧ 0 ≤ t.depression_constant ∧
      ∀ b p, t.probabilities.at? b = some p → 0 ≤ p ∧ p ≤ 1) ?_ ?_ ?_ ops hwf ⟨heps, hdep, hp⟩ hrun
  · exact this.2.2.2
  · rintro s n t s' - ⟨-, rfl⟩ h; exact h
  · rintro s h s' hwf st ⟨h1, h2, h3⟩
    refine ⟨by rw [st.epsilon]; exact h1, by rw [st.depression]; exact h2, fun b p' hp' => ?_⟩
    obtain ⟨p, hp⟩ := st.index hp'
    obtain ⟨r, n, x, -, -, -, hc, -, -⟩ := st.cellAt hwf hp
    rw [hp'] at hc
    cases hc
    obtain ⟨hp0, hp1⟩ := h3 b p hp
    by_cases hcr : Spec.crosses s.probabilities.dtype s.epsilon s.depression_constant p
        (convS h.dtype s.probabilities.dtype x) = true
    · rw [Spec.step_prob_of_crosses hcr]; exact ⟨zero_le_one, le_refl 1⟩
    · have hcr' := Bool.eq_false_iff.2 hcr
      rw [Spec.step_prob, Spec.weight_of_not hcr']
      rw [Spec.crosses_false_iff] at hcr'
      have := mul_nonneg h2 (Spec.clamp_nonneg (convS h.dtype s.probabilities.dtype x))
      simp only
      constructor <;> linarith
  · rintro s s' hwf st ⟨h1, h2, h3⟩
    refine ⟨by rw [st.epsilon]; exact h1, by rw [st.depression]; exact h2, fun b p' hp' => ?_⟩
    obtain ⟨p, hp⟩ := st.index hp'
    obtain ⟨r, n, hr, hn⟩ := hwf.cell hp
    obtain ⟨hc, -, -⟩ := st.cell b p r n hp hr hn
    rw [hp'] at hc
    cases hc
    simp only [Spec.resetCell, Spec.keepIf_eq]
    split
    · exact h3 b p hp
    · exact ⟨le_refl 0, zero_le_one⟩

section Example
open Fixtures

/-- Out-of-range halting probabilities (`-1`, `7`), two rounds: the history succeeds, so the
theorem applies to it. -/
example : ∃ c', run ⟨fresh⟩ (roundOps [round [1/2, -1] 4 6, round [7, 2/3] 8 3]) = .ok c' ∧
    c'.probabilities.at? [0] = some 1 ∧ c'.probabilities.at? [1] = some (2/3) := by
  have h1 : obs (run ⟨fresh⟩ (roundOps [round [1/2, -1] 4 6, round [7, 2/3] 8 3]))
    (fun c => some (c.probabilities.at? [0], c.probabilities.at? [1])) =
      some (some 1, some (2/3)) := by decide +kernel
  revert h1
  unfold obs
  split
  · rename_i c hc
    intro h
    simp only [Option.some.injEq, Prod.mk.injEq] at h
    exact ⟨c, hc, h⟩
  · intro h; cases h

/-- The bound needs a non-negative depression constant: with `-1` it is left. -/
example : obs (run ⟨{ fresh with depression_constant := -1 }⟩ (roundOps [round [1/2, 1] 4 6]))
    (fun c => c.probabilities.at? [0]) = some (-1/2) := by decide +kernel

end Example

end JaxAct
