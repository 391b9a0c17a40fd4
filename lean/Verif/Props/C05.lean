import Verif.Props.C04

/-! # C05 Weights of a halted element sum to exactly one -/

namespace JaxAct
open ACTStates
variable {K : Type} [Field K] [LinearOrder K] [IsStrictOrderedRing K]
attribute [local instance] Arith.exact

/-- C05.  An element that was not halted and is halted after some history (resets included) has
cumulative probability exactly one. -/
theorem C05_halted_probability_is_one {s : ACTStates K} (hwf : s.WF)
    (he0 : 0 < s.epsilon) (he1 : s.epsilon ≤ 1) (hdep : 0 ≤ s.depression_constant)
    {b : List Nat} (hb : (Controller.haltedBatches ⟨s⟩).at? b = some false)
    (ops : List (Op K)) {c' : Controller K} (hrun : run ⟨s⟩ ops = .ok c')
    (hb' : c'.haltedBatches.at? b = some true) : c'.probabilities.at? b = some 1 := by
  have := run_induction (Inv := fun t => 0 < t.epsilon ∧ t.epsilon ≤ 1 ∧
      0 ≤ t.depression_constant ∧ ((Controller.haltedBatches ⟨t⟩).at? b = some true →
        t.probabilities.at? b = some 1)) ?_ ?_ ?_ ops hwf
      ⟨he0, he1, hdep, fun h => by rw [hb] at h; cases h⟩ hrun
  · exact this.2.2.2.2 hb'
  · rintro s n t s' - ⟨-, rfl⟩ h; exact h
  · rintro s h s' hwf st ⟨h0, h1, h2, h3⟩
    refine ⟨by rw [st.epsilon]; exact h0, by rw [st.epsilon]; exact h1,
      by rw [st.depression]; exact h2, fun hb => ?_⟩
    rw [halted_iff (by rw [st.pdtype]; exact hwf.floating)] at hb
    obtain ⟨p', hp', hh⟩ := hb
    obtain ⟨p, hp⟩ := st.index hp'
    obtain ⟨r, n, x, -, -, -, hc, -, -⟩ := st.cellAt hwf hp
    rw [hp'] at hc
    cases hc
    rw [st.pdtype, st.epsilon, Spec.halted_step_iff h0] at hh
    rw [hp', Spec.step_prob_of_crosses hh]
  · rintro s s' hwf st ⟨h0, h1, h2, h3⟩
    refine ⟨by rw [st.epsilon]; exact h0, by rw [st.epsilon]; exact h1,
      by rw [st.depression]; exact h2, fun hb => ?_⟩
    rw [halted_iff (by rw [st.pdtype]; exact hwf.floating)] at hb
    obtain ⟨p', hp', hh⟩ := hb
    obtain ⟨p, hp⟩ := st.index hp'
    obtain ⟨r, n, hr, hn⟩ := hwf.cell hp
    obtain ⟨hc, -, -⟩ := st.cell b p r n hp hr hn
    rw [hp'] at hc
    cases hc
    exfalso
    rw [st.pdtype, st.epsilon, Spec.isHalted_iff] at hh
    simp only [Spec.resetCell, Spec.keepIf_eq] at hh
    split at hh
    · rename_i hn
      rw [Bool.not_eq_true', Spec.isHalted_false_iff] at hn
      linarith
    · linarith

/-- C05.  If an element that starts at 0 is halted after some rounds with halting probabilities
`h t`, the weights with which its updates were added (see `C04_graves_weights`) sum to one. -/
theorem C05_weights_sum_to_one {s : ACTStates K} (hwf : s.WF)
    (he0 : 0 < s.epsilon) (he1 : s.epsilon ≤ 1) (hdep : 0 ≤ s.depression_constant)
    (rs : List (Round K)) {c' : Controller K} (hrun : run ⟨s⟩ (roundOps rs) = .ok c')
    {name : String} {k : Nat} {i : List Nat} {a0 : K} (u h : Nat → K)
    (hfresh : s.probabilities.at? (i.take s.probabilities.shape.length) = some 0)
    (hacc : entry? s.accumulators name k i = some a0)
    (hu : ∀ t r, rs[t]? = some r → entry? r.updates name k i = some (u t))
    (hh : ∀ t r, rs[t]? = some r →
      r.halting.at? (i.take s.probabilities.shape.length) = some (h t))
    (hhalt : c'.haltedBatches.at? (i.take s.probabilities.shape.length) = some true) :
    ∑ t ∈ Finset.range rs.length, Graves.weight s.epsilon s.depression_constant h t = 1 := by
  obtain ⟨-, h2⟩ := C04_graves_weights hwf he0 he1 hdep rs hrun u h hfresh hacc hu hh
  have h0 : (Controller.haltedBatches ⟨s⟩).at? (i.take s.probabilities.shape.length) = some false := by
    rw [halted_iff hwf.floating]
    exact ⟨0, hfresh, Spec.isHalted_false_iff.2 (by linarith)⟩
  have h1 := C05_halted_probability_is_one hwf he0 he1 hdep h0 _ hrun hhalt
  rw [h1] at h2
  exact (Option.some.inj h2).symm

section Example
open Fixtures

/-- Element 1 is not halted at first and halted after two rounds. -/
example : (Controller.haltedBatches ⟨fresh⟩).at? [1] = some false ∧
    obs (run ⟨fresh⟩ (roundOps [round [1/2, 2/3] 4 6, round [1/4, 2/3] 8 3]))
      (fun c => c.haltedBatches.at? [1]) = some true := by decide +kernel

/-- `epsilon = 0` is excluded for a reason: the probability reaches one but the element is never
counted as halted. -/
example : obs (run ⟨{ fresh with epsilon := 0 }⟩ (roundOps [round [1, 1] 4 6]))
      (fun c => some (c.probabilities.at? [0], c.haltedBatches.at? [0])) =
    some (some 1, some false) := by decide +kernel

end Example

end JaxAct
