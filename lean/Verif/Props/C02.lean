import Verif.Props.C01

/-! # C02 A halted batch element stays halted until reset -/

namespace JaxAct
variable {K : Type} [Field K] [LinearOrder K] [IsStrictOrderedRing K]
attribute [local instance] Arith.exact

/-- C02.  Histories of caches and iterations never un-halt an element. -/
theorem C02_halted_stays_halted {s : ACTStates K} (hwf : s.WF)
    (heps : 0 < s.epsilon) (hdep : 0 ≤ s.depression_constant)
    {b : List Nat} (hb : (Controller.haltedBatches ⟨s⟩).at? b = some true)
    (ops : List (Op K)) (hops : ∀ op ∈ ops, op.NotReset) {c' : Controller K}
    (hrun : run ⟨s⟩ ops = .ok c') : c'.haltedBatches.at? b = some true := by
  have := run_induction_noReset (Inv := fun t => 0 < t.epsilon ∧ 0 ≤ t.depression_constant ∧
      (Controller.haltedBatches ⟨t⟩).at? b = some true) ?_ ?_ ops hops hwf ⟨heps, hdep, hb⟩ hrun
  · exact this.2.2.2
  · rintro s n t s' - ⟨-, rfl⟩ h; exact h
  · rintro s h s' hwf st ⟨h1, h2, h3⟩
    refine ⟨by rw [st.epsilon]; exact h1, by rw [st.depression]; exact h2, ?_⟩
    rw [halted_iff hwf.floating] at h3
    obtain ⟨p, hp, hh⟩ := h3
    obtain ⟨r, n, x, -, -, -, hc, -, -⟩ := st.cellAt hwf hp
    rw [halted_iff (by rw [st.pdtype]; exact hwf.floating)]
    refine ⟨_, hc, ?_⟩
    rw [st.pdtype, st.epsilon, Spec.halted_step_iff h1]
    exact Spec.crosses_of_halted h2 hh

/-- C02, converse: `reset_batches` does clear the flag. -/
theorem C02_reset_clears {s : ACTStates K} (hwf : s.WF) (heps : s.epsilon ≤ 1)
    {c' : Controller K} (hrun : Controller.resetBatches ⟨s⟩ = .ok c') {b : List Nat}
    (hb : (Controller.haltedBatches ⟨s⟩).at? b = some true) :
    c'.haltedBatches.at? b = some false := by
  have st := Controller.resetBatches_ok hwf hrun
  rw [halted_iff hwf.floating] at hb
  obtain ⟨p, hp, hh⟩ := hb
  obtain ⟨r, n, hr, hn⟩ := hwf.cell hp
  obtain ⟨hc, -, -⟩ := st.cell b p r n hp hr hn
  have := (halted_iff (s := c'.state) (b := b) (x := false)
    (by rw [st.pdtype]; exact hwf.floating)).2
  refine this ⟨_, hc, ?_⟩
  rw [Spec.isHalted_false_iff, st.epsilon]
  simp only [Spec.resetCell, hh, Spec.keepIf_eq]
  simpa using heps

section Example
open Fixtures

/-- Element 0 halts in the first round, a second round follows. -/
example : obs (run ⟨fresh⟩ (roundOps [round [1, 1/3] 4 6]))
      (fun c => c.haltedBatches.at? [0]) = some true ∧
    obs (run ⟨fresh⟩ (roundOps [round [1, 1/3] 4 6, round [-5, 1/3] 4 6]))
      (fun c => c.haltedBatches.at? [0]) = some true := by decide +kernel

/-- With a negative depression constant a halted element can be un-halted, so the hypothesis is
needed. -/
example : (Controller.haltedBatches ⟨{ simple with
      depression_constant := -1, probabilities := vec [1, 1] }⟩).at? [0] = some true ∧
    obs (run ⟨{ simple with depression_constant := -1, probabilities := vec [1, 1] }⟩
      (roundOps [sround [1/2, 1/2] 4 6])) (fun c => c.haltedBatches.at? [0]) = some false := by
  decide +kernel

end Example

end JaxAct
