import Verif.Lemmas.Entry
import Verif.Lemmas.Exact
import Verif.Props.Fixtures

/-! # C07 Iteration counter counts exactly the un-halted iterations -/

namespace JaxAct
open ACTStates

/-- Specification: start counting at `n`; every `iterate_act` made while the element is not halted
adds one, a reset of the (halted) element starts again at zero. -/
def activeIterations {α : Type} [Arith α] (b : List Nat) (c : Controller α) (n : Nat) :
    List (Op α) → Nat
  | [] => n
  | op :: ops =>
    match op.call c with
    | .error _ => n
    | .ok c' =>
      let halted := c.haltedBatches.at? b = some true
      match op with
      | .cache _ _ => activeIterations b c' n ops
      | .iterate _ => activeIterations b c' (if halted then n else n + 1) ops
      | .reset => activeIterations b c' (if halted then 0 else n) ops

variable {K : Type} [Field K] [LinearOrder K] [IsStrictOrderedRing K]
attribute [local instance] Arith.exact

omit [IsStrictOrderedRing K] in
/-- C07.  If the counter of an element holds the number `n`, then after any successful history it
holds the number of iterations made while the element was not halted since the start (plus `n`) or
since its last reset. -/
theorem C07_iterations_count_active {s : ACTStates K} (hwf : s.WF) {b : List Nat} {n : Nat}
    (hn : s.iterations.at? b = some (n : K)) (ops : List (Op K)) {c' : Controller K}
    (hrun : run ⟨s⟩ ops = .ok c') :
    c'.iterations.at? b = some (activeIterations b ⟨s⟩ n ops : K) := by
  induction ops generalizing s n with
  | nil => cases hrun; exact hn
  | cons op ops ih =>
    simp only [run, bind_ok] at hrun
    obtain ⟨⟨s1⟩, h1, h2⟩ := hrun
    obtain ⟨p, hp⟩ := Controller.at?_some_of_shape (b := s.probabilities) hwf.it_shape.symm hn
    have hhb : ∀ x, (Controller.haltedBatches ⟨s⟩).at? b = some x ↔
        Spec.isHalted s.probabilities.dtype s.epsilon p = x := by
      intro x
      rw [halted_iff hwf.floating]
      constructor
      · rintro ⟨q, hq, h⟩; rw [hp] at hq; cases hq; exact h
      · intro h; exact ⟨p, hp, h⟩
    simp only [activeIterations, h1]
    cases op with
    | cache m t =>
      have st := Controller.cacheUpdate_ok_iff.1 h1
      have hwf1 := Controller.CacheStep.wf hwf st
      obtain ⟨-, heq⟩ := st
      simp only at heq
      subst heq
      exact ih hwf1 hn h2
    | iterate h =>
      have st := Controller.iterateAct_ok hwf h1
      obtain ⟨r, n', x, -, hn', -, -, -, c3⟩ := st.cellAt hwf hp
      rw [hn] at hn'
      cases hn'
      refine ih (Controller.IterStep.wf hwf st) ?_ h2
      show s1.iterations.at? b = _
      rw [c3]
      simp only [Spec.step, hhb]
      congr 1
      split
      · rfl
      · push_cast; rfl
    | reset =>
      have st := Controller.resetBatches_ok hwf h1
      obtain ⟨r, n', hr, hn'⟩ := hwf.cell hp
      obtain ⟨-, -, c3⟩ := st.cell b p r n' hp hr hn'
      rw [hn] at hn'
      cases hn'
      refine ih (Controller.ResetStep.wf hwf st) ?_ h2
      show s1.iterations.at? b = _
      rw [c3]
      simp only [Spec.resetCell, Spec.keepIf_eq, hhb]
      cases Spec.isHalted s.probabilities.dtype s.epsilon p <;> simp

section Example
open Fixtures

/-- Three rounds with a reset in between; element 0 is halted by the first and reset. -/
def c07ops : List (Op ℚ) :=
  roundOps [sround [1, 1/2] 4 6, sround [1, 1/2] 4 6] ++ [.reset] ++ roundOps [sround [1/2, 1/4] 4 6]

example : obs (run ⟨simple⟩ c07ops)
      (fun c => some (c.iterations.at? [0], c.iterations.at? [1])) = some (some 1, some 1) ∧
    activeIterations [0] ⟨simple⟩ 0 c07ops = 1 ∧ activeIterations [1] ⟨simple⟩ 0 c07ops = 1 := by
  decide +kernel

example : obs (run ⟨simple⟩ (roundOps [sround [1, 1/4] 4 6, sround [1, 1/4] 4 6]))
      (fun c => some (c.iterations.at? [0], c.iterations.at? [1])) = some (some 1, some 2) := by
  decide +kernel

end Example

end JaxAct
