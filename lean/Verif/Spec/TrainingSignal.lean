import Mathlib.Analysis.Calculus.FDeriv.Basic

/-!
# Specification: the gradient of adaptive computation time

`h j` is the halting probability of step `j` (from zero) of one batch element and `u j` its update;
`h' j` and `u' j` are their derivatives with respect to parameters in a normed space `P`.  `last` is
the last step of the element (from zero), or nothing when the element is still running after `n`
steps.  Nothing of the model is used.
-/

namespace JaxAct.Signal
variable {P : Type} [NormedAddCommGroup P] [NormedSpace ℝ P]

/-- Derivative of the result.  Before the last step a halting probability moves weight from the last
update to its own; updates count with their weights, and the last one with the remainder. -/
noncomputable def result (dep : ℝ) (n : Nat) (h u : Nat → ℝ) (h' u' : Nat → P →L[ℝ] ℝ) :
    Option Nat → (P →L[ℝ] ℝ)
  | some m => ∑ j ∈ Finset.range m, (dep * (u j - u m)) • h' j +
      (∑ j ∈ Finset.range m, (dep * h j) • u' j + (1 - ∑ j ∈ Finset.range m, dep * h j) • u' m)
  | none => ∑ j ∈ Finset.range n, ((dep * u j) • h' j + (dep * h j) • u' j)

/-- Derivative of the remainder, and so of the ponder cost. -/
noncomputable def remainder (dep : ℝ) (h' : Nat → P →L[ℝ] ℝ) : Option Nat → (P →L[ℝ] ℝ)
  | some m => - ∑ j ∈ Finset.range m, dep • h' j
  | none => 0

end JaxAct.Signal
