import Verif.Basic.Dual
import Verif.Spec.Families
import Verif.Spec.Graves
import Mathlib.Analysis.Calculus.Deriv.Basic

/-!
# Specification vocabulary: derivatives of runs

A family `f : ℝ → ℝ` is tangent to a dual number at `θ₀` if the number holds its value and its derivative
there.
-/

namespace JaxAct

/-- `X` holds the value and the derivative of `f` at `θ₀`. -/
def Tangent (θ₀ : ℝ) (f : ℝ → ℝ) (X : Dual ℝ) : Prop := f θ₀ = X.re ∧ HasDerivAt f X.im θ₀

/-- The call is made away from the points where the library itself is not differentiable.

* `iterate_act`: no element sits exactly on the threshold before or after the step, and where the step
  does not cross it the halting probability is not exactly `0` or `1`, the corners of the clip.
* `reset_batches`: no element sits exactly on the threshold. -/
def Op.Regular (s : ACTStates ℝ) : Op ℝ → Prop
  | .cache _ _ => True
  | .iterate h => ∀ b p x, s.probabilities.at? b = some p → h.at? b = some x →
      p ≠ 1 - s.epsilon ∧ p + s.depression_constant * Graves.clip x ≠ 1 - s.epsilon ∧
      (p + s.depression_constant * Graves.clip x < 1 - s.epsilon → x ≠ 0 ∧ x ≠ 1)
  | .reset => ∀ b p, s.probabilities.at? b = some p → p ≠ 1 - s.epsilon

/-- Every call of the sequence that is reached meets `G`. -/
def Along {α : Type} [Arith α] (G : ACTStates α → Op α → Prop) : Controller α → List (Op α) → Prop
  | _, [] => True
  | c, op :: ops => G c.state op ∧ ∀ c', op.call c = .ok c' → Along G c' ops

end JaxAct
