import Verif.Basic.Dual
import Mathlib.Algebra.BigOperators.Group.Finset.Basic
import Mathlib.Algebra.BigOperators.Ring.Finset

/-!
# Specification vocabulary: linear combinations of tangents

A family of dual numbers is one value with several tangents; a combination has the same value and the
weighted sum of the tangents.
-/

namespace JaxAct

/-- `X` has the common value of the family `f`, and its tangent is the sum of the tangents of the family
with weights `w`. -/
def Superposed {ι K : Type} [Fintype ι] [Field K] (w : ι → K) (f : ι → Dual K) (X : Dual K) : Prop :=
  (∀ v, (f v).re = X.re) ∧ X.im = ∑ v, w v * (f v).im

end JaxAct
