import Mathlib.Algebra.Order.Field.Basic
import Mathlib.Algebra.BigOperators.Group.Finset.Basic

/-!
# Specification: adaptive computation time (Graves 2016)

For one batch element: `h t` is the halting probability supplied at step `t` (from zero), `dep` the
depression constant, `eps` the epsilon.  Nothing of the model is used.
-/

namespace JaxAct.Graves
variable {K : Type} [Field K] [LinearOrder K]

/-- Clip to the unit interval. -/
def clip (x : K) : K := min 1 (max 0 x)

/-- Sum of the depressed, clipped halting probabilities of the first `t` steps. -/
def cumDemand (dep : K) (h : Nat → K) (t : Nat) : K :=
  ∑ j ∈ Finset.range t, dep * clip (h j)

/-- The running sum has exceeded `1 - eps` within the first `t` steps. -/
def Crossed (eps dep : K) (h : Nat → K) (t : Nat) : Prop :=
  ∃ j, j ≤ t ∧ 1 - eps < cumDemand dep h j

instance (eps dep : K) (h : Nat → K) (t : Nat) : Decidable (Crossed eps dep h t) :=
  decidable_of_iff (∃ j, j < t + 1 ∧ 1 - eps < cumDemand dep h j)
    (by simp [Crossed, Nat.lt_succ_iff])

/-- The weight of the update of step `t`: the demand before the crossing step, the remainder at the
crossing step, nothing afterwards. -/
def weight (eps dep : K) (h : Nat → K) (t : Nat) : K :=
  if ¬ Crossed eps dep h (t + 1) then dep * clip (h t)
  else if ¬ Crossed eps dep h t then 1 - cumDemand dep h t
  else 0

end JaxAct.Graves
