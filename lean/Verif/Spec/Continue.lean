import Verif.Spec.Ponder

/-!
# Specification: adaptive computation time from a given point

As `Spec/Graves`, but the cumulative probability of the element is `p` before the first step, as after
loading a controller or editing it.  Nothing of the model is used.
-/

namespace JaxAct.Graves
variable {K : Type} [Field K] [LinearOrder K]

/-- The sum has exceeded `1 - eps` within the first `t` steps. -/
def CrossedFrom (p eps dep : K) (h : Nat → K) (t : Nat) : Prop :=
  ∃ j, j ≤ t ∧ 1 - eps < p + cumDemand dep h j

instance (p eps dep : K) (h : Nat → K) (t : Nat) : Decidable (CrossedFrom p eps dep h t) :=
  decidable_of_iff (∃ j, j < t + 1 ∧ 1 - eps < p + cumDemand dep h j)
    (by simp [CrossedFrom, Nat.lt_succ_iff])

/-- The weight of the update of step `t`: the demand before the crossing step, what is missing to one at the
crossing step, nothing afterwards. -/
def weightFrom (p eps dep : K) (h : Nat → K) (t : Nat) : K :=
  if ¬ CrossedFrom p eps dep h (t + 1) then dep * clip (h t)
  else if ¬ CrossedFrom p eps dep h t then 1 - (p + cumDemand dep h t)
  else 0

/-- How many of the first `t` steps are taken. -/
def stepsFrom (p eps dep : K) (h : Nat → K) (t : Nat) : Nat :=
  ((Finset.range t).filter fun j => ¬ CrossedFrom p eps dep h j).card

/-- The residual: what the last step is given, or the residual `r` there was before when no step has been
the last one. -/
def remainderFrom (p eps dep r : K) (h : Nat → K) (t : Nat) : K :=
  if CrossedFrom p eps dep h t then 1 - (p + cumDemand dep h (stepsFrom p eps dep h t - 1)) else r

end JaxAct.Graves
