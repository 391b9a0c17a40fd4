import Verif.Spec.Ponder

/-! # Specification: derivatives of an ACT run (Graves 2016, section 2.2)

For one batch element: `h t`, `u t` are the halting probability and the update entry of step `t`, `dh t` and
`du t` their tangents.  Nothing of the model is used. -/

namespace JaxAct.Graves
variable {K : Type} [Field K] [LinearOrder K]

/-- The tangent of `clip x` when `x` has tangent `dx`: `dx` inside the unit interval, nothing outside, half
of it at the two ends. -/
def dclip (x dx : K) : K :=
  if x < 0 ∨ 1 < x then 0 else if x = 0 ∨ x = 1 then dx / 2 else dx

/-- Of the sum of the demands of the first `t` steps. -/
def dcumDemand (dep : K) (h dh : Nat → K) (t : Nat) : K :=
  ∑ j ∈ Finset.range t, dep * dclip (h j) (dh j)

/-- Of the remainder: every step before the last one takes its demand from it. -/
def dremainder (eps dep : K) (h dh : Nat → K) (t : Nat) : K :=
  if Crossed eps dep h t then - dcumDemand dep h dh (steps eps dep h t - 1) else 0

/-- Of the accumulated output, through the halting probabilities: a step before the last one moves weight
from the last update to its own; the halting probabilities of the last step and later ones have no
influence. -/
def dhalting (eps dep : K) (h dh u : Nat → K) (t : Nat) : K :=
  if Crossed eps dep h t then
    ∑ j ∈ Finset.range (steps eps dep h t - 1),
      dep * dclip (h j) (dh j) * (u j - u (steps eps dep h t - 1))
  else ∑ j ∈ Finset.range t, dep * dclip (h j) (dh j) * u j

/-- Of the accumulated output: through the updates, with the weights, and through the halting
probabilities. -/
def doutput (eps dep : K) (h dh u du : Nat → K) (t : Nat) : K :=
  ∑ j ∈ Finset.range t, weight eps dep h j * du j + dhalting eps dep h dh u t

end JaxAct.Graves
