import Verif.Spec.Graves

/-! # Specification: the ponder cost (Graves 2016, section 2.2)

For one batch element: the number of steps it takes plus the remainder of its last step.  Nothing of
the model is used. -/

namespace JaxAct.Graves
variable {K : Type} [Field K] [LinearOrder K]

/-- How many of the first `t` steps are taken before the running sum has exceeded `1 - eps`; the step
that exceeds it counts. -/
def steps (eps dep : K) (h : Nat → K) (t : Nat) : Nat :=
  ((Finset.range t).filter fun j => ¬ Crossed eps dep h j).card

/-- What the last step is given: one minus the sum of the demands of the steps before it; nothing
when there was no last step yet. -/
def remainder (eps dep : K) (h : Nat → K) (t : Nat) : K :=
  if Crossed eps dep h t then 1 - cumDemand dep h (steps eps dep h t - 1) else 0

/-- The ponder cost. -/
def ponder (eps dep : K) (h : Nat → K) (t : Nat) : K :=
  (steps eps dep h t : K) + remainder eps dep h t

end JaxAct.Graves
