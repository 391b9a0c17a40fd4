import Verif.Spec.Stream
import Verif.Spec.Session
import Mathlib.Algebra.BigOperators.Group.Finset.Basic
import Mathlib.Data.Fintype.BigOperators

/-!
# An affine readout of accumulator entries

A layer `y = M x + bias` applied to what was accumulated, one row of it.  This file does not mention the
controller.
-/

namespace JaxAct
open ACTStates

/-- Which entries a readout reads and where its result lives in another controller. -/
structure Readout (ι K : Type) where
  name : ι → String
  leaf : ι → Nat
  idx : ι → List Nat
  coeff : ι → K
  bias : K
  outName : String
  outLeaf : Nat
  outIdx : List Nat

namespace Readout
variable {ι K : Type} [Fintype ι] [Field K]

/-- The entries of a dictionary that are read. -/
def Reads (R : Readout ι K) (d : Dict (PyTree (Leaf K))) (x : ι → K) : Prop :=
  ∀ j, entry? d (R.name j) (R.leaf j) (R.idx j) = some (x j)

/-- The entry of a dictionary in which the result is. -/
def out? (R : Readout ι K) (d : Dict (PyTree (Leaf K))) : Option K :=
  entry? d R.outName R.outLeaf R.outIdx

/-- The readout of the numbers `x`, with the bias counted `w` times. -/
def value (R : Readout ι K) (w : K) (x : ι → K) : K := ∑ j, R.coeff j * x j + w * R.bias

/-- A turn of one computation and the turn of another one, which gets the readout of the updates instead. -/
structure Turns (R : Readout ι K) (b b' : List Nat) (x y : Turn K) : Prop where
  reset : x.reset = y.reset
  halting : ∃ h, x.round.halting.at? b = some h ∧ y.round.halting.at? b' = some h
  updates : ∃ u, R.Reads x.round.updates u ∧ R.out? y.round.updates = some (R.value 1 u)

end Readout

end JaxAct
