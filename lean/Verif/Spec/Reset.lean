import Verif.Spec.Step

/-! # Specification: reset of one batch element -/

namespace JaxAct.Spec
variable {α : Type} [Arith α]

/-- A number of dtype `d` times "not halted" (`True`/`False` converted to `d`). -/
def keepIf (d : DType) (unhalted : Bool) (x : α) : α :=
  Arith.mul d x (convS .bool d (Arith.ofBool unhalted))

/-- Bookkeeping of one batch element after a reset. -/
def resetCell (d dI : DType) (eps : α) (c : Cell α) : Cell α where
  prob := keepIf d (!isHalted d eps c.prob) c.prob
  resid := keepIf d (!isHalted d eps c.prob) c.resid
  iter := keepIf dI (!isHalted d eps c.prob) c.iter

/-- One accumulator entry `a` with default `x` after a reset. -/
def resetEntry (d : DType) (eps p a x : α) : α := if isHalted d eps p then x else a

end JaxAct.Spec
