import Verif.Basic.Arith

/-!
# Specification: one ACT step of one batch element

Plain scalar functions, stated without tensors, trees or dictionaries, over an arbitrary
arithmetic.  `d` is the dtype of the cumulative probabilities.
-/

namespace JaxAct.Spec

variable {α : Type} [Arith α]

/-- What is stored for one batch element. -/
structure Cell (α : Type) where
  prob : α
  resid : α
  iter : α

/-- The halting threshold `1 - epsilon` (a Python float) as a number of dtype `d`. -/
def threshold (d : DType) (eps : α) : α := Arith.cast d (Arith.sub .f64 Arith.one eps)

/-- An element is halted when its cumulative probability is above the threshold. -/
def isHalted (d : DType) (eps p : α) : Bool := Arith.lt (threshold d eps) p

/-- Clamp to `[0, 1]`. -/
def clamp (x : α) : α := Arith.min Arith.one (Arith.max Arith.zero x)

/-- The depressed, clamped halting probability. -/
def demand (d : DType) (dep h : α) : α := Arith.mul d (Arith.cast d dep) (clamp h)

/-- The step takes the element above the threshold. -/
def crosses (d : DType) (eps dep p h : α) : Bool :=
  Arith.lt (threshold d eps) (Arith.add d (demand d dep h) p)

/-- The weight of the update: the demand, or what is left to one at the crossing step. -/
def weight (d : DType) (eps dep p h : α) : α :=
  if crosses d eps dep p h then Arith.sub d Arith.one p else demand d dep h

/-- Bookkeeping of one iteration for one batch element; `dI` is the dtype of the counter. -/
def step (d dI : DType) (eps dep : α) (c : Cell α) (h : α) : Cell α where
  prob := Arith.add d c.prob (weight d eps dep c.prob h)
  resid :=
    if crosses d eps dep c.prob h && !isHalted d eps c.prob then Arith.sub d Arith.one c.prob
    else c.resid
  iter := if isHalted d eps c.prob then c.iter else Arith.add dI c.iter Arith.one

/-- One entry of an accumulator of dtype `dA` that receives the update entry `u` of dtype `dU`. -/
def accStep (d dA dU : DType) (eps dep p h a u : α) : α :=
  if isHalted d eps p then a
  else
    let dM := DType.promote d dU
    Arith.add dA a
      (convS dM dA (Arith.mul dM (convS d dM (weight d eps dep p h)) (convS dU dM u)))

end JaxAct.Spec
