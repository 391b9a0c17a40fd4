import Verif.Spec.History
import Verif.Basic.Round

/-!
# A compiler that contracts a multiplication and an addition

The library is meant to be traced by `jax.jit`.  A compiler may then evaluate a product and the sum
it enters with one rounding (a fused multiply-add) instead of two.  In `_process_probabilities` the
product `depression_constant*halting_probabilities` enters two sums: the total that is compared with
the threshold (164), and, through a `select`, the new cumulative probability (183).  Only the first
one can be contracted, because of the `select` in between.

The first part of this file repeats `_process_probabilities` and `iterate_act` with the first sum
contracted.

In `_update_accumulator` the product `halting_probabilities*update` enters the sum
`accumulator + ...` (232).  The second part repeats `_update_accumulator` and `iterate_act` with that
sum contracted.
-/

namespace JaxAct
variable {α : Type} [Arith α]

namespace Controller

/-- `depression_constant*halting_probabilities + self.probabilities`, `controller.py:155, 164`, with
the operation `fma d x y z` in place of a product followed by a sum.  The compiler can do that only if
there is no conversion between the two. -/
def fusedTotal (fma : DType → α → α → α → α) (c : Controller α) (halting : Tensor α) :
    Res (Tensor α) :=
  let d := halting.dtype.withFloat
  if c.probabilities.dtype = d then
    Tensor.binop (fun d x y => fma d (Arith.cast d c.depressionConstant) x y)
      (Tensor.conv d halting) c.probabilities
  else Tensor.binop Arith.add (Tensor.floatMul c.depressionConstant halting) c.probabilities

/-- `_process_probabilities`, `controller.py:138-185`, with the total contracted. -/
def processFused (fma : DType → α → α → α → α) (c : Controller α) (halting : Tensor α) :
    Res (Tensor α × Tensor α × Tensor α) := do
  let total ← c.fusedTotal fma halting
  let halting := Tensor.floatMul c.depressionConstant halting
  let willBeHalted := total.gtFloat c.haltThreshold
  let newlyHalting ← andNot willBeHalted c.haltedBatches
  let rawResiduals := c.probabilities.oneSub
  let residuals ← Tensor.select newlyHalting rawResiduals c.residuals
  let halting ← Tensor.select willBeHalted rawResiduals halting
  let probabilities ← Tensor.binop Arith.add c.probabilities halting
  pure (halting, residuals, probabilities)

/-- `iterate_act`, `controller.py:260-353`, with the total contracted. -/
def iterateFused (fma : DType → α → α → α → α) (c : Controller α) (halting : Tensor α) :
    Res (Controller α) :=
  if halting.shape ≠ c.probabilities.shape then raise .valueError
  else do
    let halting := halting.clip01
    let (halting, residuals, probabilities) ← c.processFused fma halting
    let (accumulators, updates) ←
      c.commitLoop halting c.accumulators.keys c.accumulators c.state.updates
    let newIterations := c.iterations.addOne
    let iterations ← Tensor.select c.haltedBatches c.iterations newIterations
    let state ← c.state.replace (iterations := some iterations) (residuals := some residuals)
      (probabilities := some probabilities) (accumulators := some accumulators)
      (updates := some updates)
    pure ⟨state⟩

end Controller

/-- One method call (`cache_update`, `iterate_act`, `reset_batches`, `controller.py:237-420`), the total
contracted. -/
def Op.callFused (fma : DType → α → α → α → α) (c : Controller α) : Op α → Res (Controller α)
  | .iterate h => c.iterateFused fma h
  | .cache n t => c.cacheUpdate n t
  | .reset => c.resetBatches

/-- A history of calls, the totals contracted (`controller.py:237-420`). -/
def runFused (fma : DType → α → α → α → α) (c : Controller α) : List (Op α) → Res (Controller α)
  | [] => .ok c
  | op :: ops => do
    let c' ← op.callFused fma c
    runFused fma c' ops

/-! ### The sums of `_update_accumulator` -/

/-- `accumulator + halting_probabilities*update`, `controller.py:232`, with the operation `fma d x y z`
in place of a product followed by a sum.  The compiler can do that only if there is no conversion of the
product in between. -/
def fusedSum (fma : DType → α → α → α → α) (accumulator halting update : Tensor α) : Res (Tensor α) :=
  let d := DType.promote halting.dtype update.dtype
  if DType.promote accumulator.dtype d = d then
    match Arr.bmap2 Prod.mk (Tensor.conv d halting).arr (Tensor.conv d update).arr with
    | none => .error (Arr.bErr halting.shape update.shape)
    | some xy =>
      match Arr.bmap2 (fun z xy => fma d xy.1 xy.2 z) (Tensor.conv d accumulator).arr xy with
      | none => .error (Arr.bErr accumulator.shape xy.shape)
      | some r => .ok ⟨d, r⟩
  else do
    let weighted ← Tensor.binop Arith.mul halting update
    Tensor.binop Arith.add accumulator weighted

namespace Controller

/-- `_update_accumulator`, `controller.py:187-233`, with the sum contracted. -/
def updateFused (fma : DType → α → α → α → α) (c : Controller α) (accumulator update : Leaf α)
    (halting : Tensor α) : Res (Leaf α) := do
  let a ← accumulator.asTensor
  let u ← update.asTensor
  if a.shape ≠ u.shape then raise .runtimeError
  else
    let halting ← Utils.setupLeftBroadcastT halting (some a.shape)
    let halted ← Utils.setupLeftBroadcast c.haltedBatches (some a.shape)
    let halted ← halted.broadcastTo a.shape
    let new ← fusedSum fma a halting u
    let r ← Tensor.select halted a new
    pure (.tensor r)

/-- The body of the accumulator loop, `controller.py:298-330`, with the sums contracted. -/
def commitOneFused (fma : DType → α → α → α → α) (c : Controller α) (halting : Tensor α)
    (accumulators updates : Dict (PyTree (Leaf α))) (name : String) : Res (PyTree (Leaf α)) := do
  let accumulatorTree ← accumulators.getItem name
  let updateTree ← updates.getItem name
  if updateTree.isNone then raise .runtimeError
  else Utils.mergePytrees (fun a u => c.updateFused fma a u halting) accumulatorTree updateTree

/-- The accumulator loop, `controller.py:295-333`, with the sums contracted. -/
def commitLoopFused (fma : DType → α → α → α → α) (c : Controller α) (halting : Tensor α) :
    List String → Dict (PyTree (Leaf α)) → Dict (PyTree (Leaf α)) →
    Res (Dict (PyTree (Leaf α)) × Dict (PyTree (Leaf α)))
  | [], accumulators, updates => .ok (accumulators, updates)
  | name :: names, accumulators, updates =>
    match wrapRuntime (c.commitOneFused fma halting accumulators updates name) with
    | .error e => .error e
    | .ok new => commitLoopFused fma c halting names (accumulators.set name new) (updates.set name .none)

/-- `iterate_act`, `controller.py:260-353`, with the sums of `_update_accumulator` contracted. -/
def iterateFusedSums (fma : DType → α → α → α → α) (c : Controller α) (halting : Tensor α) :
    Res (Controller α) :=
  if halting.shape ≠ c.probabilities.shape then raise .valueError
  else do
    let halting := halting.clip01
    let (halting, residuals, probabilities) ← c.processProbabilities halting
    let (accumulators, updates) ←
      c.commitLoopFused fma halting c.accumulators.keys c.accumulators c.state.updates
    let newIterations := c.iterations.addOne
    let iterations ← Tensor.select c.haltedBatches c.iterations newIterations
    let state ← c.state.replace (iterations := some iterations) (residuals := some residuals)
      (probabilities := some probabilities) (accumulators := some accumulators)
      (updates := some updates)
    pure ⟨state⟩

end Controller

/-- One method call (`controller.py:237-420`), the sums of `_update_accumulator` contracted. -/
def Op.callFusedSums (fma : DType → α → α → α → α) (c : Controller α) : Op α → Res (Controller α)
  | .iterate h => c.iterateFusedSums fma h
  | .cache n t => c.cacheUpdate n t
  | .reset => c.resetBatches

/-- A history of calls, the sums of `_update_accumulator` contracted (`controller.py:237-420`). -/
def runFusedSums (fma : DType → α → α → α → α) (c : Controller α) : List (Op α) → Res (Controller α)
  | [] => .ok c
  | op :: ops => do
    let c' ← op.callFusedSums fma c
    runFusedSums fma c' ops

/-- The fused multiply-add of IEEE 754, `x * y + z` rounded once, in the formats `F`. -/
def Arith.fma (F : DType → Fmt) (d : DType) (x y z : ℚ) : ℚ := roundTo F d (x * y + z)

end JaxAct
