import Verif.Conformance.Common
import Verif.Model.Viewer

/-! # `/repo/tests/core/test_viewer.py` -/

namespace JaxAct.Conformance
open JaxAct.Fixtures

attribute [local instance] Arith.exact

/-- The state of the tests: the updates of `output` are `None`. -/
def viewer : Viewer ℚ :=
  ⟨{ mock with
     defaults := [("state", bare (mat 3 [[1, 1, 1], [2, 2, 2], [-1, 2, 1]])),
       ("output", bare (mat 3 [[1/10, 1/5, 1/5], [6/5, 6/5, 6/5], [1/10, 1/10, 1/10]]))]
     updates := [("state", bare (mat 3 [[1, 1, 1], [2, 2, 2], [-1, 2, 1]])), ("output", .none)] }⟩

/-- `tensor[None, ...]` -/
def addAxis (t : Tensor ℚ) : Res (Tensor ℚ) :=
  .ok ⟨t.dtype, 1 :: t.shape, fun i h => t.arr.get i.tail (by
    cases h with
    | cons _ h => exact h)⟩

/-- `test_halt_threshold_property`, `test_halted_batches_property` -/
example : viewer.haltThreshold = 1 - viewer.state.epsilon ∧
    entries viewer.haltedBatches = [false, false, true] := by decide +kernel

/-- `test_transform_throws` -/
example : raised (viewer.transform fun _ => raise .valueError) = some .runtimeError := by
  decide +kernel

/-- `test_transform` -/
example : look (viewer.transform addAxis)
    (fun v => (v.iterations.shape, v.residuals.shape, v.probabilities.shape)) =
    some ([1, 3], [1, 3], [1, 3]) := by decide +kernel

example : look (viewer.transform addAxis)
    (fun v => (contents v.accumulators ++ contents v.defaults ++ contents v.updates).map
      fun kv => kv.2.map fun t => t.shape.take 2) =
    some (List.replicate 6 [[1, 3]]) := by decide +kernel

/-- `test_mask_throws` -/
example : raised (viewer.maskData (ivec [1, 0, 1])) = some .valueError ∧
    raised (viewer.maskData (mask [true, false])) = some .valueError := by decide +kernel

/-- `test_mask` -/
example :
    look (viewer.maskData (mask [false, true, true])) (fun v => entries v.probabilities.arr) =
      some [0, 1/2, 1] ∧
    look (viewer.maskData (mask [false, false, false])) (fun v => entries v.probabilities.arr) =
      some [0, 0, 0] ∧
    look (viewer.maskData (mask [true, true, true])) (fun v => entries v.probabilities.arr) =
      some [1/10, 1/2, 1] := by decide +kernel

/-- `test_unhalted_only` and `test_halted_only` -/
example :
    look viewer.unhaltedOnly (fun v => entries v.probabilities.arr) = some [1/10, 1/2, 0] ∧
    look viewer.haltedOnly (fun v => entries v.probabilities.arr) = some [0, 0, 1] := by
  decide +kernel

end JaxAct.Conformance
