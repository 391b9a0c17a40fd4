import Verif.Conformance.Common

/-! # `/repo/tests/core/test_controller.py` -/

namespace JaxAct.Conformance
open JaxAct.Fixtures

attribute [local instance] Arith.exact

/-- The mock states of the tests leave out `error_mode` and cannot be built
(`test_controller.py`). -/
example : raised (ACTStates.new (α := ℚ)
    { epsilon := some 0, iterations := some (ivec []), residuals := some (vec []),
      probabilities := some (vec []), defaults := some [], accumulators := some [],
      updates := some [], depression_constant := some 1 }) = some .typeError := by decide +kernel

/-- `test_halt_threshold` -/
example : (Controller.mk mock).haltThreshold = 9/10 := by decide +kernel

/-- `test_halt_batches` -/
example : entries (Controller.mk { mock with probabilities := vec [1/10, 3/10, 2/5, 99/100] }
    : Controller ℚ).haltedBatches = [false, false, false, true] := by decide +kernel

/-- The state of `test_process_probabilities` -/
def processState : ACTStates ℚ :=
  { mock with probabilities := vec [2/5, 1/5, 7/10], residuals := vec [0, 0, 0] }

/-- `test_process_probabilities`: clamped halting probabilities, residuals, probabilities -/
example : look ((Controller.mk processState).processProbabilities (vec [3/10, 1/2, 4/5]))
    (fun r => (entries r.1.arr, entries r.2.1.arr, entries r.2.2.arr)) =
    some ([3/10, 1/2, 3/10], [0, 0, 3/10], [7/10, 7/10, 1]) := by decide +kernel

/-- The same, depression constant one half applied to the clamped halting probabilities -/
example : look ((Controller.mk { processState with depression_constant := 1/2 })
      |>.processProbabilities (vec [3/10, 1/2, 3/10]))
    (fun r => (entries r.1.arr).head?.map (2 * ·)) = some (some (3/10)) := by decide +kernel

/-- `test_update_accumulators`: differing shapes -/
example : raised ((Controller.mk { mock with probabilities := vec [1/10, 1] }).updateAccumulator
    (.tensor (mat 3 [[3, 4, -1], [7/10, 3/10, 1/2]])) (.tensor (vec [0, 1, 2])) (vec [3/5, 3/10])) =
    some .runtimeError := by decide +kernel

/-- `test_update_accumulators`: the update -/
example : look ((Controller.mk { mock with probabilities := vec [1/10, 1] }).updateAccumulator
      (.tensor (mat 3 [[3, 4, -1], [7/10, 3/10, 1/2]]))
      (.tensor (mat 3 [[2, 1, 1/10], [1/5, 10, 11]])) (vec [1/2, 3/10]))
    (fun l => tensors (.leaf l)) =
    some [show' (mat 3 [[4, 9/2, -95/100], [7/10, 3/10, 1/2]])] := by decide +kernel

/-- `test_cache_update`: no such channel -/
example : raised ((Controller.mk { mock with updates := [] }).cacheUpdate "Test"
    (bare (vec [0, 0, 0]))) = some .valueError := by decide +kernel

/-- `test_cache_update`: already assigned -/
example : raised ((Controller.mk { mock with updates := [("test", bare (vec [1, 2, 3]))] }).cacheUpdate
    "test" (bare (vec [0, 0, 1/10]))) = some .runtimeError := by decide +kernel

/-- `test_cache_update` -/
example : look ((Controller.mk { mock with updates := [("test", .none),
      ("test2", bare (vec [1, 2, 3]))] }).cacheUpdate "test" (bare (vec [0, 0, 1/10])))
    (fun c => contents c.state.updates) =
    some [("test", [show' (vec [0, 0, 1/10])]), ("test2", [show' (vec [1, 2, 3])])] := by
  decide +kernel

/-- `test_act_iterate_error_handling`: halting probabilities of the wrong shape -/
example : raised ((Controller.mk mock).iterateAct (ones [2, 3, 5])) = some .valueError := by
  decide +kernel

/-- The same test: no exception at 0 and 1 -/
example : succeeds ((Controller.mk mock).iterateAct (vec [0, 1, 1/2])) = true := by decide +kernel

/-- The same test: an update is missing -/
example : raised ((Controller.mk { mock with updates := mock.updates.set "output" .none }).iterateAct
    (vec [1/5, 3/10, 1/2])) = some .runtimeError := by decide +kernel

/-- The same test: an update has the wrong shape (the test itself passes the state of the previous case again) -/
example : raised ((Controller.mk { mock with updates := mock.updates.set "output" (bare (ones [5, 10, 30])) }
    ).iterateAct (vec [1/5, 3/10, 1/5])) = some .runtimeError := by decide +kernel

/-- `test_act_iterate`: iterations, probabilities and residuals -/
example : look ((Controller.mk mock).iterateAct (vec [1/2, 7/10, 3/5])) (fun c =>
      [show' c.iterations, show' c.probabilities, show' c.residuals]) =
    some [show' (ivec [4, 4, 2]), show' (vec [3/5, 1, 1]), show' (vec [0, 1/2, 3/10])] := by
  decide +kernel

/-- `test_act_iterate`: accumulators -/
example : look ((Controller.mk mock).iterateAct (vec [1/2, 7/10, 3/5]))
      (fun c => contents c.accumulators) =
    some [("state", [show' (mat 3 [[7/2, 9/2, -1/2], [3/2, 11/5, 31/10], [7/10, 3/10, 1/2]])]),
      ("output", [show' (mat 3 [[15/100, 1/5, 1/5], [8/5, 13/10, 9/10], [1/10, 1/10, 1/10]])])] := by
  decide +kernel

/-- `test_act_iterate`: updates -/
example : look ((Controller.mk mock).iterateAct (vec [1/2, 7/10, 3/5]))
      (fun c => c.state.updates.map fun kv => (kv.1, kv.2.isNone)) =
    some [("state", true), ("output", true)] := by decide +kernel

/-- The state of `test_reset_batches` -/
def resetState : ACTStates ℚ :=
  { mock with
    probabilities := vec [1/10, 2/5, 1]
    defaults := [("state", bare (zeros [3, 3])), ("output", bare (ones [3, 3]))]
    updates := [("state", .none), ("output", .none)] }

/-- `test_reset_batches`: iterations, probabilities and residuals -/
example : look (Controller.mk resetState).resetBatches (fun c =>
      [show' c.iterations, show' c.probabilities, show' c.residuals]) =
    some [show' (ivec [3, 3, 0]), show' (vec [1/10, 2/5, 0]), show' (vec [0, 0, 0])] := by
  decide +kernel

/-- `test_reset_batches`: accumulators -/
example : look (Controller.mk resetState).resetBatches (fun c => contents c.accumulators) =
    some [("state", [show' (mat 3 [[3, 4, -1], [1/2, 6/5, 21/10], [0, 0, 0]])]),
      ("output", [show' (mat 3 [[1/10, 1/10, 1/10], [1, 7/10, 3/10], [1, 1, 1]])])] := by
  decide +kernel

/-- The state of `test_magic` and `test_jit` -/
def itemState : ACTStates ℚ where
  epsilon := 1/1000
  iterations := ivec [0, 0]
  residuals := vec [0, 0]
  probabilities := vec [0, 0]
  defaults := [("item", bare (vec [0, 1/5]))]
  accumulators := [("item", bare (vec [0, 3/10]))]
  updates := [("item", .none)]
  depression_constant := 1
  error_mode := none

/-- `test_get_item` -/
example : look ((Controller.mk itemState).getItem "item") tensors = some [show' (vec [0, 3/10])] ∧
    raised ((Controller.mk itemState).getItem "item2") = some .keyError := by decide +kernel

/-- `test_return_controller` -/
example : look (do
      let c ← (Controller.mk itemState).cacheUpdate "item" (bare (vec [4, 3/10]))
      c.iterateAct (vec [1/5, 3/10])) (fun c => entries c.probabilities.arr) =
    some [1/5, 3/10] := by decide +kernel

end JaxAct.Conformance
