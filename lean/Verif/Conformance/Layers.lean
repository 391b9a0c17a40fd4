import Verif.Conformance.Common
import Verif.Model.Layers

/-!
# `/repo/tests/core/layers/test_core.py` and `test_act.py`

All layers of these tests call `new_builder`, which raises at the pinned commit; the controllers below
are the ones it would make.
-/

namespace JaxAct.Conformance
open JaxAct.Fixtures

attribute [local instance] Arith.exact

/-- A controller of batch shape `[3]` with the given accumulators, nothing cached. -/
def ctrl (accs : Dict (PyTree (Leaf ℚ))) : Controller ℚ :=
  ⟨{ epsilon := 1/10000, iterations := zeros [3], residuals := zeros [3], probabilities := zeros [3],
     defaults := accs, accumulators := accs, updates := accs.map fun kv => (kv.1, .none),
     depression_constant := 1, error_mode := none }⟩

/-- A layer that returns the given object from `make_controller`. -/
def making (r : Res (Made ℚ)) : Layer ℚ := ⟨fun _ _ => r, fun _ _ => raise .notImplementedError,
  fun _ _ => .ok ()⟩

/-- `test_execute_validation`: the checks run only with `check_errors=True` -/
example :
    raised ((making (.ok .other)).wrappedMake true .none 1) = some .typeError ∧
    raised ((making (.ok .other)).wrappedMake false .none 1) = none := by decide +kernel

/-- `test_validate_is_controller` -/
example : raised (validateMade (.ctrl (ctrl []))) = none ∧
    raised (validateMade (.other : Made ℚ)) = some .typeError := by decide +kernel

/-- `test_validate_controller_not_empty` -/
example : raised (validateNotEmpty (ctrl [("test", bare (zeros [3, 10]))])) = none ∧
    raised (validateNotEmpty (ctrl [])) = some .runtimeError := by decide +kernel

/-- `test_validate_is_tuple` -/
example : raised (validateIsTuple (.tuple [.value .none, .value .none] : Ret ℚ)) = none ∧
    raised (validateIsTuple (.other : Ret ℚ)) = some .typeError := by decide +kernel

/-- `test_validate_length_two` -/
example : raised (validateLengthTwo [(.value .none : Item ℚ), .value .none]) = none ∧
    raised (validateLengthTwo [(.value .none : Item ℚ), .value .none, .value .none]) =
      some .runtimeError := by decide +kernel

/-- `test_validate_is_novel_controller` -/
example : raised (validateIsNovel (.ctrl (ctrl []))) = none ∧
    raised (validateIsNovel (.given : Item ℚ)) = some .runtimeError := by decide +kernel

/-- The controller of `test_validate_all_act_updates_committed`. -/
def committed : Controller ℚ :=
  ctrl [("test_accumulator_one", bare (zeros [3, 7])), ("test_accumulator_two", bare (zeros [3]))]

/-- `test_validate_all_act_updates_committed` -/
example :
    raised (validateAllCommitted committed) = none ∧
    raised (do
      let c ← committed.cacheUpdate "test_accumulator_one" (bare (ones [3, 7]))
      validateAllCommitted c) = some .runtimeError ∧
    raised (do
      let c ← committed.cacheUpdate "test_accumulator_one" (bare (ones [3, 7]))
      let c ← c.cacheUpdate "test_accumulator_two" (bare (ones [3]))
      validateAllCommitted c) = some .runtimeError := by decide +kernel

/-- `test_make_controller` -/
example : look ((making (.ok (.ctrl (ctrl [("test", bare (zeros [3, 2]))])))).wrappedMake true .none 1)
    (fun m => match m with
      | .ctrl _ => true
      | .other => false) = some true := by decide +kernel

/-- `test_act.py` fails at the pinned commit: the layer's `make_controller` calls
`self.new_builder`. -/
example : raised ((making (.ok .other)).newBuilder [7] none (1/10000) 1) = some .typeError := by
  decide +kernel

end JaxAct.Conformance
