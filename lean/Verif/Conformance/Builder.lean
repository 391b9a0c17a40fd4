import Verif.Conformance.Common
import Verif.Model.Builder

/-!
# `/repo/tests/core/test_builder.py`

`new_builder` raises `TypeError` at the pinned commit (see `error_mode` in `Conformance/Common`), so the
tests that start from it are replayed from the state it would make.
-/

namespace JaxAct.Conformance
open JaxAct.Fixtures

attribute [local instance] Arith.exact

/-- What `new_builder(batch_shape)` is expected to make. -/
def builder (batch : List Nat) : Builder ℚ :=
  ⟨{ epsilon := 1/10000, iterations := zeros batch, residuals := zeros batch,
     probabilities := zeros batch, defaults := [], accumulators := [], updates := [],
     depression_constant := 1, error_mode := none }⟩

/-- `test_new_builder`, fails at the pinned commit. -/
example : raised (Builder.newBuilder (α := ℚ) [10, 20] (some .f16) (3/10) 1) = some .typeError := by
  decide +kernel

/-- `test_new_builder_validation` -/
example :
    raised (Builder.newBuilder (α := ℚ) [3, 3] (some .i32) (1/10000) 1) = some .valueError ∧
    raised (Builder.newBuilder (α := ℚ) [3, 3] none (3/2) 1) = some .valueError ∧
    raised (Builder.newBuilder (α := ℚ) [3, 3] none (-1/10) 1) = some .valueError := by decide +kernel

/-- A dict with the keys of `test_validate_definition_pytree`. -/
def leaves2 (a b : Tensor ℚ) : List (Leaf ℚ) :=
  (PyTree.node (.dict ["leaf1", "leaf2"]) [bare a, bare b]).treeLeaves

/-- `test_validate_definition_pytree` -/
example :
    look (Builder.validateLeaves [3, 2] (leaves2 (zeros [3, 2]) (zeros [3, 2]))) (fun _ => true) =
      some true ∧
    raised (Builder.validateLeaves [3, 2] (leaves2 (zeros [3, 2]) ⟨.i32, Arr.full [3, 2] 0⟩)) =
      some .typeError ∧
    raised (Builder.validateLeaves [3, 2] (leaves2 (zeros [3, 2]) (zeros [2]))) = some .valueError ∧
    raised (Builder.validateLeaves [3, 2] (leaves2 (zeros [3, 2]) (zeros [5, 3]))) =
      some .valueError := by decide +kernel

/-- `test_define_private` -/
example : look ((builder [10]).define "test_accumulator"
      (.node (.dict ["items1", "items2"]) [bare (zeros [10, 1, 2]), bare (ones [10, 2, 1])]))
    (fun b => (contents b.accumulators == contents b.defaults,
      b.updates.map fun kv => (kv.1, kv.2.isNone))) =
    some (true, [("test_accumulator", true)]) := by decide +kernel

/-- `test_define_accumulator_directly`: a valid definition -/
example : look ((builder [3, 3]).defineAccumulatorDirectly "valid_acc"
      (.node (.dict ["matrix", "normalizer"]) [bare (zeros [3, 3, 3]), bare (zeros [3, 3])]))
    (fun b => (b.defaults.mem "valid_acc", b.accumulators.mem "valid_acc")) = some (true, true) := by
  decide +kernel

/-- `test_define_accumulator_directly`: a list of Python ints where a tensor should be -/
example : raised ((builder [3, 3]).defineAccumulatorDirectly "invalid_acc"
      (.node (.dict ["matrix", "normalizer"])
        [.node .list [.node .list [.leaf (.obj "1"), .leaf (.obj "2"), .leaf (.obj "3")]],
          bare (zeros [3, 3])])) = some .typeError := by decide +kernel

/-- A shape: a list of ints. -/
def shape (s : List Nat) : PyTree ShapeItem := .node .list (s.map fun n => .leaf (.int n))

/-- `test_define_accumulator_by_shape` -/
example : look ((builder [3, 3]).defineAccumulatorByShape "valid_acc" (shape [3, 3, 3]) .f32 0)
    (fun b => contents b.accumulators) = some [("valid_acc", [show' (zeros [3, 3, 3])])] := by
  decide +kernel

/-- The same test: a tree of shapes (the leaves are listed in key order) -/
example : look ((builder [3, 3]).defineAccumulatorByShape "tree_acc"
      (.node (.dict ["items1", "item2"]) [shape [3, 3, 4], shape [3, 3, 2, 4]]) .f32 0)
    (fun b => contents b.defaults) =
    some [("tree_acc", [show' (zeros [3, 3, 2, 4]), show' (zeros [3, 3, 4])])] := by decide +kernel

/-- The same test: another dtype -/
example : look ((builder [3, 3]).defineAccumulatorByShape "valid_acc" (shape [3, 3, 3]) .f16 0)
    (fun b => contents b.defaults) =
    some [("valid_acc", [show' ⟨.f16, Arr.full [3, 3, 3] 0⟩])] := by decide +kernel

/-- The same test: not a list of ints -/
example : raised ((builder [3, 3]).defineAccumulatorByShape "invalid_shape"
      (.node (.dict ["matrix"]) [.node .list [.leaf (.int 3), .leaf .other, .leaf (.int 3)]]) .f16 0) =
    some .valueError := by decide +kernel

/-- The same test: a dtype that is not floating -/
example : raised ((builder [3, 3]).defineAccumulatorByShape "invalid_dtype" (shape [3, 3, 3]) .i32 0) =
    some .typeError := by decide +kernel

end JaxAct.Conformance
