import Verif.Conformance.Common
import Verif.Model.Editor

/-! # `/repo/tests/core/test_editor.py` -/

namespace JaxAct.Conformance
open JaxAct.Fixtures

attribute [local instance] Arith.exact

/-- `TensorEditor.edit_save(state, "standard")` -/
def editor (s : ACTStates ℚ) : Editor ℚ := ⟨s, "standard"⟩

/-- A dict with two entries. -/
def dict2 (a b : String) (x y : PyTree (Leaf ℚ)) : PyTree (Leaf ℚ) := .node (.dict [a, b]) [x, y]

/-- `test_validate_set_shape` -/
example : Editor.sameShape (zeros [10, 5]) (ones [10, 5]) = true ∧
    Editor.sameShape (zeros [10, 5]) (zeros [7, 5]) = false := by decide +kernel

/-- `test_validate_dtype` -/
example : Editor.sameDtype (zeros [10, 5]) (zeros [10, 5]) = true ∧
    Editor.sameDtype (zeros [10, 5]) ⟨.f16, (zeros [10, 5]).arr⟩ = false := by decide +kernel

/-- `test_validate_probabilities` -/
example : Editor.isProbability (vec [0, 1, 3/10]) = true ∧
    Editor.isProbability (vec [-1/10, 3/10, 2/5]) = false ∧
    Editor.isProbability (vec [13/10, 3/10, 2/5]) = false := by decide +kernel

/-- `test_validate_is_natural_numbers` -/
example : Editor.isNatural (ivec [0, 1, 2, 3, 5]) = true ∧
    Editor.isNatural (ivec [-1, 2, 4]) = false := by decide +kernel

/-- `test_validate_pytree_structure`: an entry `None` counts as the leaf it replaces -/
example :
    Utils.arePytreeStructureEqual (PyTree.node (.dict ["item"]) [bare (zeros [3, 5])])
      (PyTree.node (.dict ["item"]) [(.none : PyTree (Leaf ℚ))]) = true ∧
    Utils.arePytreeStructureEqual (PyTree.node (.dict ["item"]) [bare (zeros [3, 5])])
      (dict2 "item" "baby" .none .none) = false := by decide +kernel

/-- `test_validate_pytree_leaves` -/
example :
    let tree (t : Tensor ℚ) := (dict2 "item1" "item2" (bare t) (bare t)).treeLeaves
    look (Editor.leavesCompatible (tree (zeros [3, 2, 5])) (tree (zeros [3, 2, 5]))) id = some true ∧
    look (Editor.leavesCompatible (tree (zeros [3, 2, 5])) (tree (zeros [3, 2, 7]))) id = some false ∧
    look (Editor.leavesCompatible (tree (zeros [3, 2, 5]))
      (tree ⟨.f16, (zeros [3, 2, 5]).arr⟩)) id = some false := by decide +kernel

/-- `test_set_probabilities` -/
example :
    look ((editor mock).setProbabilities (ones [3])) (fun e => show' e.probabilities) =
      some (show' (ones [3])) ∧
    raised ((editor mock).setProbabilities (vec [11/10, 11/10, 11/10])) = some .jaxRuntimeError ∧
    raised ((editor mock).setProbabilities (ones [4, 4])) = some .jaxRuntimeError ∧
    raised ((editor mock).setProbabilities ⟨.i32, Arr.full [3, 3] 1⟩) = some .jaxRuntimeError := by
  decide +kernel

/-- `test_set_residuals` -/
example :
    look ((editor mock).setResiduals (ones [3])) (fun e => show' e.residuals) =
      some (show' (ones [3])) ∧
    raised ((editor mock).setResiduals (ones [4, 4])) = some .jaxRuntimeError ∧
    raised ((editor mock).setResiduals ⟨.i32, Arr.full [3] 1⟩) = some .jaxRuntimeError ∧
    raised ((editor mock).setResiduals (vec [11/10, 11/10, 11/10])) = some .jaxRuntimeError ∧
    raised ((editor mock).setResiduals (vec [-1/10, -1/10, -1/10])) = some .jaxRuntimeError := by
  decide +kernel

/-- `test_set_iterations` -/
example :
    look ((editor mock).setIterations (ivec [1, 2, 3])) (fun e => show' e.iterations) =
      some (show' (ivec [1, 2, 3])) ∧
    raised ((editor mock).setIterations ⟨.i32, Arr.full [3, 2] 1⟩) = some .jaxRuntimeError ∧
    raised ((editor mock).setIterations (vec [1, 2, 3])) = some .jaxRuntimeError ∧
    raised ((editor mock).setIterations (ivec [-1, 2, 3])) = some .jaxRuntimeError := by
  decide +kernel

/-- `test_set_epsilon` -/
example :
    look ((editor mock).setEpsilon (1/2)) (·.state.epsilon) = some (1/2) ∧
    raised ((editor mock).setEpsilon (-1/10)) = some .jaxRuntimeError ∧
    raised ((editor mock).setEpsilon (11/10)) = some .jaxRuntimeError := by decide +kernel

/-- The tree of `test_set_accumulator`, `test_set_defaults` and `test_set_updates`: a matrix and a
normalizer. -/
def acc (x y : Tensor ℚ) : PyTree (Leaf ℚ) := dict2 "matrix" "normalizer" (bare x) (bare y)

/-- The state of these tests. -/
def accState : ACTStates ℚ :=
  { mock with
    accumulators := [("test_acc", acc (zeros [3, 3, 3]) (zeros [3, 3]))]
    defaults := [("test_acc", acc (zeros [3, 3, 3]) (zeros [3, 3]))]
    updates := [("test_acc", acc (zeros [3, 3, 3]) (zeros [3, 3]))] }

/-- `test_set_accumulator` -/
example :
    look ((editor accState).setAccumulator "test_acc" (acc (ones [3, 3, 3]) (ones [3, 3])))
      (fun e => contents e.accumulators) =
      some [("test_acc", [show' (ones [3, 3, 3]), show' (ones [3, 3])])] ∧
    raised ((editor accState).setAccumulator "non_existing_acc" (acc (ones [3, 3, 3]) (ones [3, 3]))) =
      some .jaxRuntimeError ∧
    raised ((editor accState).setAccumulator "test_acc" (acc (ones [4, 4, 4]) (ones [3, 3]))) =
      some .jaxRuntimeError := by decide +kernel

/-- `test_set_defaults` -/
example :
    look ((editor accState).setDefaults "test_acc" (acc (ones [3, 3, 3]) (ones [3, 3])))
      (fun e => contents e.defaults) =
      some [("test_acc", [show' (ones [3, 3, 3]), show' (ones [3, 3])])] ∧
    raised ((editor accState).setDefaults "non_existing_acc" (acc (ones [3, 3, 3]) (ones [3, 3]))) =
      some .jaxRuntimeError ∧
    raised ((editor accState).setDefaults "test_acc" (acc (ones [4, 4, 4]) (ones [3, 3]))) =
      some .jaxRuntimeError := by decide +kernel

/-- `test_set_updates` -/
example :
    look ((editor accState).setUpdates "test_acc" (acc (ones [3, 3, 3]) (ones [3, 3])))
      (fun e => contents e.updates) =
      some [("test_acc", [show' (ones [3, 3, 3]), show' (ones [3, 3])])] ∧
    look ((editor accState).setUpdates "test_acc" .none)
      (fun e => e.updates.map fun kv => kv.2.isNone) = some [true] ∧
    raised ((editor accState).setUpdates "non_existing_acc" .none) = some .jaxRuntimeError ∧
    raised ((editor accState).setUpdates "test_acc" (acc (ones [4, 4, 4]) (ones [3, 3]))) =
      some .jaxRuntimeError := by decide +kernel

/-- `test_moderate_edit` -/
example : look (do
      let e ← Editor.editSave mock "standard"
      let e ← e.setProbabilities (ones [3])
      let e ← e.setAccumulator "output" (bare (ones [3, 3]))
      let e ← e.setUpdates "output" (bare (ones [3, 3]))
      pure e.save) (fun s => show' s.probabilities) = some (show' (ones [3])) := by decide +kernel

end JaxAct.Conformance
