import Verif.Conformance.Common
import Verif.Model.Utils

/-!
# `/repo/tests/core/test_utilities.py`

The two tests of `execute_unitary_operation` use a class the test file does not import, and a
method that does not exist.
-/

namespace JaxAct.Conformance
open JaxAct.Fixtures

attribute [local instance] Arith.exact

/-- A dict. -/
def dict {β : Type} (kvs : List (String × PyTree β)) : PyTree β :=
  .node (.dict (kvs.map Prod.fst)) (kvs.map Prod.snd)

/-- A list. -/
def list {β : Type} (cs : List (PyTree β)) : PyTree β := .node .list cs

/-- A leaf that is a number. -/
def num (n : Nat) : PyTree Nat := .leaf n

/-- `test_setup_left_broadcast` -/
example :
    look (Utils.setupLeftBroadcastT (ones [2, 5]) (some [2, 5])) (·.shape) = some [2, 5] ∧
    look (Utils.setupLeftBroadcastT (ones [2, 5]) (some [2, 5, 6, 8])) (·.shape) = some [2, 5, 1, 1] ∧
    raised (Utils.setupLeftBroadcastT (ones [2, 5]) (some [2])) = some .assertionError := by
  decide +kernel

/-- `test_are_pytree_structure_equal` -/
example :
    let tree := dict [("item1", num 1), ("item2", num 2), ("item3", list [num 3, num 4])]
    let tree2 : PyTree Nat := dict [("item1", .none), ("item2", .none), ("item3", list [.none, .none])]
    let tree3 : PyTree Nat := dict []
    Utils.arePytreeStructureEqual tree tree = true ∧
    Utils.arePytreeStructureEqual tree tree2 = true ∧
    Utils.arePytreeStructureEqual tree tree3 = false := by decide +kernel

/-- The subtraction of `test_merge_pytrees`. -/
def subLeaf (a b : Leaf ℚ) : Res (Leaf ℚ) := do
  let a ← a.asTensor
  let b ← b.asTensor
  let r ← Tensor.binop Arith.sub a b
  pure (.tensor r)

/-- `test_merge_pytrees` -/
example :
    let t := bare (vec [0, 1, 6/5, 1/10])
    let u := bare (vec [2, 1, 1/5, 1/10])
    let e := show' (vec [-2, 0, 1, 0])
    look (Utils.mergePytrees subLeaf t u) tensors = some [e] ∧
    look (Utils.mergePytrees subLeaf
      (dict [("item", t), ("item2", t), ("item3", list [t, t])])
      (dict [("item", u), ("item2", u), ("item3", list [u, u])])) tensors = some [e, e, e, e] := by
  decide +kernel

/-- `test_count_linked_leaves` -/
example :
    Utils.countLinkedLeaves (list ([] : List (PyTree Nat))).treeStructure = 0 ∧
    Utils.countLinkedLeaves (list [num 3]).treeStructure = 1 ∧
    Utils.countLinkedLeaves (list [num 3, dict [("1", num 1), ("2", num 2)], list []]).treeStructure =
      3 := by decide +kernel

/-- `execute_replicate_adapter` -/
def replicate (source target : PyTree Nat) : Res (List Nat × List Nat) :=
  Utils.replicateLeaves source.treeStructure target.treeStructure source.treeLeaves

/-- `test_replicate_leaves` -/
example :
    look (replicate (num 7) (num 0)) id = some ([7], []) ∧
    look (replicate (num 7) (dict [("item", list [num 0, num 0]), ("item2", num 0)])) id =
      some ([7, 7, 7], []) ∧
    look (replicate (dict [("branch1", num 7), ("branch2", num 8)])
      (dict [("branch1", list [num 0, num 0]), ("branch2", list [num 0])])) id =
      some ([7, 7, 8], []) := by decide +kernel

/-- `test_replicate_raises` -/
example :
    raised (replicate (dict [("item1", num 1), ("item2", num 2)])
      (dict [("item2", num 1), ("item3", list [num 3, num 5])])) = some .runtimeError ∧
    raised (replicate (list [num 1, num 2, num 3]) (list [num 1, num 2])) = some .runtimeError ∧
    raised (replicate (list [num 1, num 2, num 3])
      (dict [("1", num 1), ("2", num 2), ("3", num 3)])) = some .runtimeError := by decide +kernel

/-- `test_broadcast_setup_pytree` -/
example :
    look (Utils.broadcastPytreeShape (num 2)
      (dict [("item1", list [num 0, num 0]), ("item2", num 0)])) (·.treeLeaves) =
      some [2, 2, 2] ∧
    look (Utils.broadcastPytreeShape (dict [("item1", num 3), ("item2", num 5)])
      (dict [("item1", num 0), ("item2", list [num 0, num 0])])) (·.treeLeaves) =
      some [3, 5, 5] := by decide +kernel

/-- `test_execute_binary_operator_simple` -/
example :
    look (Utils.executeBinaryOperator (Tensor.binop Arith.add) (bare (ones [3])) (bare (ones [3, 7])))
      tensors = some [show' ⟨.f32, Arr.full [3, 7] 2⟩] ∧
    look (Utils.executeBinaryOperator (Tensor.binop Arith.add) (bare (ones [3, 7])) (bare (ones [3])))
      tensors = some [show' ⟨.f32, Arr.full [3, 7] 2⟩] := by decide +kernel

/-- `test_execute_binary_operator_with_pytree` -/
example :
    let tree := dict [("item1", bare (ones [3, 5])), ("item2", bare (ones [3, 7]))]
    look (Utils.executeBinaryOperator (Tensor.binop Arith.add) (bare (ones [3])) tree) tensors =
      some [show' ⟨.f32, Arr.full [3, 5] 2⟩, show' ⟨.f32, Arr.full [3, 7] 2⟩] ∧
    look (Utils.executeBinaryOperator (Tensor.binop Arith.add) tree (bare (ones [3]))) tensors =
      some [show' ⟨.f32, Arr.full [3, 5] 2⟩, show' ⟨.f32, Arr.full [3, 7] 2⟩] := by decide +kernel

/-- `test_execute_binary_operator_noncommutive` -/
example :
    look (Utils.executeBinaryOperator (Tensor.binop Arith.sub) (bare ⟨.f32, Arr.full [3] 2⟩)
      (bare (ones [3, 5]))) tensors = some [show' (ones [3, 5])] := by decide +kernel

/-- `test_execute_binary_operator_raises_utility_wrapper` -/
example : raised (Utils.executeBinaryOperator (Tensor.binop Arith.add)
    (dict [("item1", bare (ones [3]))]) (dict [("item2", bare (ones [4]))])) =
    some .runtimeError := by decide +kernel

/-- `test_execute_binary_operator_raises_bad_operator`: a function of one argument raises
`TypeError` when called with two. -/
example : raised (Utils.executeBinaryOperator (fun _ _ => raise .typeError)
    (bare (ones [3, 4])) (bare (ones [2, 7]))) = some .runtimeError := by decide +kernel

end JaxAct.Conformance
