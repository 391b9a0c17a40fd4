import Verif.Basic.Tensor
import Verif.Basic.PyTree

/-!
# Model of `/repo/src/jax_act/core/utils.py`

`format_error_message` (13-25) is in `Model/Text`, `jit_and_checkify` (27-41) in
`Model/Checkify`.
-/

namespace JaxAct.Utils

variable {α β γ δ : Type}

/-- The loop of `can_right_broadcast`, `utils.py:71-77`. -/
def canBroadcastLoop : List (Nat × Nat) → Bool
  | [] => true
  | (a, b) :: r =>
    if a = 1 ∨ b = 1 then canBroadcastLoop r
    else if a = b then canBroadcastLoop r
    else false

/-- `s[-n:]` for `0 < n`. -/
def lastN (n : Nat) (s : List Nat) : List Nat := s.drop (s.length - n)

/-- `can_right_broadcast`, `utils.py:43-77`, on the shapes of the two arrays. -/
def canRightBroadcast (a b : List Nat) : Bool :=
  let overlap := min a.length b.length
  if overlap = 0 then true
  else canBroadcastLoop ((lastN overlap a).zip (lastN overlap b))

/-- `jax.tree_util.treedef_is_leaf(d)`: the treedef has a single node.  `None` and empty
containers count. -/
def treedefIsLeaf : TreeDef → Bool
  | .leaf _ => true
  | .none => true
  | .node _ cs => cs.isEmpty

/-- `_is_empty_collection`, `utils.py:321-328`: `node_data()` is a tuple for everything but a
proper leaf, for which it is `None`. -/
def isEmptyCollection : TreeDef → Bool
  | .leaf _ => false
  | _ => true

mutual
/-- `_count_linked_leaves`, `utils.py:329-358`. -/
def countLinkedLeaves (d : TreeDef) : Nat :=
  if treedefIsLeaf d then
    if isEmptyCollection d then 0 else 1
  else match d with
    | .node _ cs => countLinkedLeavesL cs
    | _ => 0
/-- The summation loop, `utils.py:354-358`. -/
def countLinkedLeavesL : List TreeDef → Nat
  | [] => 0
  | c :: cs => countLinkedLeaves c + countLinkedLeavesL cs
end

/-- The key comparison loop, `utils.py:416-430`. -/
def keysMatch {κ : Type} [DecidableEq κ] : List (κ × κ) → Bool
  | [] => true
  | (a, b) :: r => if a ≠ b then false else keysMatch r

/-- `_validate_children_descent`, `utils.py:360-430`, on two container nodes. -/
def validateChildrenDescent (k : Kind) (cs : List TreeDef) (k' : Kind) (cs' : List TreeDef) :
    Res Unit :=
  if k.cls ≠ k'.cls then raise .runtimeError
  else if cs.length ≠ cs'.length then raise .runtimeError
  else match k, k' with
    | .dict ks, .dict ks' => if keysMatch (ks.zip ks') then .ok () else raise .runtimeError
    | _, _ => .ok ()

mutual
/-- `_replicate_leaves`, `utils.py:435-543`.  The result is the replicated leaves and what is left
of the queue.  `source_leaves_queue.pop(0)` raises `IndexError` on an empty queue.  The last branch
is never taken: what is not a leaf is a container. -/
def replicateLeaves (source target : TreeDef) (q : List β) : Res (List β × List β) :=
  if treedefIsLeaf source then
    if isEmptyCollection source then .ok ([], q)
    else match q with
      | [] => raise .indexError
      | x :: q' => .ok (List.replicate (countLinkedLeaves target) x, q')
  else if treedefIsLeaf target then raise .runtimeError
  else match source, target with
    | .node k cs, .node k' cs' =>
      match validateChildrenDescent k cs k' cs' with
      | .error e => .error e
      | .ok () => replicateLeavesL cs cs' q
    | _, _ => raise .runtimeError
/-- The loop over the children, `utils.py:525-543`; any exception becomes `RuntimeError`. -/
def replicateLeavesL : List TreeDef → List TreeDef → List β → Res (List β × List β)
  | c :: cs, c' :: cs', q =>
    match wrapRuntime (replicateLeaves c c' q) with
    | .error e => .error e
    | .ok (out, q') =>
      match replicateLeavesL cs cs' q' with
      | .error e => .error e
      | .ok (out', q'') => .ok (out ++ out', q'')
  | _, _, q => .ok ([], q)
end

/-- `broadcast_pytree_shape`, `utils.py:79-135`. -/
def broadcastPytreeShape (source target : PyTree β) : Res (PyTree β) := do
  let (finalLeaves, remainder) ←
    replicateLeaves source.treeStructure target.treeStructure source.treeLeaves
  if finalLeaves.length ≠ target.treeLeaves.length then raise .assertionError
  else if remainder.length ≠ 0 then raise .assertionError
  else PyTree.treeUnflatten target.treeStructure finalLeaves

/-- The `while` loop of `setup_left_broadcast`, `utils.py:223-224`; `n` is the number of axes still
missing. -/
def leftBroadcastLoop : Nat → Arr β → Arr β
  | 0, t => t
  | n + 1, t => leftBroadcastLoop n t.expandLast

/-- `setup_left_broadcast`, `utils.py:205-225`.  `target` is `target.shape`, or `none` if the target
object has no attribute `shape`. -/
def setupLeftBroadcast (t : Arr β) (target : Option (List Nat)) : Res (Arr β) :=
  if t.ndim = 0 then .ok t
  else match target with
    | none => raise .attributeError
    | some s =>
      if t.shape.length ≤ s.length then .ok (leftBroadcastLoop (s.length - t.shape.length) t)
      else raise .assertionError

/-- `setup_left_broadcast` on a tensor. -/
def setupLeftBroadcastT (t : Tensor α) (target : Option (List Nat)) : Res (Tensor α) := do
  let a ← setupLeftBroadcast t.arr target
  pure ⟨t.dtype, a⟩

/-- The loop of `merge_pytrees`, `utils.py:261-264`. -/
def mergeLoop (f : β → γ → Res δ) : List β → List γ → Res (List δ)
  | a :: as, b :: bs => do
    let x ← f a b
    let xs ← mergeLoop f as bs
    pure (x :: xs)
  | _, _ => .ok []

/-- `merge_pytrees`, `utils.py:228-266`. -/
def mergePytrees (f : β → γ → Res δ) (primary : PyTree β) (aux : PyTree γ) : Res (PyTree δ) := do
  let ps := primary.treeLeaves
  let as := aux.treeLeaves
  if ps.length ≠ as.length then raise .assertionError
  else
    let ls ← mergeLoop f ps as
    PyTree.treeUnflatten primary.treeStructure ls

/-- `jax.tree_util.tree_map(lambda x: None, t)`: every leaf becomes `None`. -/
def nullLeaves : PyTree β → PyTree Unit := fun t => go t.canon
where
  /-- replace leaves by `None` -/
  go : PyTree β → PyTree Unit
    | .leaf _ => .none
    | .none => .none
    | .node k cs => .node k (goL cs)
  /-- `go` on children -/
  goL : List (PyTree β) → List (PyTree Unit)
    | [] => []
    | c :: cs => go c :: goL cs

/-- `are_pytree_structure_equal`, `utils.py:269-289`. -/
def arePytreeStructureEqual (one : PyTree β) (two : PyTree γ) : Bool :=
  decide ((nullLeaves one).treeStructure = (nullLeaves two).treeStructure)

/-- The nested `are_leaves_equal`, `utils.py:300-309`.  `close` is the entrywise test (that of
`jnp.allclose`, or equality with `use_allclose=False`); both broadcast the two arrays, which raises
for incompatible shapes. -/
def areLeavesEqual (close : α → α → Bool) : Leaf α → Leaf α → Res Bool
  | .tensor a, .tensor b =>
    match Arr.bmap2 close a.arr b.arr with
    | some r => .ok (r.all id)
    | none => .error (Arr.bErr a.shape b.shape)
  | .obj a, .obj b => .ok (decide (a = b))
  | _, _ => .ok false

/-- `are_pytrees_equal`, `utils.py:292-313`. -/
def arePytreesEqual (close : α → α → Bool) (one two : PyTree (Leaf α)) : Res Bool := do
  let r ← mergePytrees (areLeavesEqual close) one two
  pure (r.treeLeaves.all id)

/-- The rank alignment and operator call for one pair of leaves, `utils.py:187-191`. -/
def applyLeftBroadcast (op : Tensor α → Tensor α → Res (Tensor α)) (a b : Leaf α) :
    Res (Leaf α) := do
  let a ← a.asTensor
  let b ← b.asTensor
  let r ←
    if a.shape.length > b.shape.length then do
      let b ← setupLeftBroadcastT b (some a.shape)
      op a b
    else if a.shape.length < b.shape.length then do
      let a ← setupLeftBroadcastT a (some b.shape)
      op a b
    else op a b
  pure (.tensor r)

/-- The loop of `execute_binary_operator`, `utils.py:179-200`. -/
def binaryLoop (op : Tensor α → Tensor α → Res (Tensor α)) :
    List (Leaf α) → List (Leaf α) → Res (List (Leaf α))
  | a :: as, b :: bs =>
    match wrapRuntime (applyLeftBroadcast op a b) with
    | .error e => .error e
    | .ok x => do
      let xs ← binaryLoop op as bs
      pure (x :: xs)
  | _, _ => .ok []

/-- The tree alignment of `execute_binary_operator`, `utils.py:157-173`: broadcast `a` to `b`; if
that raises `RuntimeError`, broadcast `b` to `a`; anything else that goes wrong is `RuntimeError`. -/
def alignOperands (a b : PyTree β) : Res (PyTree β × PyTree β) :=
  wrapRuntime <|
    match broadcastPytreeShape a b with
    | .ok a' => .ok (a', b)
    | .error .runtimeError =>
      match broadcastPytreeShape b a with
      | .ok b' => .ok (a, b')
      | .error e => .error e
    | .error e => .error e

/-- `execute_binary_operator`, `utils.py:138-202`. -/
def executeBinaryOperator (op : Tensor α → Tensor α → Res (Tensor α)) (a b : PyTree (Leaf α)) :
    Res (PyTree (Leaf α)) := do
  let (a, b) ← alignOperands a b
  let out ← binaryLoop op a.treeLeaves b.treeLeaves
  PyTree.treeUnflatten a.treeStructure out

end JaxAct.Utils
