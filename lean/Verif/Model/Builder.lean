import Verif.Model.Controller

/-!
# Model of `/repo/src/jax_act/core/builder.py`

The `warnings.warn` call of `define_accumulator_by_shape` (355-356) has no effect on the result
and is not represented.
-/

namespace JaxAct

/-- `ControllerBuilder` -/
structure Builder (α : Type) where
  state : ACTStates α

/-- An element found in a tree of shapes: an int, or anything else that is not a container. -/
inductive ShapeItem where
  | int (n : Nat)
  | other
  deriving DecidableEq, Repr

/-- A leaf produced by flattening a tree of shapes with `is_leaf`: a list of ints, or something
that is not one. -/
inductive ShapeLeaf where
  | shape (s : List Nat)
  | bad
  deriving DecidableEq, Repr

namespace Builder
variable {α : Type} [Arith α]

/-- `epsilon`, `builder.py:135-137` -/
def epsilon (b : Builder α) : α := b.state.epsilon
/-- `probabilities`, `builder.py:138-140` -/
def probabilities (b : Builder α) : Tensor α := b.state.probabilities
/-- `residuals`, `builder.py:142-144` -/
def residuals (b : Builder α) : Tensor α := b.state.residuals
/-- `iterations`, `builder.py:146-148` -/
def iterations (b : Builder α) : Tensor α := b.state.iterations
/-- `defaults`, `builder.py:150-152` -/
def defaults (b : Builder α) : Dict (PyTree (Leaf α)) := b.state.defaults
/-- `accumulators`, `builder.py:154-156` -/
def accumulators (b : Builder α) : Dict (PyTree (Leaf α)) := b.state.accumulators
/-- `updates`, `builder.py:158-160` -/
def updates (b : Builder α) : Dict (PyTree (Leaf α)) := b.state.updates

/-- `_validate_definition_pytree`, `builder.py:167-222`, on the list of leaves.
`jnp.issubdtype(leaf, jnp.floating)` raises `TypeError` for an object that is not an array
(simplification: an object `np.dtype` accepts, such as the string "float32", is not considered). -/
def validateLeaves (batch : List Nat) : List (Leaf α) → Res Unit
  | [] => .ok ()
  | .obj _ :: _ => raise .typeError
  | .tensor t :: rest =>
    if ¬ t.dtype.isFloating then raise .typeError
    else if batch.length > t.shape.length then raise .valueError
    else if t.shape.take batch.length ≠ batch then raise .valueError
    else validateLeaves batch rest

/-- `_define`, `builder.py:224-253`. -/
def define (b : Builder α) (name : String) (definition : PyTree (Leaf α)) : Res (Builder α) := do
  validateLeaves b.state.probabilities.shape definition.treeLeaves
  let defaults := b.state.defaults.set name definition
  let accumulators := b.state.accumulators.set name definition
  let updates := b.state.updates.set name .none
  let state ← b.state.replace (defaults := some defaults) (accumulators := some accumulators)
    (updates := some updates)
  pure ⟨state⟩

/-- `_delete_definition`, `builder.py:255-275`. -/
def deleteDefinition (b : Builder α) (name : String) : Res (Builder α) := do
  let defaults ← b.state.defaults.pop name
  let accumulators ← b.state.accumulators.pop name
  let updates ← b.state.updates.pop name
  let state ← b.state.replace (defaults := some defaults) (accumulators := some accumulators)
    (updates := some updates)
  pure ⟨state⟩

/-- `define_accumulator_directly`, `builder.py:277-312`. -/
def defineAccumulatorDirectly (b : Builder α) (name : String) (definition : PyTree (Leaf α)) :
    Res (Builder α) := b.define name definition

/-- The ints of a list node all of whose items are ints (`is_leaf`, `builder.py:372-381`). -/
def allInts : List (PyTree ShapeItem) → Option (List Nat)
  | [] => some []
  | .leaf (.int n) :: r => (allInts r).map (n :: ·)
  | _ :: _ => none

mutual
/-- `tree_flatten_with_path(shapes, is_leaf)`, `builder.py:385`: list-of-int nodes become leaves;
what is at a leaf position without being a list of ints is `bad`. -/
def collapseShapes : PyTree ShapeItem → PyTree ShapeLeaf
  | .leaf _ => .leaf .bad
  | .none => .none
  | .node .list cs =>
    match allInts cs with
    | some s => .leaf (.shape s)
    | none => .node .list (collapseShapesL cs)
  | .node k cs => .node k (collapseShapesL cs)
/-- `collapseShapes` on children. -/
def collapseShapesL : List (PyTree ShapeItem) → List (PyTree ShapeLeaf)
  | [] => []
  | c :: cs => collapseShapes c :: collapseShapesL cs
end

/-- The loop body, `builder.py:387-404`. -/
def shapeToTensor (dtype : DType) (fill : α) : ShapeLeaf → Res (Leaf α)
  | .bad => raise .valueError
  | .shape s => .ok (.tensor (Tensor.full s dtype fill))

/-- `define_accumulator_by_shape`, `builder.py:314-407`.  Shapes are lists of non-negative ints.
`isinstance(True, int)` holds in Python; a bool in a shape is not considered. -/
def defineAccumulatorByShape (b : Builder α) (name : String) (shapes : PyTree ShapeItem)
    (dtype : DType) (fill : α) : Res (Builder α) := do
  let definition ← (collapseShapes shapes).treeMap (shapeToTensor dtype fill)
  b.define name definition

/-- `core_dtype is not None and not jnp.issubdtype(core_dtype, jnp.floating)`, `builder.py:429`. -/
def badCoreDtype : Option DType → Bool
  | some d => !d.isFloating
  | none => false

/-- `new_builder`, `builder.py:411-457`.  A batch shape given as an int `n` is `[n]`.  The constructor call 446-455 passes every field except
`error_mode`. -/
def newBuilder (batchShape : List Nat) (coreDtype : Option DType) (epsilon depression : α) :
    Res (Builder α) :=
  if badCoreDtype coreDtype then raise .valueError
  else if Arith.le Arith.one epsilon || Arith.le epsilon Arith.zero then raise .valueError
  else do
    let d := coreDtype.getD .f32
    let state ← ACTStates.new
      { epsilon := some epsilon
        probabilities := some (Tensor.zeros batchShape d)
        iterations := some (Tensor.zeros batchShape d)
        residuals := some (Tensor.zeros batchShape d)
        accumulators := some []
        defaults := some []
        updates := some []
        depression_constant := some depression }
    pure ⟨state⟩

/-- `build`, `builder.py:459-464`. -/
def build (b : Builder α) : Controller α := ⟨b.state⟩

end Builder
end JaxAct
