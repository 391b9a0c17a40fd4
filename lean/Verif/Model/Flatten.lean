import Verif.Model.Builder
import Verif.Model.Editor
import Verif.Model.Viewer

/-!
# The registered pytree classes

`states.py:182-201`, `controller.py:446-455`, `viewer.py:219-229`, `builder.py:479-489`,
`tensoreditor.py:522-533`.

Python objects are untyped: unflattening with arbitrary values in the leaf positions (tracers, shape
structs, results of `tree_map`) builds an `ACTStates` whose fields are trees of those values.  This
is `RawState`.  `ACTStates.raw` embeds the well typed states.

Simplifications: `dataclasses.asdict` also deep-copies leaves (states.py:183); leaves have no identity
here, so a copy is the leaf itself.
-/

namespace JaxAct
variable {α β γ : Type}

/-- A leaf of a flattened state: a Python float, a leaf of an accumulator, or a string. -/
inductive Atom (α : Type) where
  | float (x : α)
  | leaf (l : Leaf α)
  | str (s : String)

/-- An `ACTStates` object with arbitrary trees in its fields, in declaration order
(`states.py:166-174`). -/
structure RawState (β : Type) where
  epsilon : PyTree β
  iterations : PyTree β
  residuals : PyTree β
  probabilities : PyTree β
  defaults : PyTree β
  accumulators : PyTree β
  updates : PyTree β
  depression_constant : PyTree β
  error_mode : PyTree β

/-- A dict of trees as a tree. -/
def Dict.tree (d : Dict (PyTree (Leaf α))) : PyTree (Atom α) :=
  .node (.dict d.keys) (d.map fun kv => kv.2.map Atom.leaf)

/-- A tensor as a tree. -/
def Tensor.tree (t : Tensor α) : PyTree (Atom α) := .leaf (.leaf (.tensor t))

/-- `error_mode` as a tree: `None` is an empty node, a string is a leaf. -/
def errorModeTree : Option String → PyTree (Atom α)
  | some m => .leaf (.str m)
  | none => .none

/-- A well typed state, seen as a Python object. -/
def ACTStates.raw (s : ACTStates α) : RawState (Atom α) where
  epsilon := .leaf (.float s.epsilon)
  iterations := s.iterations.tree
  residuals := s.residuals.tree
  probabilities := s.probabilities.tree
  defaults := s.defaults.tree
  accumulators := s.accumulators.tree
  updates := s.updates.tree
  depression_constant := .leaf (.float s.depression_constant)
  error_mode := errorModeTree s.error_mode

namespace RawState

/-- `dataclasses.asdict(state)`, used at `states.py:183`: field names and values in declaration
order. -/
def asDict (s : RawState β) : List (String × PyTree β) :=
  [("epsilon", s.epsilon), ("iterations", s.iterations), ("residuals", s.residuals),
   ("probabilities", s.probabilities), ("defaults", s.defaults),
   ("accumulators", s.accumulators), ("updates", s.updates),
   ("depression_constant", s.depression_constant), ("error_mode", s.error_mode)]

/-- `ACTStates(*values)`, `states.py:200`: `TypeError` unless there are nine. -/
def ofValues : List (PyTree β) → Res (RawState β)
  | [e, i, r, p, d, a, u, dc, em] => .ok ⟨e, i, r, p, d, a, u, dc, em⟩
  | _ => raise .typeError

end RawState

/-- The loop of `state_flatten`, `states.py:185-191`. -/
def flattenFields : List (String × PyTree β) → List (List β) × List TreeDef
  | [] => ([], [])
  | (_, v) :: fs =>
    (v.treeLeaves :: (flattenFields fs).1, v.treeStructure :: (flattenFields fs).2)

/-- `state_flatten`, `states.py:182-192`: children with their keys, and the auxiliary data. -/
def stateFlatten (s : RawState β) : List (String × List β) × List TreeDef :=
  ((s.asDict.map Prod.fst).zip (flattenFields s.asDict).1, (flattenFields s.asDict).2)

/-- The loop of `state_unflatten`, `states.py:196-199`: `zip` stops at the shorter list. -/
def unflattenFields : List (List β) → List TreeDef → Res (List (PyTree β))
  | v :: vs, d :: ds => do
    let t ← PyTree.treeUnflatten d v
    let ts ← unflattenFields vs ds
    pure (t :: ts)
  | _, _ => .ok []

/-- `state_unflatten`, `states.py:194-200`. -/
def stateUnflatten (aux : List TreeDef) (flat : List (List β)) : Res (RawState β) := do
  let values ← unflattenFields flat aux
  RawState.ofValues values

/-- The treedef JAX makes of a state: the class's auxiliary data, and the children's structures.  A
child is a list of leaves (`states.py:190`), so its structure is its length. -/
structure StateDef where
  aux : List TreeDef
  lens : List Nat
  deriving DecidableEq

/-- Cut a list of leaves into groups of given sizes; `none` unless it fits exactly. -/
def cut : List Nat → List β → Option (List (List β))
  | [], [] => some []
  | [], _ :: _ => none
  | n :: ns, ls =>
    if n ≤ ls.length then
      match cut ns (ls.drop n) with
      | some gs => some (ls.take n :: gs)
      | none => none
    else none

/-- `jax.tree_util.tree_flatten(state)`: the keys of `register_pytree_with_keys` (`states.py:201`) are
dropped and the children flattened in turn. -/
def treeFlattenState (s : RawState β) : List β × StateDef :=
  let children := (stateFlatten s).1.map Prod.snd
  (children.flatten, ⟨(stateFlatten s).2, children.map List.length⟩)

/-- `jax.tree_util.tree_unflatten(treedef, leaves)` for the treedef of a state: `ValueError` for a
wrong number of leaves. -/
def treeUnflattenState (d : StateDef) (ls : List β) : Res (RawState β) :=
  match cut d.lens ls with
  | some groups => stateUnflatten d.aux groups
  | none => raise .valueError

/-- The classes that wrap a state. -/
inductive ObjClass where
  | controller
  | builder
  | viewer
  | editor (errorMode : String)
  deriving DecidableEq

/-- An instance of one of them, with an arbitrary state. -/
structure RawObj (β : Type) where
  cls : ObjClass
  state : RawState β

/-- A controller as a Python object. -/
def Controller.raw (c : Controller α) : RawObj (Atom α) := ⟨.controller, c.state.raw⟩
/-- A builder as a Python object. -/
def Builder.raw (b : Builder α) : RawObj (Atom α) := ⟨.builder, b.state.raw⟩
/-- A viewer as a Python object. -/
def Viewer.raw (v : Viewer α) : RawObj (Atom α) := ⟨.viewer, v.state.raw⟩
/-- An editor as a Python object. -/
def Editor.raw (e : Editor α) : RawObj (Atom α) := ⟨.editor e.errorMode, e.state.raw⟩

/-- Auxiliary data of the four classes: a state treedef, for the editor with its error mode. -/
inductive ObjAux where
  | controller (d : StateDef)
  | builder (d : StateDef)
  | viewer (d : StateDef)
  | editor (errorMode : String) (d : StateDef)
  deriving DecidableEq

/-- `flatten_controller` (`controller.py:446-449`), `flatten_builder` (`builder.py:479-482`),
`flatten_viewer` (`viewer.py:219-222`) and `flatten_editor` (`tensoreditor.py:522-526`), chosen by the
class of the object. -/
def flattenObj (o : RawObj β) : List β × ObjAux :=
  let (flat, d) := treeFlattenState o.state
  match o.cls with
  | .controller => (flat, .controller d)
  | .builder => (flat, .builder d)
  | .viewer => (flat, .viewer d)
  | .editor m => (flat, .editor m d)

/-- `unflatten_controller` (`controller.py:451-453`), `unflatten_builder` (`builder.py:484-486`),
`unflatten_viewer` (`viewer.py:224-226`) and `unflatten_editor` (`tensoreditor.py:528-531`).  None of
the constructors looks at the state, and the editor's does not check the mode
(`tensoreditor.py:506-520`). -/
def unflattenObj : ObjAux → List β → Res (RawObj β)
  | .controller d, flat => do
    let state ← treeUnflattenState d flat
    pure ⟨.controller, state⟩
  | .builder d, flat => do
    let state ← treeUnflattenState d flat
    pure ⟨.builder, state⟩
  | .viewer d, flat => do
    let state ← treeUnflattenState d flat
    pure ⟨.viewer, state⟩
  | .editor m d, flat => do
    let state ← treeUnflattenState d flat
    pure ⟨.editor m, state⟩

/-- A dict of trees with the keys in order, at every depth: what flattening and unflattening it
gives back. -/
def Dict.sorted (d : Dict (PyTree (Leaf α))) : Dict (PyTree (Leaf α)) :=
  PyTree.sortKV (d.map fun kv => (kv.1, kv.2.canon))

/-- The state with its dicts in key order: what flattening and unflattening it gives back
(`treeUnflattenState_roundtrip`, `ACTStates.raw_canon` in `Lemmas/Flatten`). -/
def ACTStates.sorted (s : ACTStates α) : ACTStates α :=
  { s with defaults := s.defaults.sorted, accumulators := s.accumulators.sorted
           updates := s.updates.sorted }

end JaxAct
