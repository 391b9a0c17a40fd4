import Verif.Model.Layers

/-!
# The loop carry as JAX sees it

`act.py:38-57` registers `ACTMetaData` as a pytree; `act.py:284` puts it in a tuple with the controller
and the user's state.  `Model/Layers` describes what `while_loop` needs of the carry directly
(`Carry.sig`, `Carry.rebuild`) and counts with unbounded integers.  Here are the functions behind it,
and the counter as it is inside the loop: an int32 array.
-/

namespace JaxAct
variable {α β γ : Type}

/-- An `ACTMetaData` object with arbitrary trees in its fields, in declaration order
(`act.py:35-36`). -/
structure RawMeta (β : Type) where
  num_iterations : PyTree β
  max_num_iterations : PyTree β

/-- `dataclasses.asdict(state)`, `act.py:39`. -/
def RawMeta.asDict (m : RawMeta β) : List (String × PyTree β) :=
  [("num_iterations", m.num_iterations), ("max_num_iterations", m.max_num_iterations)]

/-- `ACTMetaData(*values)`, `act.py:56`: `TypeError` unless there are two. -/
def RawMeta.ofValues : List (PyTree β) → Res (RawMeta β)
  | [n, m] => .ok ⟨n, m⟩
  | _ => raise .typeError

/-- `state_flatten`, `act.py:38-48`: children with their keys, and the auxiliary data.  Its loop
(43-47) is word for word that of `states.py:185-191`. -/
def metaFlatten (m : RawMeta β) : List (String × List β) × List TreeDef :=
  ((m.asDict.map Prod.fst).zip (flattenFields m.asDict).1, (flattenFields m.asDict).2)

/-- `state_unflatten`, `act.py:50-56`. -/
def metaUnflatten (aux : List TreeDef) (flat : List (List β)) : Res (RawMeta β) := do
  let values ← unflattenFields flat aux
  RawMeta.ofValues values

/-- The treedef JAX makes of a metadata object, as for a state. -/
structure MetaDef where
  aux : List TreeDef
  lens : List Nat
  deriving DecidableEq

/-- `jax.tree_util.tree_flatten(metadata)`: `act.py:57` registers the two functions. -/
def treeFlattenMeta (m : RawMeta β) : List β × MetaDef :=
  let children := (metaFlatten m).1.map Prod.snd
  (children.flatten, ⟨(metaFlatten m).2, children.map List.length⟩)

/-- `jax.tree_util.tree_unflatten(treedef, leaves)` for the treedef of a metadata object. -/
def treeUnflattenMeta (d : MetaDef) (ls : List β) : Res (RawMeta β) :=
  match cut d.lens ls with
  | some groups => metaUnflatten d.aux groups
  | none => raise .valueError

/-- The carry, a tuple (`act.py:284`), with arbitrary values in the leaf positions. -/
structure RawCarry (β : Type) where
  controller : RawObj β
  state : PyTree β
  metadata : RawMeta β

/-- The treedef of the carry.  The children of the controller are leaves
(`flatten_controller`, `controller.py:446-449`), so their structure is their number. -/
structure CarryDef where
  controllerLen : Nat
  controller : ObjAux
  state : TreeDef
  metadata : MetaDef
  deriving DecidableEq

/-- `jax.tree_util.tree_flatten((controller, state, metadata))` -/
def treeFlattenCarry (x : RawCarry β) : List β × CarryDef :=
  ((flattenObj x.controller).1 ++ (x.state.treeLeaves ++ (treeFlattenMeta x.metadata).1),
    ⟨(flattenObj x.controller).1.length, (flattenObj x.controller).2, x.state.treeStructure,
      (treeFlattenMeta x.metadata).2⟩)

/-- `jax.tree_util.tree_unflatten(treedef, leaves)` for the treedef of a carry: `ValueError` for a wrong
number of leaves. -/
def treeUnflattenCarry (d : CarryDef) (ls : List β) : Res (RawCarry β) :=
  match cut [d.controllerLen, d.state.leaves.length, d.metadata.lens.sum] ls with
  | some [c, s, m] => do
    let controller ← unflattenObj d.controller c
    let state ← PyTree.treeUnflatten d.state s
    let metadata ← treeUnflattenMeta d.metadata m
    pure ⟨controller, state, metadata⟩
  | _ => raise .valueError

/-- A leaf of a carry: a leaf of the controller or the user's state, or a Python integer. -/
inductive CarryAtom (α : Type) where
  | atom (a : Atom α)
  | int (n : Int)

/-- The type JAX gives a leaf; integers are int32. -/
def CarryAtom.aval : CarryAtom α → Option Aval
  | .atom a => a.aval
  | .int _ => some ⟨[], .i32⟩

/-- A function applied to all leaves of a state. -/
def RawState.map (f : β → γ) (s : RawState β) : RawState γ where
  epsilon := s.epsilon.map f
  iterations := s.iterations.map f
  residuals := s.residuals.map f
  probabilities := s.probabilities.map f
  defaults := s.defaults.map f
  accumulators := s.accumulators.map f
  updates := s.updates.map f
  depression_constant := s.depression_constant.map f
  error_mode := s.error_mode.map f

/-- The metadata as a Python object. -/
def ACTMetaData.raw (m : ACTMetaData) : RawMeta (CarryAtom α) :=
  ⟨.leaf (.int m.num_iterations), .leaf (.int m.max_num_iterations)⟩

/-- The carry as a Python object. -/
def Carry.raw (x : Carry α) : RawCarry (CarryAtom α) where
  controller := ⟨.controller, x.controller.state.raw.map .atom⟩
  state := x.state.map fun l => .atom (.leaf l)
  metadata := x.metadata.raw

/-- Tree structure and leaf types, `none` for a leaf that is not an array or number. -/
def Carry.types (x : Carry α) : CarryDef × List (Option Aval) :=
  ((treeFlattenCarry x.raw).2, (treeFlattenCarry x.raw).1.map CarryAtom.aval)

/-! ### The counter as an int32 -/

/-- int32 addition wraps around. -/
def addInt32 (a b : Int) : Int := (a + b).bmod (2 ^ 32)

/-- `increase_counter`, `act.py:32-34`, inside `while_loop`. -/
def ACTMetaData.increaseCounter32 (m : ACTMetaData) : ACTMetaData :=
  ⟨addInt32 m.num_iterations 1, m.max_num_iterations⟩

/-- `run_layer_adapter`, `act.py:205-220`, with an int32 counter. -/
def Layer.adapter32 [Arith α] (l : Layer α) (check : Bool) (x : Carry α) : Res (Carry α) := do
  let update ← l.wrappedRun check x.controller x.state
  let items ← update.unpack
  asCarry x.controller x.metadata.increaseCounter32 items

/-- `execute_act`, `act.py:223-289`, with an int32 counter.  For a `max_iterations` that is not an int32
JAX raises `OverflowError`, which is not modelled. -/
def Layer.ExecuteAct32 [Arith α] (l : Layer α) (s : PyTree (Leaf α)) (depression : α)
    (maxIterations : Int) (check : Bool) (r : Res (Controller α × PyTree (Leaf α))) : Prop :=
  match l.prepare check s depression with
  | .error e => r = .error e
  | .ok c => ∃ q, WhileLoop Carry.sig Carry.rebuild isActNotComplete (l.adapter32 check)
      ⟨c, s, ⟨0, maxIterations⟩⟩ q ∧ r = q.map fun x => (x.controller, x.state)

end JaxAct
