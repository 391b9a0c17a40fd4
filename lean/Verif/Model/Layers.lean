import Verif.Basic.WhileLoop
import Verif.Model.Flatten

/-!
# Model of `/repo/src/jax_act/layers/act.py`, `layers/core.py` and `frameworks/flax.py`

A user's layer is three arbitrary functions.  `*args`/`**kwargs` of `make_controller` are part of the
function.  Functions are pure: parameters created by flax during a warm-up run, logging and other side
effects are not modelled.

The abstract methods of `AbstractControllerContract` (`core.py:59-141`) only raise
`NotImplementedError`; `new_builder` (`core.py:36-58`) forwards its arguments to
`ControllerBuilder.new_builder`.
-/

namespace JaxAct
variable {α : Type}

/-- What `make_controller` may return: a controller or something else. -/
inductive Made (α : Type) where
  | ctrl (c : Controller α)
  | other

/-- A component of what `run_iteration` returns. -/
inductive Item (α : Type) where
  /-- the very controller object that was passed in -/
  | given
  /-- another controller object -/
  | ctrl (c : Controller α)
  /-- a pytree -/
  | value (t : PyTree (Leaf α))

/-- What `run_iteration` may return. -/
inductive Ret (α : Type) where
  | tuple (items : List (Item α))
  | list (items : List (Item α))
  /-- anything that cannot be unpacked (simplification: other iterables, such as dicts and arrays, are
  not considered) -/
  | other

/-- A user's layer: the methods of `AbstractControllerContract`, `core.py:59-141`. -/
structure Layer (α : Type) where
  makeController : PyTree (Leaf α) → α → Res (Made α)
  runIteration : Controller α → PyTree (Leaf α) → Res (Ret α)
  setupLazyParameters : Controller α → PyTree (Leaf α) → Res Unit

/-- `AbstractControllerContract.new_builder`, `core.py:36-58` -/
def Layer.newBuilder [Arith α] (_l : Layer α) (batchShape : List Nat) (coreDtype : Option DType)
    (epsilon depression : α) : Res (Builder α) :=
  Builder.newBuilder batchShape coreDtype epsilon depression

/-! ### `ContractValidationWrapper`, `core.py:144-308` -/

/-- `_validate_is_controller`, `core.py:168-176`, on the result of `make_controller`. -/
def validateMade : Made α → Res (Controller α)
  | .ctrl c => .ok c
  | .other => raise .typeError

/-- `_validate_controller_not_empty`, `core.py:178-197` -/
def validateNotEmpty (c : Controller α) : Res Unit :=
  if c.state.accumulators.length = 0 then raise .runtimeError else .ok ()

/-- `_validate_is_tuple`, `core.py:199-206` -/
def validateIsTuple : Ret α → Res (List (Item α))
  | .tuple items => .ok items
  | .list _ => raise .typeError
  | .other => raise .typeError

/-- `_validate_length_two`, `core.py:208-216`, and the unpacking at 302. -/
def validateLengthTwo : List (Item α) → Res (Item α × Item α)
  | [a, b] => .ok (a, b)
  | _ => raise .runtimeError

/-- `_validate_is_controller`, `core.py:168-176`, on a component. -/
def validateIsController : Item α → Res Unit
  | .value _ => raise .typeError
  | _ => .ok ()

/-- `_validate_is_novel_controller`, `core.py:218-242` -/
def validateIsNovel : Item α → Res Unit
  | .given => raise .runtimeError
  | _ => .ok ()

/-- `_validate_all_act_updates_committed`, `core.py:244-275` -/
def validateAllCommitted [Arith α] (c : Controller α) : Res Unit :=
  if c.updatesReadyToCommit then raise .runtimeError
  else if c.hasCachedUpdates then raise .runtimeError
  else .ok ()

/-- `ContractValidationWrapper.make_controller`, `core.py:277-286`.  The result is a Python object, a
controller or not. -/
def Layer.wrappedMake (l : Layer α) (check : Bool) (s : PyTree (Leaf α)) (depression : α) :
    Res (Made α) := do
  let made ← l.makeController s depression
  if check then
    let c ← validateMade made
    validateNotEmpty c
  pure made

/-- `validate` of `ContractValidationWrapper.run_iteration`, `core.py:295-305`.  The last check is given
the controller that was passed in, not the new one (305). -/
def validateUpdate [Arith α] (c : Controller α) (update : Ret α) : Res Unit := do
  let items ← validateIsTuple update
  let (new, _) ← validateLengthTwo items
  validateIsController new
  validateIsNovel new
  validateAllCommitted c

/-- `ContractValidationWrapper.run_iteration`, `core.py:288-308` -/
def Layer.wrappedRun [Arith α] (l : Layer α) (check : Bool) (c : Controller α)
    (s : PyTree (Leaf α)) : Res (Ret α) := do
  let update ← l.runIteration c s
  if check then validateUpdate c update
  pure update

/-! ### `ACTMetaData` and the loop, `act.py:26-57,195-289` -/

/-- `ACTMetaData`, `act.py:26-36` -/
structure ACTMetaData where
  num_iterations : Int
  max_num_iterations : Int
  deriving DecidableEq

/-- `increase_counter`, `act.py:32-34` -/
def ACTMetaData.increaseCounter (m : ACTMetaData) : ACTMetaData :=
  ⟨m.num_iterations + 1, m.max_num_iterations⟩

/-- The loop carry, `act.py:284`. -/
structure Carry (α : Type) where
  controller : Controller α
  state : PyTree (Leaf α)
  metadata : ACTMetaData

/-- The type of an array or number. -/
structure Aval where
  shape : List Nat
  dtype : DType
  deriving DecidableEq

/-- The type JAX gives a leaf; `none` if it is not an array or number. -/
def Atom.aval : Atom α → Option Aval
  | .float _ => some ⟨[], .f32⟩
  | .leaf (.tensor t) => some ⟨t.shape, t.dtype⟩
  | .leaf (.obj _) => none
  | .str _ => none

/-- The types of some leaves; `none` if one of them is not an array or number. -/
def avals : List (Atom α) → Option (List Aval)
  | [] => some []
  | a :: as =>
    match a.aval, avals as with
    | some v, some vs => some (v :: vs)
    | _, _ => none

/-- Tree structure and leaf types of a carry.  The two integers of the metadata always have the same
type and are left out. -/
structure CarrySig where
  controllerDef : ObjAux
  controllerLeaves : List Aval
  stateDef : TreeDef
  stateLeaves : List Aval
  deriving DecidableEq

/-- What `while_loop` requires to be preserved. -/
def Carry.sig (x : Carry α) : Option CarrySig :=
  match avals (flattenObj x.controller.raw).1, avals (x.state.treeLeaves.map Atom.leaf) with
  | some cl, some sl => some ⟨(flattenObj x.controller.raw).2, cl, x.state.treeStructure, sl⟩
  | _, _ => none

/-- Flatten and unflatten: dicts come back in key order (`treeUnflattenState_roundtrip`,
`ACTStates.raw_canon` in `Lemmas/Flatten`). -/
def Carry.rebuild (x : Carry α) : Carry α :=
  ⟨⟨x.controller.state.sorted⟩, x.state.canon, x.metadata⟩

/-- `_is_act_not_complete`, `act.py:195-203` -/
def isActNotComplete [Arith α] (x : Carry α) : Bool :=
  !x.controller.isCompletelyHalted &&
    decide (x.metadata.num_iterations < x.metadata.max_num_iterations)

/-- Tuple unpacking of the result, `act.py:217-218`. -/
def Ret.unpack : Ret α → Res (Item α × Item α)
  | .tuple [a, b] => .ok (a, b)
  | .list [a, b] => .ok (a, b)
  | .tuple _ => raise .valueError
  | .list _ => raise .valueError
  | .other => raise .typeError

/-- The components put together as the next carry.  If the first one is not a controller or the second
is one, `while_loop` finds a different tree structure and raises `TypeError`. -/
def asCarry (c : Controller α) (m : ACTMetaData) : Item α × Item α → Res (Carry α)
  | (.given, .value t) => .ok ⟨c, t, m⟩
  | (.ctrl c', .value t) => .ok ⟨c', t, m⟩
  | _ => raise .typeError

/-- `run_layer_adapter`, `act.py:205-220` -/
def Layer.adapter [Arith α] (l : Layer α) (check : Bool) (x : Carry α) : Res (Carry α) := do
  let update ← l.wrappedRun check x.controller x.state
  let items ← update.unpack
  asCarry x.controller x.metadata.increaseCounter items

/-- `execute_act` up to the loop, `act.py:277-282`.  Calling `setup_lazy_parameters` with something that
is not a controller is the user's business when checks are off; the loop then fails with
`TypeError` or `AttributeError` in the condition (simplification: `AttributeError`). -/
def Layer.prepare (l : Layer α) (check : Bool) (s : PyTree (Leaf α)) (depression : α) :
    Res (Controller α) := do
  let made ← l.wrappedMake check s depression
  match made with
  | .ctrl c => do
    l.setupLazyParameters c s
    pure c
  | .other => raise .attributeError

/-- `r` is the outcome of `execute_act(initial_state, depression_constant, max_iterations,
check_for_errors)`, `act.py:223-289`. -/
def Layer.ExecuteAct [Arith α] (l : Layer α) (s : PyTree (Leaf α)) (depression : α)
    (maxIterations : Int) (check : Bool) (r : Res (Controller α × PyTree (Leaf α))) : Prop :=
  match l.prepare check s depression with
  | .error e => r = .error e
  | .ok c => ∃ q, WhileLoop Carry.sig Carry.rebuild isActNotComplete (l.adapter check)
      ⟨c, s, ⟨0, maxIterations⟩⟩ q ∧ r = q.map fun x => (x.controller, x.state)

/-! ### `frameworks/flax.py` -/

/-- `FlaxACTLayer.setup_lazy_parameters`, `flax.py:42-46`: one run of the layer's own (unwrapped)
`run_iteration`, its result discarded, if the parameters are still mutable. -/
def flaxSetupLazy (mutableParams : Bool)
    (runIteration : Controller α → PyTree (Leaf α) → Res (Ret α)) (c : Controller α)
    (s : PyTree (Leaf α)) : Res Unit := do
  if mutableParams then
    let _ ← runIteration c s
  pure ()

/-- A flax layer: `FlaxACTLayer` with the user's two methods. -/
def flaxLayer (mutableParams : Bool) (makeController : PyTree (Leaf α) → α → Res (Made α))
    (runIteration : Controller α → PyTree (Leaf α) → Res (Ret α)) : Layer α :=
  ⟨makeController, runIteration, flaxSetupLazy mutableParams runIteration⟩

end JaxAct
