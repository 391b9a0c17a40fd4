import Verif.Model.Controller

/-!
# Model of `/repo/src/jax_act/core/tensoreditor.py`

Validation runs under `checkify` (294-299): a Python exception raised while the checks are being
traced propagates; otherwise, if any `checkify.check` failed, `errors.throw()` raises
`JaxRuntimeError` at the end.  A list of checks is therefore a `Res Bool`.
-/

namespace JaxAct

/-- `TensorEditor` -/
structure Editor (α : Type) where
  state : ACTStates α
  errorMode : String

namespace Editor
variable {α : Type} [Arith α]

/-- The values of `ErrorModes`, `tensoreditor.py:22-24`. -/
def errorModes : List String := ["standard", "silence"]

/-- `epsilon`, 123-125 -/
def epsilon (e : Editor α) : α := e.state.epsilon
/-- `probabilities`, 126-128 -/
def probabilities (e : Editor α) : Tensor α := e.state.probabilities
/-- `residuals`, 130-132 -/
def residuals (e : Editor α) : Tensor α := e.state.residuals
/-- `iterations`, 134-136 -/
def iterations (e : Editor α) : Tensor α := e.state.iterations
/-- `defaults`, 138-140 -/
def defaults (e : Editor α) : Dict (PyTree (Leaf α)) := e.state.defaults
/-- `accumulators`, 142-144 -/
def accumulators (e : Editor α) : Dict (PyTree (Leaf α)) := e.state.accumulators
/-- `updates`, 146-148 -/
def updates (e : Editor α) : Dict (PyTree (Leaf α)) := e.state.updates

/-- `_validate_same_shape`, 153-163 -/
def sameShape (a b : Tensor α) : Bool := decide (a.shape = b.shape)

/-- `_validate_same_dtype`, 165-174 -/
def sameDtype (a b : Tensor α) : Bool := decide (a.dtype = b.dtype)

/-- `_validate_probability`, 177-192: `~any(t < 0)` and `~any(t > 1.0)`. -/
def isProbability (t : Tensor α) : Bool :=
  !((t.conv t.dtype.withInt).arr.any fun x => Arith.lt x Arith.zero) &&
  !((t.conv t.dtype.withFloat).arr.any fun x => Arith.lt Arith.one x)

/-- `_validate_is_natural_numbers`, 194-201: `all(t >= 0)`. -/
def isNatural (t : Tensor α) : Bool :=
  (t.conv t.dtype.withInt).arr.all fun x => Arith.le Arith.zero x

/-- The loop of `_validate_pytree_leaves`, 255-279: leaves are paired by `zip`. -/
def leavesCompatible : List (Leaf α) → List (Leaf α) → Res Bool
  | o :: os, n :: ns => do
    let o ← o.asTensor
    let n ← n.asTensor
    let r ← leavesCompatible os ns
    pure (decide (o.shape = n.shape) && decide (o.dtype = n.dtype) && r)
  | _, _ => .ok true

/-- `_validate_same_pytree_structure` followed by `_validate_pytree_leaves`, 213-279. -/
def compatible (original new : PyTree (Leaf α)) : Res Bool := do
  let r ← leavesCompatible original.treeLeaves new.treeLeaves
  pure (Utils.arePytreeStructureEqual original new && r)

/-- `_execute_validation`, 280-299. -/
def executeValidation (e : Editor α) (checks : Res Bool) : Res Unit :=
  if e.errorMode = "standard" then
    match checks with
    | .error err => .error err
    | .ok true => .ok ()
    | .ok false => raise .jaxRuntimeError
  else .ok ()

/-- `set_probabilities`, 300-316 -/
def setProbabilities (e : Editor α) (values : Tensor α) : Res (Editor α) := do
  e.executeValidation (.ok (sameShape e.state.probabilities values &&
    sameDtype e.state.probabilities values && isProbability values))
  let state ← e.state.replace (probabilities := some values)
  pure ⟨state, e.errorMode⟩

/-- `set_residuals`, 318-335 -/
def setResiduals (e : Editor α) (values : Tensor α) : Res (Editor α) := do
  e.executeValidation (.ok (sameShape e.state.residuals values &&
    sameDtype e.state.residuals values && isProbability values))
  let state ← e.state.replace (residuals := some values)
  pure ⟨state, e.errorMode⟩

/-- `set_iterations`, 337-353 -/
def setIterations (e : Editor α) (values : Tensor α) : Res (Editor α) := do
  e.executeValidation (.ok (sameShape e.state.iterations values &&
    sameDtype e.state.iterations values && isNatural values))
  let state ← e.state.replace (iterations := some values)
  pure ⟨state, e.errorMode⟩

/-- `set_epsilon`, 356-381 -/
def setEpsilon (e : Editor α) (epsilon : α) : Res (Editor α) := do
  e.executeValidation (.ok (Arith.le Arith.zero epsilon && Arith.le epsilon Arith.one))
  let state ← e.state.replace (epsilon := some epsilon)
  pure ⟨state, e.errorMode⟩

/-- The checks of `set_accumulator` and `set_defaults` (398-400, 426-428):
`_validate_accumulator_exists` (202-211) checks membership in `defaults` but returns membership in
`accumulators`; the tree is compared with the accumulator. -/
def checkAgainstAccumulator (e : Editor α) (name : String) (value : PyTree (Leaf α)) : Res Bool :=
  if e.state.accumulators.mem name then do
    let a ← e.state.accumulators.getItem name
    let r ← compatible a value
    pure (e.state.defaults.mem name && r)
  else .ok (e.state.defaults.mem name)

/-- `set_accumulator`, 383-405 -/
def setAccumulator (e : Editor α) (name : String) (value : PyTree (Leaf α)) : Res (Editor α) := do
  e.executeValidation (e.checkAgainstAccumulator name value)
  let state ← e.state.replace (accumulators := some (e.state.accumulators.set name value))
  pure ⟨state, e.errorMode⟩

/-- `set_defaults`, 406-433 -/
def setDefaults (e : Editor α) (name : String) (value : PyTree (Leaf α)) : Res (Editor α) := do
  e.executeValidation (e.checkAgainstAccumulator name value)
  let state ← e.state.replace (defaults := some (e.state.defaults.set name value))
  pure ⟨state, e.errorMode⟩

/-- The checks of `set_updates`, 450-457: a non-`None` value is compared with the default;
`self.defaults[name]` raises `KeyError` for an unknown name. -/
def checkUpdate (e : Editor α) (name : String) (values : PyTree (Leaf α)) : Res Bool :=
  if values.isNone then .ok (e.state.defaults.mem name)
  else do
    let d ← e.state.defaults.getItem name
    let r ← compatible d values
    pure (e.state.defaults.mem name && r)

/-- `set_updates`, 435-462 -/
def setUpdates (e : Editor α) (name : String) (values : PyTree (Leaf α)) : Res (Editor α) := do
  e.executeValidation (e.checkUpdate name values)
  let state ← e.state.replace (updates := some (e.state.updates.set name values))
  pure ⟨state, e.errorMode⟩

/-- `edit_controller`, 464-479 -/
def editController (c : Controller α) (errorMode : String := "standard") : Res (Editor α) :=
  if errorMode ∈ errorModes then .ok ⟨c.state, errorMode⟩ else raise .valueError

/-- `edit_save`, 481-496 -/
def editSave (s : ACTStates α) (errorMode : String := "standard") : Res (Editor α) :=
  if errorMode ∈ errorModes then .ok ⟨s, errorMode⟩ else raise .valueError

/-- `save`, 498-499 -/
def save (e : Editor α) : ACTStates α := e.state

/-- `build`, 500-505 -/
def build (e : Editor α) : Controller α := Controller.load e.state

end Editor
end JaxAct
