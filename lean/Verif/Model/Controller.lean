import Verif.Model.State
import Verif.Model.Utils

/-!
# Model of `/repo/src/jax_act/core/controller.py`

A controller is its state (`ACT_Controller.__init__`, 441-444); object identity and mutability
are treated in `Model/Layers`, `Model/Immutable` and `Model/Heap`.
-/

namespace JaxAct

/-- `ACT_Controller` -/
structure Controller (α : Type) where
  state : ACTStates α

namespace Controller
variable {α : Type} [Arith α]

/-! ### Properties, `controller.py:94-135` -/

/-- `depression_constant`, 95-97 -/
def depressionConstant (c : Controller α) : α := c.state.depression_constant
/-- `probabilities`, 98-100 -/
def probabilities (c : Controller α) : Tensor α := c.state.probabilities
/-- `residuals`, 102-104 -/
def residuals (c : Controller α) : Tensor α := c.state.residuals
/-- `iterations`, 106-108 -/
def iterations (c : Controller α) : Tensor α := c.state.iterations
/-- `accumulators`, 110-112 -/
def accumulators (c : Controller α) : Dict (PyTree (Leaf α)) := c.state.accumulators

/-- `halt_threshold`, 115-117: `1 - epsilon` on Python floats. -/
def haltThreshold (c : Controller α) : α := Arith.sub .f64 Arith.one c.state.epsilon

/-- `halted_batches`, 118-120 -/
def haltedBatches (c : Controller α) : Arr Bool := c.probabilities.gtFloat c.haltThreshold

/-- `is_completely_halted`, 122-124 -/
def isCompletelyHalted (c : Controller α) : Bool := c.haltedBatches.all id

/-- `is_any_halted`, 126-128 -/
def isAnyHalted (c : Controller α) : Bool := c.haltedBatches.any id

/-- `updates_ready_to_commit`, 130-132 -/
def updatesReadyToCommit (c : Controller α) : Bool := c.state.updates.all fun kv => !kv.2.isNone

/-- `has_cached_updates`, 133-135 -/
def hasCachedUpdates (c : Controller α) : Bool := c.state.updates.any fun kv => !kv.2.isNone

/-! ### Helpers -/

/-- Entrywise conjunction/negation of boolean arrays, `will_be_halted & ~self.halted_batches`,
`controller.py:166`. -/
def andNot (a b : Arr Bool) : Res (Arr Bool) :=
  match Arr.bmap2 (fun x y => x && !y) a b with
  | some r => .ok r
  | none => .error (Arr.bErr a.shape b.shape)

/-- `_process_probabilities`, `controller.py:138-185`.  Returns the clamped halting probabilities,
the residuals and the cumulative probabilities. -/
def processProbabilities (c : Controller α) (halting : Tensor α) :
    Res (Tensor α × Tensor α × Tensor α) := do
  let halting := Tensor.floatMul c.depressionConstant halting
  let total ← Tensor.binop Arith.add halting c.probabilities
  let willBeHalted := total.gtFloat c.haltThreshold
  let newlyHalting ← andNot willBeHalted c.haltedBatches
  let rawResiduals := c.probabilities.oneSub
  let residuals ← Tensor.select newlyHalting rawResiduals c.residuals
  let halting ← Tensor.select willBeHalted rawResiduals halting
  let probabilities ← Tensor.binop Arith.add c.probabilities halting
  pure (halting, residuals, probabilities)

/-- `_update_accumulator`, `controller.py:187-233`.  Leaves of a pytree are never `None`, so the
branch 204-210 cannot be taken on a leaf and is not represented. -/
def updateAccumulator (c : Controller α) (accumulator update : Leaf α) (halting : Tensor α) :
    Res (Leaf α) := do
  let a ← accumulator.asTensor
  let u ← update.asTensor
  if a.shape ≠ u.shape then raise .runtimeError
  else
    let halting ← Utils.setupLeftBroadcastT halting (some a.shape)
    let halted ← Utils.setupLeftBroadcast c.haltedBatches (some a.shape)
    let halted ← halted.broadcastTo a.shape
    let weighted ← Tensor.binop Arith.mul halting u
    let new ← Tensor.binop Arith.add a weighted
    let r ← Tensor.select halted a new
    pure (.tensor r)

/-! ### Main loop logic -/

/-- `cache_update`, `controller.py:237-259`. -/
def cacheUpdate (c : Controller α) (name : String) (item : PyTree (Leaf α)) :
    Res (Controller α) := do
  let state := c.state
  if ¬ state.updates.mem name then raise .valueError
  else
    let cur ← state.updates.getItem name
    if ¬ cur.isNone then raise .runtimeError
    else
      let update := state.updates.set name item
      let newState ← state.replace (updates := some update)
      pure ⟨newState⟩

/-- Body of the accumulator loop inside the `try`, `controller.py:298-330`, for one name: the new
accumulator. -/
def commitOne (c : Controller α) (halting : Tensor α) (accumulators updates : Dict (PyTree (Leaf α)))
    (name : String) : Res (PyTree (Leaf α)) := do
  let accumulatorTree ← accumulators.getItem name
  let updateTree ← updates.getItem name
  if updateTree.isNone then raise .runtimeError
  else Utils.mergePytrees (fun a u => c.updateAccumulator a u halting) accumulatorTree updateTree

/-- The accumulator loop, `controller.py:295-333`: every exception becomes `RuntimeError`. -/
def commitLoop (c : Controller α) (halting : Tensor α) :
    List String → Dict (PyTree (Leaf α)) → Dict (PyTree (Leaf α)) →
    Res (Dict (PyTree (Leaf α)) × Dict (PyTree (Leaf α)))
  | [], accumulators, updates => .ok (accumulators, updates)
  | name :: names, accumulators, updates =>
    match wrapRuntime (c.commitOne halting accumulators updates name) with
    | .error e => .error e
    | .ok new => commitLoop c halting names (accumulators.set name new) (updates.set name .none)

/-- `iterate_act`, `controller.py:260-353`. -/
def iterateAct (c : Controller α) (halting : Tensor α) : Res (Controller α) :=
  if halting.shape ≠ c.probabilities.shape then raise .valueError
  else do
    let halting := halting.clip01
    let (halting, residuals, probabilities) ← c.processProbabilities halting
    let (accumulators, updates) ←
      c.commitLoop halting c.accumulators.keys c.accumulators c.state.updates
    let newIterations := c.iterations.addOne
    let iterations ← Tensor.select c.haltedBatches c.iterations newIterations
    let state ← c.state.replace (iterations := some iterations) (residuals := some residuals)
      (probabilities := some probabilities) (accumulators := some accumulators)
      (updates := some updates)
    pure ⟨state⟩

/-- `accumulator.shape` as seen by `setup_left_broadcast`: only a bare tensor has the attribute. -/
def treeShape : PyTree (Leaf α) → Option (List Nat)
  | .leaf (.tensor t) => some t.shape
  | _ => none

/-- `update_func` of `reset_batches`, `controller.py:385-405`.  The selector is set up against the
*whole accumulator* `tree` (398-399), not against the leaf. -/
def resetLeaf (unhalted : Arr Bool) (tree : PyTree (Leaf α)) (accLeaf defLeaf : Leaf α) :
    Res (Leaf α) := do
  let sel ← Utils.setupLeftBroadcast unhalted (treeShape tree)
  let a ← accLeaf.asTensor
  let sel ← sel.broadcastTo a.shape
  let d ← defLeaf.asTensor
  let r ← Tensor.select sel a d
  pure (.tensor r)

/-- The accumulator loop of `reset_batches`, `controller.py:376-410`. -/
def resetLoop (unhalted : Arr Bool) (defaults : Dict (PyTree (Leaf α))) :
    Dict (PyTree (Leaf α)) → Dict (PyTree (Leaf α)) → Res (Dict (PyTree (Leaf α)))
  | [], out => .ok out
  | (name, accumulator) :: rest, out => do
    let default ← Dict.getItem defaults name
    let new ← Utils.mergePytrees (resetLeaf unhalted accumulator) accumulator default
    resetLoop unhalted defaults rest (Dict.set out name new)

/-- `reset_batches`, `controller.py:356-420`. -/
def resetBatches (c : Controller α) : Res (Controller α) :=
  if c.state.updates.any fun kv => !kv.2.isNone then raise .runtimeError
  else do
    let unhalted := c.haltedBatches.map (!·)
    let iterations ← Tensor.binop Arith.mul c.iterations (Tensor.ofMask unhalted)
    let probabilities ← Tensor.binop Arith.mul c.probabilities (Tensor.ofMask unhalted)
    let residuals ← Tensor.binop Arith.mul c.residuals (Tensor.ofMask unhalted)
    let accumulators ← resetLoop unhalted c.state.defaults c.accumulators []
    let state ← c.state.replace (residuals := some residuals) (probabilities := some probabilities)
      (iterations := some iterations) (accumulators := some accumulators)
    pure ⟨state⟩

/-! ### Saving and loading -/

/-- `save`, `controller.py:433-434` -/
def save (c : Controller α) : ACTStates α := c.state

/-- `load`, `controller.py:435-437` -/
def load (s : ACTStates α) : Controller α := ⟨s⟩

/-- `__getitem__`, `controller.py:439-440` -/
def getItem (c : Controller α) (name : String) : Res (PyTree (Leaf α)) := c.accumulators.getItem name

end Controller
end JaxAct
