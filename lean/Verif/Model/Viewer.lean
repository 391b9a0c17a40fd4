import Verif.Model.Controller

/-!
# Model of `/repo/src/jax_act/core/viewer.py`

The function given to `transform` is `Tensor α → Res (Tensor α)`; applied to a leaf that is not an
array it raises (`Leaf.asTensor`).
-/

namespace JaxAct

/-- `ACTViewer` -/
structure Viewer (α : Type) where
  state : ACTStates α

namespace Viewer
variable {α : Type} [Arith α]

/-- `probabilities`, `viewer.py:57-59` -/
def probabilities (v : Viewer α) : Tensor α := v.state.probabilities
/-- `residuals`, `viewer.py:60-62` -/
def residuals (v : Viewer α) : Tensor α := v.state.residuals
/-- `iterations`, `viewer.py:63-65` -/
def iterations (v : Viewer α) : Tensor α := v.state.iterations
/-- `accumulators`, `viewer.py:66-68` -/
def accumulators (v : Viewer α) : Dict (PyTree (Leaf α)) := v.state.accumulators
/-- `defaults`, `viewer.py:70-72` -/
def defaults (v : Viewer α) : Dict (PyTree (Leaf α)) := v.state.defaults
/-- `updates`, `viewer.py:73-75` -/
def updates (v : Viewer α) : Dict (PyTree (Leaf α)) := v.state.updates

/-- `halt_threshold`, `viewer.py:76-78` -/
def haltThreshold (v : Viewer α) : α := Arith.sub .f64 Arith.one v.state.epsilon

/-- `halted_batches`, `viewer.py:79-81` -/
def haltedBatches (v : Viewer α) : Arr Bool := v.state.probabilities.gtFloat v.haltThreshold

/-- The user function on a leaf. -/
def onLeaf (f : Tensor α → Res (Tensor α)) (l : Leaf α) : Res (Leaf α) := do
  let t ← l.asTensor
  let r ← f t
  pure (.tensor r)

/-- The body of the `try` in `transform`, `viewer.py:102-119`.  Note that `updates` (117-119) is
computed from `self.defaults`. -/
def transformBody (v : Viewer α) (f : Tensor α → Res (Tensor α)) :
    Res (Tensor α × Tensor α × Tensor α × Dict (PyTree (Leaf α)) × Dict (PyTree (Leaf α)) ×
      Dict (PyTree (Leaf α))) := do
  let iterations ← f v.state.iterations
  let residuals ← f v.state.residuals
  let probabilities ← f v.state.probabilities
  let accumulators ← Dict.mapM (PyTree.treeMap (onLeaf f)) v.state.accumulators
  let defaults ← Dict.mapM (PyTree.treeMap (onLeaf f)) v.state.defaults
  let updates ← Dict.mapM (PyTree.treeMap (onLeaf f)) v.state.defaults
  pure (iterations, residuals, probabilities, accumulators, defaults, updates)

/-- `transform`, `viewer.py:84-132` -/
def transform (v : Viewer α) (f : Tensor α → Res (Tensor α)) : Res (Viewer α) := do
  let (iterations, residuals, probabilities, accumulators, defaults, updates) ←
    wrapRuntime (v.transformBody f)
  let state ← v.state.replace (iterations := some iterations) (residuals := some residuals)
    (probabilities := some probabilities) (accumulators := some accumulators)
    (defaults := some defaults) (updates := some updates)
  pure ⟨state⟩

/-- `update_function` of `mask_data`, `viewer.py:156-158` -/
def applyMask (mask : Tensor α) (t : Tensor α) : Res (Tensor α) := do
  let m ← Utils.setupLeftBroadcastT mask (some t.shape)
  Tensor.binop Arith.mul m t

/-- `mask_data`, `viewer.py:134-160` -/
def maskData (v : Viewer α) (mask : Tensor α) : Res (Viewer α) :=
  if mask.dtype ≠ .bool then raise .valueError
  else if mask.shape ≠ v.state.probabilities.shape then raise .valueError
  else v.transform (applyMask mask)

/-- `unhalted_only`, `viewer.py:162-174` -/
def unhaltedOnly (v : Viewer α) : Res (Viewer α) :=
  v.maskData (Tensor.ofMask (v.haltedBatches.map (!·)))

/-- `halted_only`, `viewer.py:176-191` -/
def haltedOnly (v : Viewer α) : Res (Viewer α) := v.maskData (Tensor.ofMask v.haltedBatches)

/-- `save`, `viewer.py:193-198` -/
def save (v : Viewer α) : ACTStates α := v.state

/-- `load`, `viewer.py:200-207` -/
def load (s : ACTStates α) : Viewer α := ⟨s⟩

end Viewer

/-- `ACT_Controller.make_viewer`, `controller.py:424-430` -/
def Controller.makeViewer {α : Type} (c : Controller α) : Viewer α := ⟨c.state⟩

end JaxAct
