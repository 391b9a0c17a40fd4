import Verif.Model.Builder
import Verif.Model.Editor
import Verif.Model.Viewer

/-!
# The methods once more, on a heap

The other models compute with values, so that a method could not modify anything if it wanted to.
Here the dictionaries, the state objects and the controllers, builders, viewers and editors are
objects in a heap, variables hold references, and the methods do what the Python text does: copy a
dictionary, assign to the copy, store references.  Exceptions leave the heap as it is at that point.

* Arrays and scalars cannot be modified and are values.
* A pytree stored in a dictionary is an object of its own that can be shared (`_define` stores one
  object in two dictionaries, `cache_update` keeps the object it was given).  Simplification: the
  containers nested inside it are part of that one object.
* Computations on tensors are those of the value models.
-/

namespace JaxAct.Mem

/-- A reference: the index of a cell. -/
abbrev Ref := Nat

/-- A value in a dictionary: `None` or a reference to a pytree. -/
abbrev Val := Option Ref

/-- The attributes of an `ACTStates` object, `states.py:166-174`; dictionaries are references. -/
structure StateObj (α : Type) where
  epsilon : α
  iterations : Tensor α
  residuals : Tensor α
  probabilities : Tensor α
  defaults : Ref
  accumulators : Ref
  updates : Ref
  depression_constant : α
  error_mode : Option String

/-- The class of an object holding a state; the editor has `error_mode` as a second attribute
(`tensoreditor.py:506-520`). -/
inductive Cls where
  | controller
  | builder
  | viewer
  | editor (errorMode : String)
  deriving DecidableEq, Repr

/-- An object in the heap.  The attribute `state` is missing before `__init__` has set it. -/
inductive Cell (α : Type) where
  | tree (t : PyTree (Leaf α))
  | dict (d : Dict Val)
  | state (s : StateObj α)
  | obj (cls : Cls) (state : Option Ref)

/-- The heap; a new object is put at the end. -/
abbrev Heap (α : Type) := List (Cell α)

/-- Computations on the heap that may raise. -/
abbrev M (α : Type) := ExceptT Err (StateM (Heap α))

variable {α : Type}

/-- Run a computation: the value or exception, and the heap afterwards. -/
def M.exec {β : Type} (m : M α β) (h : Heap α) : Res β × Heap α := m h

/-- A pure computation that may raise. -/
def pureRes {β : Type} (r : Res β) : M α β := fun h => (r, h)

/-- Create an object. -/
def alloc (c : Cell α) : M α Ref := fun h => (.ok h.length, h ++ [c])

/-- Read a dictionary (attribute access on another kind of object: `AttributeError`). -/
def readDict (r : Ref) : M α (Dict Val) := fun h =>
  match h[r]? with
  | some (.dict d) => (.ok d, h)
  | _ => (.error .attributeError, h)

/-- Read the attributes of a state object. -/
def readState (r : Ref) : M α (StateObj α) := fun h =>
  match h[r]? with
  | some (.state s) => (.ok s, h)
  | _ => (.error .attributeError, h)

/-- `self.state` -/
def getState (r : Ref) : M α Ref := fun h =>
  match h[r]? with
  | some (.obj _ (some s)) => (.ok s, h)
  | _ => (.error .attributeError, h)

/-- `self.error_mode` of an editor -/
def getErrorMode (r : Ref) : M α String := fun h =>
  match h[r]? with
  | some (.obj (.editor m) _) => (.ok m, h)
  | _ => (.error .attributeError, h)

/-- Read a pytree. -/
def readTree : Val → M α (PyTree (Leaf α))
  | none => fun h => (.ok .none, h)
  | some r => fun h =>
    match h[r]? with
    | some (.tree t) => (.ok t, h)
    | _ => (.error .attributeError, h)

/-- `d[k] = v`, modifying the dictionary. -/
def setItem (r : Ref) (k : String) (v : Val) : M α Unit := fun h =>
  match h[r]? with
  | some (.dict d) => (.ok (), h.set r (.dict (d.set k v)))
  | _ => (.error .attributeError, h)

/-- `d.pop(k)`, modifying the dictionary. -/
def popItem (r : Ref) (k : String) : M α Unit := fun h =>
  match h[r]? with
  | some (.dict d) =>
    match d.pop k with
    | .ok d' => (.ok (), h.set r (.dict d'))
    | .error e => (.error e, h)
  | _ => (.error .attributeError, h)

/-- `self.state = state`, modifying the object. -/
def setState (r s : Ref) : M α Unit := fun h =>
  match h[r]? with
  | some (.obj c _) => (.ok (), h.set r (.obj c (some s)))
  | _ => (.error .attributeError, h)

/-- `d[k]` -/
def getItem (r : Ref) (k : String) : M α Val := do
  let d ← readDict r
  pureRes (d.getItem k)

/-- `d.copy()` -/
def copyDict (r : Ref) : M α Ref := do
  let d ← readDict r
  alloc (.dict d)

/-- `{}` -/
def newDict : M α Ref := alloc (.dict [])

/-- The constructors `ACT_Controller(state)` (`controller.py:441-444`), `ControllerBuilder(state)`
(`builder.py:465-477`), `ACTViewer(state)` (`viewer.py:208-217`) and `TensorEditor(state, mode)`
(`tensoreditor.py:506-520`): create the object, then set its attribute. -/
def newObj (c : Cls) (s : Ref) : M α Ref := do
  let o ← alloc (.obj c none)
  setState o s
  pure o

/-- `try: ... except Exception: raise RuntimeError` -/
def tryRuntime {β : Type} (m : M α β) : M α β := fun h =>
  match m h with
  | (.ok v, h') => (.ok v, h')
  | (.error _, h') => (.error .runtimeError, h')

/-- `ACTStates.replace`, `states.py:126-165`: a new state object with the given attributes, the
others copied from the old one (references, not copies of dictionaries). -/
def replace (st : Ref)
    (epsilon : Option α := none)
    (iterations : Option (Tensor α) := none)
    (residuals : Option (Tensor α) := none)
    (probabilities : Option (Tensor α) := none)
    (accumulators : Option Ref := none)
    (defaults : Option Ref := none)
    (updates : Option Ref := none)
    (depression_constant : Option α := none)
    (error_mode : Option String := none) : M α Ref := do
  let s ← readState st
  match depression_constant, error_mode with
  | some _, _ => pureRes (raise .attributeError)
  | none, some _ => pureRes (raise .attributeError)
  | none, none =>
    alloc (.state
      { epsilon := epsilon.getD s.epsilon
        iterations := iterations.getD s.iterations
        residuals := residuals.getD s.residuals
        probabilities := probabilities.getD s.probabilities
        defaults := defaults.getD s.defaults
        accumulators := accumulators.getD s.accumulators
        updates := updates.getD s.updates
        depression_constant := s.depression_constant
        error_mode := s.error_mode })

variable [Arith α]

/-- The scalars and batch shaped tensors of a state, for the methods that use nothing else. -/
def StateObj.core (s : StateObj α) : ACTStates α :=
  { epsilon := s.epsilon
    iterations := s.iterations
    residuals := s.residuals
    probabilities := s.probabilities
    defaults := []
    accumulators := []
    updates := []
    depression_constant := s.depression_constant
    error_mode := s.error_mode }

/-! ### `controller.py` -/

/-- `cache_update`, `controller.py:237-259` -/
def cacheUpdate (self : Ref) (name : String) (item : Val) : M α Ref := do
  let st ← getState self
  let s ← readState st
  let u ← readDict s.updates
  if ¬ u.mem name then pureRes (raise .valueError)
  else
    let v ← getItem s.updates name
    let cur ← readTree v
    if ¬ cur.isNone then pureRes (raise .runtimeError)
    else
      let update ← copyDict s.updates
      setItem update name item
      let newState ← replace st (updates := some update)
      newObj .controller newState

/-- The body of the `try` in the accumulator loop of `iterate_act`, `controller.py:298-330`. -/
def commitBody (c : Controller α) (halting : Tensor α) (accumulators updates : Ref)
    (name : String) : M α Unit := do
  let a ← getItem accumulators name
  let u ← getItem updates name
  let accumulatorTree ← readTree a
  let updateTree ← readTree u
  if updateTree.isNone then pureRes (raise .runtimeError)
  else
    let t ← pureRes
      (Utils.mergePytrees (fun a u => c.updateAccumulator a u halting) accumulatorTree updateTree)
    let new ← alloc (.tree t)
    setItem accumulators name (some new)
    setItem updates name none

/-- The accumulator loop of `iterate_act`, `controller.py:295-333`. -/
def commitLoop (c : Controller α) (halting : Tensor α) (accumulators updates : Ref) :
    List String → M α Unit
  | [] => pure ()
  | name :: names => do
    tryRuntime (commitBody c halting accumulators updates name)
    commitLoop c halting accumulators updates names

/-- `iterate_act`, `controller.py:260-353` -/
def iterateAct (self : Ref) (halting : Tensor α) : M α Ref := do
  let st ← getState self
  let s ← readState st
  if halting.shape ≠ s.probabilities.shape then pureRes (raise .valueError)
  else
    let halting := halting.clip01
    let (halting, residuals, probabilities) ←
      pureRes ((Controller.mk s.core).processProbabilities halting)
    let accumulators ← copyDict s.accumulators
    let updates ← copyDict s.updates
    let names ← readDict accumulators
    commitLoop ⟨s.core⟩ halting accumulators updates names.keys
    let newIterations := s.iterations.addOne
    let iterations ←
      pureRes (Tensor.select (Controller.mk s.core).haltedBatches s.iterations newIterations)
    let state ← replace st (iterations := some iterations) (residuals := some residuals)
      (probabilities := some probabilities) (accumulators := some accumulators)
      (updates := some updates)
    newObj .controller state

/-- The check for pending updates of `reset_batches`, `controller.py:366-368`. -/
def checkPending : Dict Val → M α Unit
  | [] => pure ()
  | (_, v) :: rest => do
    let t ← readTree v
    if ¬ t.isNone then pureRes (raise .runtimeError) else checkPending rest

/-- The accumulator loop of `reset_batches`, `controller.py:376-410`. -/
def resetLoop (unhalted : Arr Bool) (accs defaults out : Ref) : List String → M α Unit
  | [] => pure ()
  | name :: names => do
    let a ← getItem accs name
    let d ← getItem defaults name
    let accumulator ← readTree a
    let default ← readTree d
    let t ← pureRes
      (Utils.mergePytrees (Controller.resetLeaf unhalted accumulator) accumulator default)
    let new ← alloc (.tree t)
    setItem out name (some new)
    resetLoop unhalted accs defaults out names

/-- `reset_batches`, `controller.py:356-420` -/
def resetBatches (self : Ref) : M α Ref := do
  let st ← getState self
  let s ← readState st
  let u ← readDict s.updates
  checkPending u
  let unhalted := (Controller.mk s.core).haltedBatches.map (!·)
  let iterations ← pureRes (Tensor.binop Arith.mul s.iterations (Tensor.ofMask unhalted))
  let probabilities ← pureRes (Tensor.binop Arith.mul s.probabilities (Tensor.ofMask unhalted))
  let residuals ← pureRes (Tensor.binop Arith.mul s.residuals (Tensor.ofMask unhalted))
  let accumulators ← newDict
  let names ← readDict s.accumulators
  resetLoop unhalted s.accumulators s.defaults accumulators names.keys
  let state ← replace st (residuals := some residuals) (probabilities := some probabilities)
    (iterations := some iterations) (accumulators := some accumulators)
  newObj .controller state

/-- `make_viewer`, `controller.py:424-430`: the state is shared. -/
def makeViewer (self : Ref) : M α Ref := do
  let st ← getState self
  newObj .viewer st

/-- `save` of all four classes (`controller.py:433-434`, `viewer.py:193-198`,
`tensoreditor.py:498-499`): the state object itself. -/
def save (self : Ref) : M α Ref := getState self

/-- `ACT_Controller.load`, `controller.py:435-437` -/
def loadController (st : Ref) : M α Ref := newObj .controller st

/-- The properties `accumulators`, `defaults` and `updates` of all four classes: the dictionary
itself. -/
def exposedDict (self : Ref) (which : StateObj α → Ref) : M α Ref := do
  let st ← getState self
  let s ← readState st
  pure (which s)

/-! ### `builder.py` -/

/-- `_define` and `define_accumulator_directly`, `builder.py:224-253,277-312`: the definition is
stored in two dictionaries. -/
def define (self : Ref) (name : String) (definition : Val) : M α Ref := do
  let st ← getState self
  let s ← readState st
  let t ← readTree definition
  pureRes (Builder.validateLeaves s.probabilities.shape t.treeLeaves)
  let defaults ← copyDict s.defaults
  let accumulators ← copyDict s.accumulators
  let updates ← copyDict s.updates
  setItem defaults name definition
  setItem accumulators name definition
  setItem updates name none
  let state ← replace st (defaults := some defaults) (accumulators := some accumulators)
    (updates := some updates)
  newObj .builder state

/-- `_delete_definition`, `builder.py:255-275` -/
def deleteDefinition (self : Ref) (name : String) : M α Ref := do
  let st ← getState self
  let s ← readState st
  let defaults ← copyDict s.defaults
  let accumulators ← copyDict s.accumulators
  let updates ← copyDict s.updates
  popItem defaults name
  popItem accumulators name
  popItem updates name
  let state ← replace st (defaults := some defaults) (accumulators := some accumulators)
    (updates := some updates)
  newObj .builder state

/-- `define_accumulator_by_shape`, `builder.py:314-407` -/
def defineByShape (self : Ref) (name : String) (shapes : PyTree ShapeItem) (dtype : DType)
    (fill : α) : M α Ref := do
  let t ← pureRes ((Builder.collapseShapes shapes).treeMap (Builder.shapeToTensor dtype fill))
  let definition ← alloc (.tree t)
  define self name (some definition)

/-- `new_builder`, `builder.py:411-457`: three new dictionaries, then the constructor call that
lacks an argument. -/
def newBuilder (_batchShape : List Nat) (coreDtype : Option DType) (epsilon _depression : α) :
    M α Ref :=
  if Builder.badCoreDtype coreDtype then pureRes (raise .valueError)
  else if Arith.le Arith.one epsilon || Arith.le epsilon Arith.zero then pureRes (raise .valueError)
  else do
    let _accumulators ← newDict
    let _defaults ← newDict
    let _updates ← newDict
    pureRes (raise .typeError)

/-- `build`, `builder.py:459-464`: the state is shared. -/
def build (self : Ref) : M α Ref := do
  let st ← getState self
  newObj .controller st

/-! ### `viewer.py` -/

/-- A dictionary comprehension of `transform`, `viewer.py:106-119`. -/
def transformDict (f : Tensor α → Res (Tensor α)) : Dict Val → M α (Dict Val)
  | [] => pure []
  | (k, v) :: d => do
    let t ← readTree v
    let t' ← pureRes (PyTree.treeMap (Viewer.onLeaf f) t)
    let new ← alloc (.tree t')
    let rest ← transformDict f d
    pure ((k, some new) :: rest)

/-- The same, from a dictionary to a new dictionary. -/
def transformRef (f : Tensor α → Res (Tensor α)) (r : Ref) : M α Ref := do
  let d ← readDict r
  let d' ← transformDict f d
  alloc (.dict d')

/-- `transform`, `viewer.py:84-132` -/
def transform (self : Ref) (f : Tensor α → Res (Tensor α)) : M α Ref := do
  let st ← getState self
  let s ← readState st
  let (iterations, residuals, probabilities, accumulators, defaults, updates) ← tryRuntime do
    let iterations ← pureRes (f s.iterations)
    let residuals ← pureRes (f s.residuals)
    let probabilities ← pureRes (f s.probabilities)
    let accumulators ← transformRef f s.accumulators
    let defaults ← transformRef f s.defaults
    let updates ← transformRef f s.defaults
    pure (iterations, residuals, probabilities, accumulators, defaults, updates)
  let state ← replace st (iterations := some iterations) (residuals := some residuals)
    (probabilities := some probabilities) (accumulators := some accumulators)
    (defaults := some defaults) (updates := some updates)
  newObj .viewer state

/-- `mask_data`, `viewer.py:134-160` -/
def maskData (self : Ref) (mask : Tensor α) : M α Ref := do
  let st ← getState self
  let s ← readState st
  if mask.dtype ≠ .bool then pureRes (raise .valueError)
  else if mask.shape ≠ s.probabilities.shape then pureRes (raise .valueError)
  else transform self (Viewer.applyMask mask)

/-- `unhalted_only`, `viewer.py:162-174` -/
def unhaltedOnly (self : Ref) : M α Ref := do
  let st ← getState self
  let s ← readState st
  maskData self (Tensor.ofMask ((Viewer.mk s.core).haltedBatches.map (!·)))

/-- `halted_only`, `viewer.py:176-191` -/
def haltedOnly (self : Ref) : M α Ref := do
  let st ← getState self
  let s ← readState st
  maskData self (Tensor.ofMask (Viewer.mk s.core).haltedBatches)

/-- `ACTViewer.load`, `viewer.py:200-207` -/
def loadViewer (st : Ref) : M α Ref := newObj .viewer st

/-! ### `tensoreditor.py` -/

/-- `_execute_validation`, `tensoreditor.py:280-299` -/
def validate (self : Ref) (checks : M α Bool) : M α Unit := do
  let mode ← getErrorMode self
  if mode = "standard" then
    let b ← checks
    if b then pure () else pureRes (raise .jaxRuntimeError)
  else pure ()

/-- `set_probabilities`, `tensoreditor.py:300-316` -/
def setProbabilities (self : Ref) (values : Tensor α) : M α Ref := do
  let st ← getState self
  let s ← readState st
  validate self (pure (Editor.sameShape s.probabilities values &&
    Editor.sameDtype s.probabilities values && Editor.isProbability values))
  let state ← replace st (probabilities := some values)
  let mode ← getErrorMode self
  newObj (.editor mode) state

/-- `set_residuals`, `tensoreditor.py:318-335` -/
def setResiduals (self : Ref) (values : Tensor α) : M α Ref := do
  let st ← getState self
  let s ← readState st
  validate self (pure (Editor.sameShape s.residuals values &&
    Editor.sameDtype s.residuals values && Editor.isProbability values))
  let state ← replace st (residuals := some values)
  let mode ← getErrorMode self
  newObj (.editor mode) state

/-- `set_iterations`, `tensoreditor.py:337-353` -/
def setIterations (self : Ref) (values : Tensor α) : M α Ref := do
  let st ← getState self
  let s ← readState st
  validate self (pure (Editor.sameShape s.iterations values &&
    Editor.sameDtype s.iterations values && Editor.isNatural values))
  let state ← replace st (iterations := some values)
  let mode ← getErrorMode self
  newObj (.editor mode) state

/-- `set_epsilon`, `tensoreditor.py:356-381` -/
def setEpsilon (self : Ref) (epsilon : α) : M α Ref := do
  let st ← getState self
  validate self (pure (Arith.le Arith.zero epsilon && Arith.le epsilon Arith.one))
  let state ← replace st (epsilon := some epsilon)
  let mode ← getErrorMode self
  newObj (.editor mode) state

/-- The checks of `set_accumulator` and `set_defaults`, `tensoreditor.py:398-400,426-428`. -/
def checkAgainstAccumulator (s : StateObj α) (name : String) (value : Val) : M α Bool := do
  let defaults ← readDict s.defaults
  let accumulators ← readDict s.accumulators
  if accumulators.mem name then
    let v ← getItem s.accumulators name
    let a ← readTree v
    let t ← readTree value
    let r ← pureRes (Editor.compatible a t)
    pure (defaults.mem name && r)
  else pure (defaults.mem name)

/-- `set_accumulator`, `tensoreditor.py:383-405` -/
def setAccumulator (self : Ref) (name : String) (value : Val) : M α Ref := do
  let st ← getState self
  let s ← readState st
  validate self (checkAgainstAccumulator s name value)
  let accumulators ← copyDict s.accumulators
  setItem accumulators name value
  let state ← replace st (accumulators := some accumulators)
  let mode ← getErrorMode self
  newObj (.editor mode) state

/-- `set_defaults`, `tensoreditor.py:406-433` -/
def setDefaults (self : Ref) (name : String) (value : Val) : M α Ref := do
  let st ← getState self
  let s ← readState st
  validate self (checkAgainstAccumulator s name value)
  let defaults ← copyDict s.defaults
  setItem defaults name value
  let state ← replace st (defaults := some defaults)
  let mode ← getErrorMode self
  newObj (.editor mode) state

/-- The checks of `set_updates`, `tensoreditor.py:450-457`. -/
def checkUpdate (s : StateObj α) (name : String) (values : Val) : M α Bool := do
  let defaults ← readDict s.defaults
  let t ← readTree values
  if t.isNone then pure (defaults.mem name)
  else
    let v ← getItem s.defaults name
    let d ← readTree v
    let r ← pureRes (Editor.compatible d t)
    pure (defaults.mem name && r)

/-- `set_updates`, `tensoreditor.py:435-462` -/
def setUpdates (self : Ref) (name : String) (values : Val) : M α Ref := do
  let st ← getState self
  let s ← readState st
  validate self (checkUpdate s name values)
  let updates ← copyDict s.updates
  setItem updates name values
  let state ← replace st (updates := some updates)
  let mode ← getErrorMode self
  newObj (.editor mode) state

/-- `edit_controller`, `tensoreditor.py:464-479`, and the check of `__init__` (513-517). -/
def editController (controller : Ref) (errorMode : String) : M α Ref := do
  let st ← getState controller
  if errorMode ∈ Editor.errorModes then newObj (.editor errorMode) st
  else pureRes (raise .valueError)

/-- `edit_save`, `tensoreditor.py:481-496` -/
def editSave (st : Ref) (errorMode : String) : M α Ref :=
  if errorMode ∈ Editor.errorModes then newObj (.editor errorMode) st
  else pureRes (raise .valueError)

/-! ### Programs -/

/-- A call of a method on objects of the heap. -/
inductive Call (α : Type) where
  | cacheUpdate (self : Ref) (name : String) (item : Val)
  | iterateAct (self : Ref) (halting : Tensor α)
  | resetBatches (self : Ref)
  | makeViewer (self : Ref)
  | save (self : Ref)
  | loadController (st : Ref)
  | loadViewer (st : Ref)
  | accumulators (self : Ref)
  | defaults (self : Ref)
  | updates (self : Ref)
  | define (self : Ref) (name : String) (definition : Val)
  | deleteDefinition (self : Ref) (name : String)
  | defineByShape (self : Ref) (name : String) (shapes : PyTree ShapeItem) (dtype : DType) (fill : α)
  | newBuilder (batchShape : List Nat) (coreDtype : Option DType) (epsilon depression : α)
  | build (self : Ref)
  | transform (self : Ref) (f : Tensor α → Res (Tensor α))
  | maskData (self : Ref) (mask : Tensor α)
  | unhaltedOnly (self : Ref)
  | haltedOnly (self : Ref)
  | setProbabilities (self : Ref) (values : Tensor α)
  | setResiduals (self : Ref) (values : Tensor α)
  | setIterations (self : Ref) (values : Tensor α)
  | setEpsilon (self : Ref) (epsilon : α)
  | setAccumulator (self : Ref) (name : String) (value : Val)
  | setDefaults (self : Ref) (name : String) (value : Val)
  | setUpdates (self : Ref) (name : String) (values : Val)
  | editController (controller : Ref) (errorMode : String)
  | editSave (st : Ref) (errorMode : String)
  | replace (st : Ref) (epsilon : Option α) (iterations residuals probabilities : Option (Tensor α))
      (accumulators defaults updates : Option Ref) (depression : Option α) (mode : Option String)
  | newTree (t : PyTree (Leaf α))

/-- What the call does; the last one is the user making a pytree. -/
def Call.run : Call α → M α Ref
  | .cacheUpdate self name item => Mem.cacheUpdate self name item
  | .iterateAct self halting => Mem.iterateAct self halting
  | .resetBatches self => Mem.resetBatches self
  | .makeViewer self => Mem.makeViewer self
  | .save self => Mem.save self
  | .loadController st => Mem.loadController st
  | .loadViewer st => Mem.loadViewer st
  | .accumulators self => exposedDict self (·.accumulators)
  | .defaults self => exposedDict self (·.defaults)
  | .updates self => exposedDict self (·.updates)
  | .define self name d => Mem.define self name d
  | .deleteDefinition self name => Mem.deleteDefinition self name
  | .defineByShape self name s d f => Mem.defineByShape self name s d f
  | .newBuilder b c e d => Mem.newBuilder b c e d
  | .build self => Mem.build self
  | .transform self f => Mem.transform self f
  | .maskData self m => Mem.maskData self m
  | .unhaltedOnly self => Mem.unhaltedOnly self
  | .haltedOnly self => Mem.haltedOnly self
  | .setProbabilities self v => Mem.setProbabilities self v
  | .setResiduals self v => Mem.setResiduals self v
  | .setIterations self v => Mem.setIterations self v
  | .setEpsilon self e => Mem.setEpsilon self e
  | .setAccumulator self n v => Mem.setAccumulator self n v
  | .setDefaults self n v => Mem.setDefaults self n v
  | .setUpdates self n v => Mem.setUpdates self n v
  | .editController c m => Mem.editController c m
  | .editSave s m => Mem.editSave s m
  | .replace st e i r p a d u dc m => Mem.replace st e i r p a d u dc m
  | .newTree t => alloc (.tree t)

/-- A program: calls one after the other, each on any objects; exceptions are caught by the user
and the program goes on. -/
def runCalls : List (Call α) → Heap α → Heap α
  | [], h => h
  | c :: cs, h => runCalls cs (c.run.exec h).2

end JaxAct.Mem
