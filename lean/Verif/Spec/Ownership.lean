import Verif.Spec.Heap

/-! # Programs that also modify containers themselves

Python code holds references.  It calls methods on objects it holds, follows references, and modifies
containers it holds in place: dictionaries, pytrees, and the attributes of an `ACTStates` object, which
is an ordinary dataclass (`states.py:31`).  It cannot assign to attributes of controllers, builders,
viewers and editors (C44) and cannot invent references. -/

namespace JaxAct.Mem
variable {α : Type}

/-- The references an object holds. -/
def Cell.refs : Cell α → List Ref
  | .tree _ => []
  | .dict d => d.filterMap (·.2)
  | .state s => [s.defaults, s.accumulators, s.updates]
  | .obj _ (some st) => [st]
  | .obj _ none => []

/-- What can be reached by following references from `E`. -/
inductive Reach (h : Heap α) (E : List Ref) : Ref → Prop
  | base {r : Ref} : r ∈ E → Reach h E r
  | step {r r' : Ref} {c : Cell α} : Reach h E r → h[r]? = some c → r' ∈ c.refs → Reach h E r'

/-- The references among the arguments of a call. -/
def Call.refs : Call α → List Ref
  | .cacheUpdate self _ item => self :: item.toList
  | .iterateAct self _ | .resetBatches self | .makeViewer self | .save self | .loadController self
  | .loadViewer self | .accumulators self | .defaults self | .updates self
  | .deleteDefinition self _ | .defineByShape self _ _ _ _ | .build self | .transform self _
  | .maskData self _ | .unhaltedOnly self | .haltedOnly self | .setProbabilities self _
  | .setResiduals self _ | .setIterations self _ | .setEpsilon self _ | .editController self _
  | .editSave self _ => [self]
  | .define self _ d => self :: d.toList
  | .newBuilder _ _ _ _ | .newTree _ => []
  | .setAccumulator self _ v | .setDefaults self _ v | .setUpdates self _ v => self :: v.toList
  | .replace st _ _ _ _ a d u _ _ => st :: (a.toList ++ d.toList ++ u.toList)

/-- Which containers of the result of a method are new objects; the others are those of the object
the method was called on. -/
structure Sharing where
  state : Bool
  defaults : Bool
  accumulators : Bool
  updates : Bool

/-- The state object a call starts from: that of an object, or one passed directly. -/
inductive Source where
  | obj (self : Ref)
  | state (st : Ref)

/-- The table: what is new in the result of each method that returns an object. -/
def Call.sharing : Call α → Option (Source × Sharing)
  | .build o | .makeViewer o | .editController o _ => some (.obj o, ⟨false, false, false, false⟩)
  | .loadController st | .loadViewer st | .editSave st _ =>
    some (.state st, ⟨false, false, false, false⟩)
  | .setProbabilities o _ | .setResiduals o _ | .setIterations o _ | .setEpsilon o _ =>
    some (.obj o, ⟨true, false, false, false⟩)
  | .cacheUpdate o _ _ | .setUpdates o _ _ => some (.obj o, ⟨true, false, false, true⟩)
  | .resetBatches o | .setAccumulator o _ _ => some (.obj o, ⟨true, false, true, false⟩)
  | .setDefaults o _ _ => some (.obj o, ⟨true, true, false, false⟩)
  | .iterateAct o _ => some (.obj o, ⟨true, false, true, true⟩)
  | .define o _ _ | .deleteDefinition o _ | .defineByShape o _ _ _ _ | .transform o _
  | .maskData o _ | .unhaltedOnly o | .haltedOnly o => some (.obj o, ⟨true, true, true, true⟩)
  | .save _ | .accumulators _ | .defaults _ | .updates _ | .newBuilder _ _ _ _
  | .replace _ _ _ _ _ _ _ _ _ _ | .newTree _ => none

/-- The source has the state object `st`. -/
def Source.holds (h : Heap α) (st : Ref) : Source → Prop
  | .obj o => ∃ c, h[o]? = some (.obj c (some st))
  | .state r => r = st

/-- A reference that is new with respect to a heap, or an old one. -/
def IsNew (h : Heap α) (new : Bool) (old r : Ref) : Prop := if new then h.length ≤ r else r = old

/-- Containers that can be modified in place, and what they can become. -/
def Cell.mutable : Cell α → Cell α → Bool
  | .tree _, .tree _ => true
  | .dict _, .dict _ => true
  | .state _, .state _ => true
  | _, _ => false

/-- A step of a program. -/
inductive Step (α : Type) where
  /-- call a method; exceptions are caught -/
  | call (c : Call α)
  /-- read the attributes or items of an object -/
  | look (r : Ref)
  /-- modify a container in place: give it new contents -/
  | modify (r : Ref) (c : Cell α)

variable [Arith α]

/-- One step: the references the program holds, and the heap.  A step that uses a reference the
program does not hold does nothing. -/
def Step.run : Step α → List Ref × Heap α → List Ref × Heap α
  | .call c, (E, h) =>
    if c.refs.all (· ∈ E) then
      match c.run.exec h with
      | (.ok r, h') => (r :: E, h')
      | (.error _, h') => (E, h')
    else (E, h)
  | .look r, (E, h) =>
    if r ∈ E then
      match h[r]? with
      | some c => (c.refs ++ E, h)
      | none => (E, h)
    else (E, h)
  | .modify r c, (E, h) =>
    if r ∈ E ∧ c.refs.all (· ∈ E) then
      match h[r]? with
      | some c0 => if c0.mutable c then (E, h.set r c) else (E, h)
      | none => (E, h)
    else (E, h)

/-- A program. -/
def runSteps : List (Step α) → List Ref × Heap α → List Ref × Heap α
  | [], x => x
  | s :: ss, x => runSteps ss (s.run x)

end JaxAct.Mem
