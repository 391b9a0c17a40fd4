import Verif.Spec.Heap

/-! # What a call gives, in terms of the value models

For every call of the heap model, the value its result should have, computed by the value models
from what the objects it is given look like. -/

namespace JaxAct.Mem
variable {α : Type}

/-- What there is to see at a reference. -/
inductive Seen (α : Type) where
  | obj (c : Cls) (s : ACTStates α)
  | state (s : ACTStates α)
  | dict (d : Dict (PyTree (Leaf α)))
  | tree (t : PyTree (Leaf α))

/-- `x` is what there is to see at the reference `r`. -/
def Looks (h : Heap α) (r : Ref) : Seen α → Prop
  | .obj c s => view h r = some (c, s)
  | .state s => viewState h r = some s
  | .dict d => viewDict h r = some d
  | .tree t => h[r]? = some (.tree t)

/-- The keys of every dictionary are distinct. -/
def DictsWF (h : Heap α) : Prop := ∀ (r : Ref) (d : Dict Val), h[r]? = some (.dict d) → d.WF

/-- The state of an object of any class. -/
def stateOf (h : Heap α) (self : Ref) : Option (ACTStates α) := (view h self).map (·.2)

/-- An editor. -/
def editorOf (h : Heap α) (self : Ref) : Option (Editor α) :=
  match view h self with
  | some (.editor mode, s) => some ⟨s, mode⟩
  | _ => none

/-- An optional dictionary. -/
def viewDict? (h : Heap α) : Option Ref → Option (Option (Dict (PyTree (Leaf α))))
  | none => some none
  | some r => (viewDict h r).map some

/-- An object of a class, or the exception. -/
def giving {γ : Type} (c : Cls) (g : γ → ACTStates α) (p : Res γ) : Res (Seen α) :=
  p.map fun w => .obj c (g w)

/-- An editor, or the exception. -/
def givingEditor (p : Res (Editor α)) : Res (Seen α) :=
  p.map fun w => .obj (.editor w.errorMode) w.state

variable [Arith α]

/-- The value of a call; `none` if it is given a reference to something of the wrong kind. -/
def Call.value (h : Heap α) : Call α → Option (Res (Seen α))
  | .cacheUpdate self name item => do
    let s ← stateOf h self
    let t ← viewTree h item
    pure (giving .controller (·.state) ((Controller.mk s).cacheUpdate name t))
  | .iterateAct self halting => do
    let s ← stateOf h self
    pure (giving .controller (·.state) ((Controller.mk s).iterateAct halting))
  | .resetBatches self => do
    let s ← stateOf h self
    pure (giving .controller (·.state) (Controller.mk s).resetBatches)
  | .makeViewer self => do
    let s ← stateOf h self
    pure (giving .viewer (·.state) (.ok (Controller.mk s).makeViewer))
  | .save self => do
    let s ← stateOf h self
    pure (.ok (.state s))
  | .loadController st => do
    let s ← viewState h st
    pure (giving .controller (·.state) (.ok (Controller.load s)))
  | .loadViewer st => do
    let s ← viewState h st
    pure (giving .viewer (·.state) (.ok (Viewer.load s)))
  | .accumulators self => do
    let s ← stateOf h self
    pure (.ok (.dict s.accumulators))
  | .defaults self => do
    let s ← stateOf h self
    pure (.ok (.dict s.defaults))
  | .updates self => do
    let s ← stateOf h self
    pure (.ok (.dict s.updates))
  | .define self name definition => do
    let s ← stateOf h self
    let t ← viewTree h definition
    pure (giving .builder (·.state) ((Builder.mk s).defineAccumulatorDirectly name t))
  | .deleteDefinition self name => do
    let s ← stateOf h self
    pure (giving .builder (·.state) ((Builder.mk s).deleteDefinition name))
  | .defineByShape self name shapes dtype fill => do
    let s ← stateOf h self
    pure (giving .builder (·.state) ((Builder.mk s).defineAccumulatorByShape name shapes dtype fill))
  | .newBuilder batchShape coreDtype epsilon depression =>
    pure (giving .builder (·.state) (Builder.newBuilder batchShape coreDtype epsilon depression))
  | .build self => do
    let s ← stateOf h self
    pure (giving .controller (·.state) (.ok (Builder.mk s).build))
  | .transform self f => do
    let s ← stateOf h self
    pure (giving .viewer (·.state) ((Viewer.mk s).transform f))
  | .maskData self mask => do
    let s ← stateOf h self
    pure (giving .viewer (·.state) ((Viewer.mk s).maskData mask))
  | .unhaltedOnly self => do
    let s ← stateOf h self
    pure (giving .viewer (·.state) (Viewer.mk s).unhaltedOnly)
  | .haltedOnly self => do
    let s ← stateOf h self
    pure (giving .viewer (·.state) (Viewer.mk s).haltedOnly)
  | .setProbabilities self values => do
    let e ← editorOf h self
    pure (givingEditor (e.setProbabilities values))
  | .setResiduals self values => do
    let e ← editorOf h self
    pure (givingEditor (e.setResiduals values))
  | .setIterations self values => do
    let e ← editorOf h self
    pure (givingEditor (e.setIterations values))
  | .setEpsilon self epsilon => do
    let e ← editorOf h self
    pure (givingEditor (e.setEpsilon epsilon))
  | .setAccumulator self name value => do
    let e ← editorOf h self
    let t ← viewTree h value
    pure (givingEditor (e.setAccumulator name t))
  | .setDefaults self name value => do
    let e ← editorOf h self
    let t ← viewTree h value
    pure (givingEditor (e.setDefaults name t))
  | .setUpdates self name values => do
    let e ← editorOf h self
    let t ← viewTree h values
    pure (givingEditor (e.setUpdates name t))
  | .editController self mode => do
    let s ← stateOf h self
    pure (givingEditor (Editor.editController ⟨s⟩ mode))
  | .editSave st mode => do
    let s ← viewState h st
    pure (givingEditor (Editor.editSave s mode))
  | .replace st epsilon iterations residuals probabilities a? d? u? depression mode => do
    let s ← viewState h st
    let a ← viewDict? h a?
    let d ← viewDict? h d?
    let u ← viewDict? h u?
    pure ((s.replace epsilon iterations residuals probabilities a d u depression mode).map .state)
  | .newTree t => pure (.ok (.tree t))

end JaxAct.Mem
