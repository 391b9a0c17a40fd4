import Verif.Model.Builder
import Verif.Model.Editor
import Verif.Model.Viewer
import Verif.Lemmas.Structure
import Mathlib.Algebra.Order.Ring.Defs
import Mathlib.Algebra.Field.Defs

/-!
# Sessions: calls on all four classes

A user holds one object (a builder, controller, editor or viewer) and calls its public methods one
after the other.
-/

namespace JaxAct
variable {α : Type} [Arith α]

/-- The object the user holds. -/
inductive Session (α : Type) where
  | builder (b : Builder α)
  | controller (c : Controller α)
  | editor (e : Editor α)
  | viewer (v : Viewer α)

/-- Its attribute `state`. -/
def Session.state : Session α → ACTStates α
  | .builder b => b.state
  | .controller c => c.state
  | .editor e => e.state
  | .viewer v => v.state

/-- One call. -/
inductive ApiCall (α : Type) where
  | define (name : String) (tree : PyTree (Leaf α))
  | byShape (name : String) (shapes : PyTree ShapeItem) (dtype : DType) (fill : α)
  | delete (name : String)
  | build
  | cache (name : String) (item : PyTree (Leaf α))
  | iterate (halting : Tensor α)
  | reset
  | makeViewer
  /-- `TensorEditor.edit_controller(self, mode)` -/
  | edit (mode : String)
  | setProbabilities (values : Tensor α)
  | setResiduals (values : Tensor α)
  | setIterations (values : Tensor α)
  | setEpsilon (value : α)
  | setAccumulator (name : String) (value : PyTree (Leaf α))
  | setDefaults (name : String) (value : PyTree (Leaf α))
  | setUpdates (name : String) (value : PyTree (Leaf α))
  | transform (f : Tensor α → Res (Tensor α))
  | mask (m : Tensor α)
  | haltedOnly
  | unhaltedOnly
  /-- `ACT_Controller.load(self.save())` -/
  | loadController
  /-- `ACTViewer.load(self.save())` -/
  | loadViewer
  /-- `TensorEditor.edit_save(self.save(), mode)` -/
  | editSave (mode : String)

/-- Perform the call; `AttributeError` if the class has no such method (a builder has no `save`). -/
def ApiCall.call : Session α → ApiCall α → Res (Session α)
  | .builder b, .define n t => (b.defineAccumulatorDirectly n t).map .builder
  | .builder b, .byShape n s d f => (b.defineAccumulatorByShape n s d f).map .builder
  | .builder b, .delete n => (b.deleteDefinition n).map .builder
  | .builder b, .build => .ok (.controller b.build)
  | .controller c, .cache n t => (c.cacheUpdate n t).map .controller
  | .controller c, .iterate h => (c.iterateAct h).map .controller
  | .controller c, .reset => c.resetBatches.map .controller
  | .controller c, .makeViewer => .ok (.viewer c.makeViewer)
  | .controller c, .edit m => (Editor.editController c m).map .editor
  | .controller c, .loadController => .ok (.controller (Controller.load c.save))
  | .controller c, .loadViewer => .ok (.viewer (Viewer.load c.save))
  | .controller c, .editSave m => (Editor.editSave c.save m).map .editor
  | .editor e, .setProbabilities v => (e.setProbabilities v).map .editor
  | .editor e, .setResiduals v => (e.setResiduals v).map .editor
  | .editor e, .setIterations v => (e.setIterations v).map .editor
  | .editor e, .setEpsilon v => (e.setEpsilon v).map .editor
  | .editor e, .setAccumulator n v => (e.setAccumulator n v).map .editor
  | .editor e, .setDefaults n v => (e.setDefaults n v).map .editor
  | .editor e, .setUpdates n v => (e.setUpdates n v).map .editor
  | .editor e, .build => .ok (.controller e.build)
  | .editor e, .loadController => .ok (.controller (Controller.load e.save))
  | .editor e, .loadViewer => .ok (.viewer (Viewer.load e.save))
  | .editor e, .editSave m => (Editor.editSave e.save m).map .editor
  | .viewer v, .transform f => (v.transform f).map .viewer
  | .viewer v, .mask m => (v.maskData m).map .viewer
  | .viewer v, .haltedOnly => v.haltedOnly.map .viewer
  | .viewer v, .unhaltedOnly => v.unhaltedOnly.map .viewer
  | .viewer v, .loadController => .ok (.controller (Controller.load v.save))
  | .viewer v, .loadViewer => .ok (.viewer (Viewer.load v.save))
  | .viewer v, .editSave m => (Editor.editSave v.save m).map .editor
  | _, _ => raise .attributeError

/-- The calls one after the other; an exception ends the session. -/
def runApi (s : Session α) : List (ApiCall α) → Res (Session α)
  | [] => .ok s
  | op :: ops => do
    let s' ← op.call s
    runApi s' ops

/-- The arguments are of the documented kind: the pytrees given for definitions, accumulators and
defaults are made of lists, tuples, dicts and arrays (`types.py:20-24`), without `None`; editors are
opened in mode `"standard"`; a function given to `transform` keeps shapes and dtypes. -/
def ApiCall.Proper : ApiCall α → Prop
  | .define _ t => t.NoNone
  | .byShape _ s _ _ => s.NoNone
  | .edit m => m = "standard"
  | .editSave m => m = "standard"
  | .setAccumulator _ v => v.NoNone
  | .setDefaults _ v => v.NoNone
  | .transform f => ∀ t r, f t = .ok r → r.shape = t.shape ∧ r.dtype = t.dtype
  | _ => True

/-- Exact arithmetic: a mask holds booleans, and a function given to `transform` keeps values in
`[0, 1]` there and non-negative values non-negative. -/
def ApiCall.InRange {K : Type} [Field K] [LinearOrder K] : ApiCall K → Prop
  | .mask m => ∀ b x, m.at? b = some x → x = 0 ∨ x = 1
  | .transform f => ∀ t r, f t = .ok r →
    ((∀ b x, t.at? b = some x → 0 ≤ x ∧ x ≤ 1) → ∀ b x, r.at? b = some x → 0 ≤ x ∧ x ≤ 1) ∧
    ((∀ b x, t.at? b = some x → 0 ≤ x) → ∀ b x, r.at? b = some x → 0 ≤ x)
  | _ => True

end JaxAct
