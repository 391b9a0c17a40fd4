import Verif.Basic.Dict

/-!
# Model of `/repo/src/jax_act/core/immutable.py`

An object is its attribute dictionary.  `truthy` is Python's `bool()` on attribute values.
-/

namespace JaxAct

/-- A Python object: its instance attributes. -/
structure Obj (V : Type) where
  attrs : Dict V

namespace Obj
variable {V : Type} (truthy : V → Bool)

/-- `Immutable.__setattr__`, `immutable.py:6-9`. -/
def setattr (o : Obj V) (key : String) (value : V) : Res (Obj V) :=
  match o.attrs.get? "_is_immutable" with
  | some f =>
    if truthy f && key != "_is_immutable" then raise .attributeError
    else .ok ⟨o.attrs.set key value⟩
  | none => .ok ⟨o.attrs.set key value⟩

/-- `Immutable.__init__`, `immutable.py:2-3`, on a fresh object. -/
def init (false_ : V) : Res (Obj V) := setattr truthy ⟨[]⟩ "_is_immutable" false_

/-- `make_immutable`, `immutable.py:4-5`. -/
def makeImmutable (true_ : V) (o : Obj V) : Res (Obj V) := setattr truthy o "_is_immutable" true_

/-- A constructor of the package: `super().__init__()`, then assignments, then `make_immutable()`
(`controller.py:441-444`, `builder.py:465-477`, `viewer.py:208-217`, `tensoreditor.py:506-520`). -/
def construct (false_ true_ : V) (fields : List (String × V)) : Res (Obj V) := do
  let o ← init truthy false_
  let o ← fields.foldlM (fun o kv => setattr truthy o kv.1 kv.2) o
  makeImmutable truthy true_ o

/-- `ACT_Controller(state)`, `controller.py:441-444`; `ControllerBuilder(state)`, `builder.py:465-477`;
`ACTViewer(state)`, `viewer.py:208-217`. -/
def constructStateHolder (false_ true_ state : V) : Res (Obj V) :=
  construct truthy false_ true_ [("state", state)]

/-- `TensorEditor(state, error_mode)`, `tensoreditor.py:506-520`. -/
def constructEditor (false_ true_ state errorMode : V) : Res (Obj V) :=
  construct truthy false_ true_ [("error_mode", errorMode), ("state", state)]

/-- `del o.key`: `Immutable` does not define `__delattr__`, so this is `object.__delattr__`. -/
def delattr (o : Obj V) (key : String) : Res (Obj V) :=
  if o.attrs.mem key then .ok ⟨o.attrs.erase key⟩ else raise .attributeError

end Obj
end JaxAct
