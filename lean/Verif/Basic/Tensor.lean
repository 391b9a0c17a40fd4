import Verif.Basic.Arith
import Verif.Basic.Arr

/-!
# Tensors: `jnp.ndarray` with a dtype, and the JAX operations the library calls

Boolean arrays that the library computes itself (comparisons) are `Arr Bool`; a boolean array
that is used as a number is `Tensor.ofMask`.
-/

namespace JaxAct

/-- A `jnp.ndarray`. -/
structure Tensor (α : Type) where
  dtype : DType
  arr : Arr α

namespace Tensor
variable {α : Type}

/-- `t.shape` -/
@[reducible] def shape (t : Tensor α) : List Nat := t.arr.shape

/-- Observation: entry at an index. -/
@[reducible] def at? (t : Tensor α) (i : List Nat) : Option α := t.arr.at? i

/-- `jax.lax.select(pred, on_true, on_false)`: the cases must have the same shape and dtype, the
predicate must be a scalar or have that shape; otherwise `TypeError`. -/
def select (pred : Arr Bool) (a b : Tensor α) : Res (Tensor α) :=
  if hs : a.arr.shape = b.arr.shape ∧ a.dtype = b.dtype then
    if hp : pred.shape = a.arr.shape then
      .ok ⟨a.dtype, a.arr.shape, fun i hi =>
        if pred.get i (hp ▸ hi) then a.arr.get i hi else b.arr.get i (hs.1 ▸ hi)⟩
    else if h0 : pred.shape = [] then
      .ok ⟨a.dtype, a.arr.shape, fun i hi =>
        if pred.get [] (h0 ▸ List.Forall₂.nil) then a.arr.get i hi else b.arr.get i (hs.1 ▸ hi)⟩
    else .error .typeError
  else .error .typeError

variable [Arith α]

/-- Conversion of an array to a dtype (no operation if it already has it). -/
def conv (d : DType) (t : Tensor α) : Tensor α :=
  if t.dtype = d then t else ⟨d, t.arr.map (Arith.cast d)⟩

/-- A boolean array used as a number. -/
def ofMask (m : Arr Bool) : Tensor α := ⟨.bool, m.map Arith.ofBool⟩

/-- Binary elementwise operation between two arrays: JAX promotion and numpy broadcasting. -/
def binop (op : DType → α → α → α) (a b : Tensor α) : Res (Tensor α) :=
  let d := DType.promote a.dtype b.dtype
  match Arr.bmap2 (op d) (conv d a).arr (conv d b).arr with
  | some r => .ok ⟨d, r⟩
  | none => .error (Arr.bErr a.shape b.shape)

/-- `c * t` for a Python float `c`. -/
def floatMul (c : α) (t : Tensor α) : Tensor α :=
  let d := t.dtype.withFloat
  ⟨d, (conv d t).arr.map fun x => Arith.mul d (Arith.cast d c) x⟩

/-- `1 - t` for the Python int `1`. -/
def oneSub (t : Tensor α) : Tensor α :=
  let d := t.dtype.withInt
  ⟨d, (conv d t).arr.map fun x => Arith.sub d Arith.one x⟩

/-- `t + 1` for the Python int `1`. -/
def addOne (t : Tensor α) : Tensor α :=
  let d := t.dtype.withInt
  ⟨d, (conv d t).arr.map fun x => Arith.add d x Arith.one⟩

/-- `jnp.clip(t, 0.0, 1.0)`, i.e. `minimum(1.0, maximum(0.0, t))`. -/
def clip01 (t : Tensor α) : Tensor α :=
  let d := t.dtype.withFloat
  ⟨d, (conv d t).arr.map fun x => Arith.min Arith.one (Arith.max Arith.zero x)⟩

/-- `t > c` for a Python float `c`. -/
def gtFloat (t : Tensor α) (c : α) : Arr Bool :=
  let d := t.dtype.withFloat
  (conv d t).arr.map fun x => Arith.lt (Arith.cast d c) x

/-- `jnp.full(shape, fill, dtype)` -/
def full (s : List Nat) (d : DType) (v : α) : Tensor α := ⟨d, Arr.full s (Arith.cast d v)⟩

/-- `jnp.zeros(shape, dtype)` -/
def zeros (s : List Nat) (d : DType) : Tensor α := ⟨d, Arr.full s Arith.zero⟩

end Tensor

/-- A leaf of a pytree: a tensor, or some Python object that is not an array (it has none of the
attributes `shape`, `ndim`, `dtype`). -/
inductive Leaf (α : Type) where
  | tensor (t : Tensor α)
  | obj (o : String)

namespace Leaf
variable {α : Type}

/-- The leaf as a tensor; accessing an array attribute of anything else raises `AttributeError`. -/
def asTensor : Leaf α → Res (Tensor α)
  | tensor t => .ok t
  | obj _ => .error .attributeError

/-- Observation: the entry of a tensor leaf. -/
def at? : Leaf α → List Nat → Option α
  | tensor t, i => t.at? i
  | obj _, _ => none

end Leaf
end JaxAct
