import Verif.Props.Fixtures

/-!
# The project's own tests, run on the model: common definitions

The files of this directory replay the expectations written in `/repo/tests` on the model, over exact
rational arithmetic.  They are evidence that the model does what its authors expect of the code; no
property rests on them.

At the pinned commit none of the mock states of the tests can be built: the calls of `ACTStates(...)`
leave out `error_mode` (`Conformance/Controller`, first example).  The states below are those of the
tests with `error_mode=None` added.
-/

namespace JaxAct.Conformance
open JaxAct.Fixtures

attribute [local instance] Arith.exact

/-- `jnp.array([...], dtype=int32)` -/
def ivec (xs : List ℚ) : Tensor ℚ := ⟨.i32, ⟨[xs.length], fun i _ => xs.getD (i.headD 0) 0⟩⟩

/-- `jnp.array([[...], ...])`, rows of length `n` -/
def mat (n : Nat) (xs : List (List ℚ)) : Tensor ℚ :=
  ⟨.f32, ⟨[xs.length, n], fun i _ => (xs.getD (i.headD 0) []).getD (i.tail.headD 0) 0⟩⟩

/-- A boolean mask. -/
def mask (xs : List Bool) : Tensor ℚ :=
  ⟨.bool, ⟨[xs.length], fun i _ => if xs.getD (i.headD 0) false then 1 else 0⟩⟩

/-- `jnp.ones(shape)` -/
def ones (s : List Nat) : Tensor ℚ := ⟨.f32, Arr.full s 1⟩

/-- `jnp.zeros(shape)` -/
def zeros (s : List Nat) : Tensor ℚ := ⟨.f32, Arr.full s 0⟩

/-- The entries of an array in row-major order. -/
def entries {β : Type} (a : Arr β) : List β := (Arr.indices a.shape).filterMap a.at?

/-- Dtype, shape and entries: two tensors are equal if these are. -/
structure Shown where
  dtype : DType
  shape : List Nat
  entries : List ℚ
  deriving DecidableEq

/-- What a tensor consists of. -/
def show' (t : Tensor ℚ) : Shown := ⟨t.dtype, t.shape, entries t.arr⟩

/-- The tensors of a tree. -/
def tensors (t : PyTree (Leaf ℚ)) : List Shown :=
  t.treeLeaves.filterMap fun l => match l with
    | .tensor t => some (show' t)
    | .obj _ => none

/-- The tensors of a dict of trees, by name. -/
def contents (d : Dict (PyTree (Leaf ℚ))) : List (String × List Shown) :=
  d.map fun kv => (kv.1, tensors kv.2)

/-- Observe the result of a call that is expected to succeed. -/
def look {β γ : Type} (r : Res β) (f : β → γ) : Option γ :=
  match r with
  | .ok x => some (f x)
  | .error _ => none

/-- `test_controller.py`, `test_editor.py`: the state with two accumulators that most
tests use. -/
def mock : ACTStates ℚ where
  epsilon := 1/10
  iterations := ivec [3, 3, 2]
  residuals := vec [0, 0, 3/10]
  probabilities := vec [1/10, 1/2, 1]
  defaults :=
    [("state", bare (mat 3 [[3, 4, -1], [1/2, 6/5, 21/10], [7/10, 3/10, 1/2]])),
     ("output", bare (mat 3 [[1/10, 1/10, 1/10], [1, 7/10, 3/10], [1/10, 1/10, 1/10]]))]
  accumulators :=
    [("state", bare (mat 3 [[3, 4, -1], [1/2, 6/5, 21/10], [7/10, 3/10, 1/2]])),
     ("output", bare (mat 3 [[1/10, 1/10, 1/10], [1, 7/10, 3/10], [1/10, 1/10, 1/10]]))]
  updates :=
    [("state", bare (mat 3 [[1, 1, 1], [2, 2, 2], [-1, 2, 1]])),
     ("output", bare (mat 3 [[1/10, 1/5, 1/5], [6/5, 6/5, 6/5], [1/10, 1/10, 1/10]]))]
  depression_constant := 1
  error_mode := none

end JaxAct.Conformance
