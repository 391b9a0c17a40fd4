import Verif.Spec.History
import Verif.Lemmas.Arr

/-!
# Taking one element out of a batch

`x[b]` for tensors, trees, states and calls: the unbatched problem at batch index `b`.
-/

namespace JaxAct
variable {α : Type}

theorem inB_take_drop {s b i : List Nat} (h : InB (s.take b.length) b)
    (hi : InB (s.drop b.length) i) : InB s (b ++ i) := by
  have := (inB_append h.length).2 ⟨h, hi⟩
  rwa [List.take_append_drop] at this

/-- `a[b]`: index the leading axes by `b`.  An array that cannot be indexed by `b` is left as it
is. -/
def Arr.slice {β : Type} (b : List Nat) (a : Arr β) : Arr β :=
  if h : InB (a.shape.take b.length) b then
    ⟨a.shape.drop b.length, fun i hi => a.get (b ++ i) (inB_take_drop h hi)⟩
  else a

/-- `t[b]` -/
def Tensor.slice (b : List Nat) (t : Tensor α) : Tensor α := ⟨t.dtype, t.arr.slice b⟩

/-- `l[b]` for tensors. -/
def Leaf.slice (b : List Nat) : Leaf α → Leaf α
  | .tensor t => .tensor (t.slice b)
  | .obj o => .obj o

/-- Slice every tree of a dictionary. -/
def Dict.slice (b : List Nat) (d : Dict (PyTree (Leaf α))) : Dict (PyTree (Leaf α)) :=
  d.map fun kv => (kv.1, kv.2.map (Leaf.slice b))

/-- The state of batch element `b` alone, with batch shape `()`. -/
def ACTStates.slice (b : List Nat) (s : ACTStates α) : ACTStates α :=
  { s with
    iterations := s.iterations.slice b
    residuals := s.residuals.slice b
    probabilities := s.probabilities.slice b
    defaults := Dict.slice b s.defaults
    accumulators := Dict.slice b s.accumulators
    updates := Dict.slice b s.updates }

/-- The call that batch element `b` sees. -/
def Op.slice (b : List Nat) : Op α → Op α
  | .cache n x => .cache n (x.map (Leaf.slice b))
  | .iterate h => .iterate (h.slice b)
  | .reset => .reset

/-- All leaves are tensors whose shape starts with the batch shape (nothing is said about dtypes). -/
def Sliceable (batch : List Nat) (x : PyTree (Leaf α)) : Prop :=
  ∀ l ∈ x.treeLeaves, ∃ t : Tensor α, l = .tensor t ∧ batch <+: t.shape

end JaxAct
