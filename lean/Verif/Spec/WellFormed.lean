import Verif.Model.State

/-!
# Well-formed states

The invariant that every state made by the builder satisfies (proved in `Props/C26`), and that the
refinement theorems assume.
-/

namespace JaxAct

variable {α : Type}

/-- Two trees of tensors have the same structure and their leaves pairwise the same shape and
dtype. -/
def SameType (s t : PyTree (Leaf α)) : Prop :=
  s.treeStructure = t.treeStructure ∧
  List.Forall₂ (fun x y => ∃ a b, x = Leaf.tensor a ∧ y = Leaf.tensor b ∧ a.shape = b.shape ∧
    a.dtype = b.dtype) s.treeLeaves t.treeLeaves

/-- All leaves are floating tensors whose shape starts with the batch shape. -/
def Batched (batch : List Nat) (t : PyTree (Leaf α)) : Prop :=
  ∀ l ∈ t.treeLeaves, ∃ a : Tensor α, l = Leaf.tensor a ∧ a.dtype.isFloating = true ∧
    batch <+: a.shape

/-- Well-formed state. -/
structure ACTStates.WF (s : ACTStates α) : Prop where
  floating : s.probabilities.dtype.isFloating = true
  res_shape : s.residuals.shape = s.probabilities.shape
  res_dtype : s.residuals.dtype = s.probabilities.dtype
  it_shape : s.iterations.shape = s.probabilities.shape
  it_dtype : s.iterations.dtype ≠ .bool
  acc_keys : s.accumulators.WF
  def_keys : s.defaults.WF
  upd_keys : s.updates.WF
  def_iff : ∀ n, n ∈ s.defaults.keys ↔ n ∈ s.accumulators.keys
  upd_iff : ∀ n, n ∈ s.updates.keys ↔ n ∈ s.accumulators.keys
  batched : ∀ n t, s.accumulators.get? n = some t → Batched s.probabilities.shape t
  same : ∀ n t u, s.accumulators.get? n = some t → s.defaults.get? n = some u → SameType t u

end JaxAct
