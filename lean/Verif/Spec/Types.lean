import Verif.Spec.History
import Verif.Spec.WellFormed

/-!
# Specification vocabulary: values of the same types

Two trees, states, calls or outcomes that differ only in the numbers inside the tensors (and in the
kind of numbers: floats of any precision, exact numbers, or the abstract values JAX traces with).
-/

namespace JaxAct
variable {α β : Type}

/-- The shape and dtype of a leaf; `none` for an object that is not an array. -/
def Leaf.type : Leaf α → Option (List Nat × DType)
  | .tensor t => some (t.shape, t.dtype)
  | .obj _ => none

/-- Same structure, and leaves of pairwise the same shape and dtype. -/
def TreesAlike (s : PyTree (Leaf α)) (t : PyTree (Leaf β)) : Prop :=
  s.treeStructure = t.treeStructure ∧ s.treeLeaves.map Leaf.type = t.treeLeaves.map Leaf.type

/-- Same shape and dtype. -/
def TensorsAlike (t : Tensor α) (u : Tensor β) : Prop := t.shape = u.shape ∧ t.dtype = u.dtype

/-- The same names, with alike trees. -/
def DictsAlike (d : Dict (PyTree (Leaf α))) (e : Dict (PyTree (Leaf β))) : Prop :=
  ∀ n, Option.Rel TreesAlike (d.get? n) (e.get? n)

/-- States of the same types. -/
structure StatesAlike (s : ACTStates α) (s' : ACTStates β) : Prop where
  iterations : TensorsAlike s.iterations s'.iterations
  residuals : TensorsAlike s.residuals s'.residuals
  probabilities : TensorsAlike s.probabilities s'.probabilities
  defaults : DictsAlike s.defaults s'.defaults
  accumulators : DictsAlike s.accumulators s'.accumulators
  updates : DictsAlike s.updates s'.updates
  error_mode : s.error_mode = s'.error_mode

/-- The same call with arguments of the same types. -/
inductive CallsAlike : Op α → Op β → Prop
  | cache (name : String) {t : PyTree (Leaf α)} {u : PyTree (Leaf β)} (h : TreesAlike t u) :
      CallsAlike (.cache name t) (.cache name u)
  | iterate {h : Tensor α} {h' : Tensor β} (e : TensorsAlike h h') :
      CallsAlike (.iterate h) (.iterate h')
  | reset : CallsAlike .reset .reset

/-- The same exception, or controllers of the same types. -/
inductive OutcomesAlike : Res (Controller α) → Res (Controller β) → Prop
  | ok {c : Controller α} {c' : Controller β} (h : StatesAlike c.state c'.state) :
      OutcomesAlike (.ok c) (.ok c')
  | error (e : Err) : OutcomesAlike (.error e) (.error e)

end JaxAct
