import Verif.Spec.Edit

/-!
# Specification: what an editor may turn a state into
-/

namespace JaxAct
variable {α : Type} [Arith α]

omit [Arith α] in
/-- The trees of `d'` are kept under the names of `d`, in the same order, and each is free of `None` and
of the type of the accumulator of `s` of that name. -/
def TreesLike (s : ACTStates α) (d d' : Dict (PyTree (Leaf α))) : Prop :=
  d'.keys = d.keys ∧ ∀ n v, d'.get? n = some v → v.NoNone ∧
    ∃ a, s.accumulators.get? n = some a ∧ SameType a v

/-- `t` differs from `s` at most in values: same names, structures, shapes and dtypes, and the tensors
and numbers that are not those of `s` are in range; slots of updates may also have been emptied. -/
structure Editable (s t : ACTStates α) : Prop where
  depression : t.depression_constant = s.depression_constant
  error_mode : t.error_mode = s.error_mode
  epsilon : t.epsilon = s.epsilon ∨
    Arith.le Arith.zero t.epsilon = true ∧ Arith.le t.epsilon Arith.one = true
  probabilities : t.probabilities = s.probabilities ∨
    t.probabilities.shape = s.probabilities.shape ∧ t.probabilities.dtype = s.probabilities.dtype ∧
    ∀ i x, t.probabilities.at? i = some x → Arith.lt x Arith.zero = false ∧ Arith.lt Arith.one x = false
  residuals : t.residuals = s.residuals ∨
    t.residuals.shape = s.residuals.shape ∧ t.residuals.dtype = s.residuals.dtype ∧
    ∀ i x, t.residuals.at? i = some x → Arith.lt x Arith.zero = false ∧ Arith.lt Arith.one x = false
  iterations : t.iterations = s.iterations ∨
    t.iterations.shape = s.iterations.shape ∧ t.iterations.dtype = s.iterations.dtype ∧
    ∀ i x, t.iterations.at? i = some x → Arith.le Arith.zero x = true
  accumulators : TreesLike s s.accumulators t.accumulators
  defaults : TreesLike s s.defaults t.defaults
  ukeys : t.updates.keys = s.updates.keys
  updates : ∀ n v, t.updates.get? n = some v → s.updates.get? n = some v ∨ v = .none ∨
    v.NoNone ∧ ∃ a, s.accumulators.get? n = some a ∧ SameType a v

end JaxAct
