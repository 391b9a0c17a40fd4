import Verif.Model.Editor
import Verif.Spec.WellFormed
import Verif.Lemmas.Structure

/-!
# Edits

A call of one of the seven setters of an editor (`tensoreditor.py:300-462`), and sequences of such
calls, `editor.set_probabilities(..).set_defaults(..)...`.
-/

namespace JaxAct
variable {α : Type} [Arith α]

/-- A setter with its arguments. -/
inductive Edit (α : Type) where
  | probabilities (v : Tensor α)
  | residuals (v : Tensor α)
  | iterations (v : Tensor α)
  | epsilon (x : α)
  | accumulator (name : String) (v : PyTree (Leaf α))
  | default (name : String) (v : PyTree (Leaf α))
  | update (name : String) (v : PyTree (Leaf α))

/-- The place an edit writes to. -/
inductive Target where
  | probabilities
  | residuals
  | iterations
  | epsilon
  | accumulator (name : String)
  | default (name : String)
  | update (name : String)
deriving DecidableEq

namespace Edit

/-- Perform the call. -/
def call (e : Editor α) : Edit α → Res (Editor α)
  | probabilities v => e.setProbabilities v
  | residuals v => e.setResiduals v
  | iterations v => e.setIterations v
  | epsilon x => e.setEpsilon x
  | accumulator n v => e.setAccumulator n v
  | default n v => e.setDefaults n v
  | update n v => e.setUpdates n v

omit [Arith α]

/-- The place written. -/
def target : Edit α → Target
  | probabilities _ => .probabilities
  | residuals _ => .residuals
  | iterations _ => .iterations
  | epsilon _ => .epsilon
  | accumulator n _ => .accumulator n
  | default n _ => .default n
  | update n _ => .update n

/-- The state holds what the edit writes. -/
def Holds (s : ACTStates α) : Edit α → Prop
  | probabilities v => s.probabilities = v
  | residuals v => s.residuals = v
  | iterations v => s.iterations = v
  | epsilon x => s.epsilon = x
  | accumulator n v => s.accumulators.get? n = some v
  | default n v => s.defaults.get? n = some v
  | update n v => s.updates.get? n = some v

/-- The value has no `None`; an update may be `None` as a whole. -/
def NoNone : Edit α → Prop
  | accumulator _ v => v.NoNone
  | default _ v => v.NoNone
  | update _ v => v = .none ∨ v.NoNone
  | _ => True

end Edit

omit [Arith α] in
/-- Two states agree at a place. -/
def Target.Agree (s s' : ACTStates α) : Target → Prop
  | .probabilities => s.probabilities = s'.probabilities
  | .residuals => s.residuals = s'.residuals
  | .iterations => s.iterations = s'.iterations
  | .epsilon => s.epsilon = s'.epsilon
  | .accumulator n => s.accumulators.get? n = s'.accumulators.get? n
  | .default n => s.defaults.get? n = s'.defaults.get? n
  | .update n => s.updates.get? n = s'.updates.get? n

/-- Perform the edits one after the other; stops at the first exception. -/
def runEdits (e : Editor α) : List (Edit α) → Res (Editor α)
  | [] => .ok e
  | ed :: eds => do
    let e' ← ed.call e
    runEdits e' eds

/-- What an edit in standard mode has to satisfy, in terms of the state the session started from:
tensors keep shape and dtype and have sensible values, trees have the type of the accumulator. -/
def Edit.Fits (s : ACTStates α) : Edit α → Prop
  | .probabilities v => v.shape = s.probabilities.shape ∧ v.dtype = s.probabilities.dtype ∧
      ∀ i x, v.at? i = some x → Arith.lt x Arith.zero = false ∧ Arith.lt Arith.one x = false
  | .residuals v => v.shape = s.residuals.shape ∧ v.dtype = s.residuals.dtype ∧
      ∀ i x, v.at? i = some x → Arith.lt x Arith.zero = false ∧ Arith.lt Arith.one x = false
  | .iterations v => v.shape = s.iterations.shape ∧ v.dtype = s.iterations.dtype ∧
      ∀ i x, v.at? i = some x → Arith.le Arith.zero x = true
  | .epsilon x => Arith.le Arith.zero x = true ∧ Arith.le x Arith.one = true
  | .accumulator n v => ∃ a, s.accumulators.get? n = some a ∧ SameType a v
  | .default n v => ∃ a, s.accumulators.get? n = some a ∧ SameType a v
  | .update n v => ∃ a, s.accumulators.get? n = some a ∧ (v = .none ∨ SameType a v)

omit [Arith α] in
/-- No accumulator and no default contains `None`. -/
def ACTStates.NoNone (s : ACTStates α) : Prop :=
  (∀ n t, s.accumulators.get? n = some t → t.NoNone) ∧ ∀ n t, s.defaults.get? n = some t → t.NoNone

end JaxAct
