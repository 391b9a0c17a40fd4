import Verif.Basic.Special
import Verif.Spec.Families

/-!
# Specification vocabulary: numbers that fit their dtype

For comparing arithmetic that overflows to infinity (`Basic/Special`) with arithmetic that does not
(`Basic/Round`).
-/

namespace JaxAct

/-- `x` is a finite number of dtype `d`: it is not rounded and does not overflow. -/
def DType.Holds (d : DType) (x : ℚ) : Prop := d.ieeeRound x = .num x

/-- `X` is the finite number `f ()`. -/
def Finite (f : Unit → ℚ) (X : Ext) : Prop := X = .num (f ())

/-- The bookkeeping of a controller as every controller has it: `epsilon`, the depression constant and the
cumulative probabilities are between 0 and 1, and the three tensors hold finite numbers of their dtypes.
(Nothing about the accumulators.) -/
structure ACTStates.InRange (s : ACTStates ℚ) : Prop where
  eps : 0 ≤ s.epsilon ∧ s.epsilon ≤ 1
  dep : 0 ≤ s.depression_constant ∧ s.depression_constant ≤ 1
  prob : ∀ b p, s.probabilities.at? b = some p → s.probabilities.dtype.Holds p ∧ 0 ≤ p ∧ p ≤ 1
  resid : ∀ b r, s.residuals.at? b = some r → s.residuals.dtype.Holds r
  iter : ∀ b n, s.iterations.at? b = some n → s.iterations.dtype.Holds n

/-- The call does not take an accumulator out of the range of its dtype, computed without overflow: the
results of an `iterate_act` are at most the largest number of the accumulator's dtype, and the updates at
most the largest number of the dtype they are multiplied in (for updates that are finite floating point
numbers that is always so). -/
def Op.Fits [Arith ℚ] (s : ACTStates ℚ) : Op ℚ → Prop
  | .iterate h => ∀ n k (ta tu : Tensor ℚ), ACTStates.leaf? s.accumulators n k = some (.tensor ta) →
      ACTStates.leaf? s.updates n k = some (.tensor tu) →
      (∀ i u, tu.at? i = some u → |u| ≤ (DType.promote s.probabilities.dtype tu.dtype).largest) ∧
      ∀ c, Controller.iterateAct ⟨s⟩ h = .ok c → ∀ i a, ACTStates.entry? c.state.accumulators n k i = some a →
        |a| ≤ ta.dtype.largest
  | _ => True

end JaxAct
