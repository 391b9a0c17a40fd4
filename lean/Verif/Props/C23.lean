import Verif.Props.C26

/-! # C23 new_builder yields a fresh builder

Full statement: `ValueError` iff the dtype is given and not floating or epsilon is not strictly
between 0 and 1; otherwise a fresh builder.  The second half is **false**: the constructor call
leaves out `error_mode`, which has no default, so every valid call raises `TypeError`.
-/

namespace JaxAct
variable {α : Type} [Arith α]
open Builder

/-- C23, first half (any arithmetic): `ValueError` iff a non-floating dtype is given, or
`epsilon >= 1.0`, or `epsilon <= 0.0`.  Missing: the success half, which does not hold. -/
theorem C23_value_error_iff_partial (batch : List Nat) (dt : Option DType) (eps dep : α) :
    newBuilder batch dt eps dep = .error .valueError ↔
      (∃ d, dt = some d ∧ d.isFloating = false) ∨ Arith.le Arith.one eps = true ∨
        Arith.le eps Arith.zero = true := by
  unfold newBuilder
  by_cases h1 : ∃ d, dt = some d ∧ d.isFloating = false
  · obtain ⟨d, rfl, hd⟩ := h1
    simp [badCoreDtype, hd]
  · have : badCoreDtype dt = false := by
      cases dt with
      | none => rfl
      | some d =>
        simp only [Option.some.injEq, exists_eq_left', Bool.not_eq_false] at h1
        simp [badCoreDtype, h1]
    rw [this]
    by_cases h2 : Arith.le Arith.one eps = true ∨ Arith.le eps Arith.zero = true
    · simp [h1, h2]
    · rw [if_neg (by simp), if_neg (by simpa using h2)]
      simp [h1, h2, ACTStates.new]

/-- C23, negation of the second half: `new_builder` never returns a builder; for valid arguments it
raises `TypeError`. -/
theorem C23_never_succeeds (batch : List Nat) (dt : Option DType) (eps dep : α) :
    (∀ b, newBuilder batch dt eps dep ≠ .ok b) ∧
    ((∀ d, dt = some d → d.isFloating = true) → Arith.le Arith.one eps = false →
      Arith.le eps Arith.zero = false → newBuilder batch dt eps dep = .error .typeError) := by
  constructor
  · intro b h
    unfold newBuilder at h
    split at h
    · cases h
    · split at h
      · cases h
      · simp [ACTStates.new] at h
  · intro h1 h2 h3
    unfold newBuilder
    have : badCoreDtype dt = false := by
      cases dt with
      | none => rfl
      | some d => simp [badCoreDtype, h1 d rfl]
    simp [this, h2, h3, ACTStates.new]

/-- C23, epsilon in exact arithmetic: rejected iff not strictly between 0 and 1. -/
theorem C23_epsilon_exact {K : Type} [Field K] [LinearOrder K] (batch : List Nat)
    (dt : Option DType) (hdt : ∀ d, dt = some d → d.isFloating = true) (eps dep : K) :
    letI := Arith.exact K
    newBuilder batch dt eps dep = .error .valueError ↔ ¬ (0 < eps ∧ eps < 1) := by
  let _ := Arith.exact K
  rw [C23_value_error_iff_partial]
  have hn : ¬ ∃ d, dt = some d ∧ d.isFloating = false := by
    rintro ⟨d, h1, h2⟩; rw [hdt d h1] at h2; cases h2
  have e1 : Arith.le (Arith.one : K) eps = true ↔ 1 ≤ eps := decide_eq_true_iff
  have e2 : Arith.le eps (Arith.zero : K) = true ↔ eps ≤ 0 := decide_eq_true_iff
  rw [e1, e2, not_and_or, not_lt, not_lt]
  simp only [hn, false_or]
  exact or_comm

/-- C23: the same constructor call with `error_mode` supplied succeeds and gives a well-formed state
with zero probabilities, residuals and iterations of the batch shape and no accumulators. -/
theorem C23_fresh_with_error_mode (batch : List Nat) {d : DType} (hd : d.isFloating = true)
    (eps dep : α) (mode : Option String) :
    ∃ s, ACTStates.new
      { epsilon := some eps
        probabilities := some (Tensor.zeros batch d)
        iterations := some (Tensor.zeros batch d)
        residuals := some (Tensor.zeros batch d)
        accumulators := some []
        defaults := some []
        updates := some []
        depression_constant := some dep
        error_mode := some mode } = .ok s ∧ s.WF ∧
      s.probabilities.shape = batch ∧ s.probabilities.dtype = d ∧
      (∀ i x, s.probabilities.at? i = some x → x = Arith.zero) ∧
      (∀ i x, s.residuals.at? i = some x → x = Arith.zero) ∧
      (∀ i x, s.iterations.at? i = some x → x = Arith.zero) ∧
      s.accumulators = [] ∧ s.defaults = [] ∧ s.updates = [] := by
  have hz : ∀ i x, (Tensor.zeros (α := α) batch d).at? i = some x → x = Arith.zero := by
    intro i x h
    obtain ⟨_, h⟩ := Arr.at?_eq_some.1 h
    exact h.symm
  exact ⟨baseState batch d eps dep mode, rfl, baseState_wf batch hd eps dep mode, rfl, rfl,
    hz, hz, hz, rfl, rfl, rfl⟩

section Example
open Fixtures
attribute [local instance] Arith.exact

/-- Valid arguments: `TypeError`.  Bad dtype, epsilon 0 and epsilon 1: `ValueError`. -/
example : raised (newBuilder [2, 3] none (1/10 : ℚ) 1) = some .typeError ∧
    raised (newBuilder [2] (some .bf16) (1/10 : ℚ) 1) = some .typeError ∧
    raised (newBuilder [2] (some .i32) (1/10 : ℚ) 1) = some .valueError ∧
    raised (newBuilder [2] none (0 : ℚ) 1) = some .valueError ∧
    raised (newBuilder [2] none (1 : ℚ) 1) = some .valueError := by decide +kernel

end Example
end JaxAct
