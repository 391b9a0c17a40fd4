import Verif.Model.State
import Verif.Props.Fixtures

/-!
# C46 replace changes exactly the fields given

**Full statement**: `ACTStates.replace(field=value)` returns a state with exactly the given fields
changed, for every field.

It is false for two fields: giving `depression_constant` or `error_mode` raises `AttributeError`
whatever the value (`C46_missing_validators`).  `C46_replace_partial` is the statement for calls that
give neither.
-/

namespace JaxAct
variable {α : Type}

/-- The fields of `ACTStates`. -/
inductive Field where
  | epsilon | iterations | residuals | probabilities | defaults | accumulators | updates
  | depression_constant | error_mode
  deriving DecidableEq

/-- The type of a field. -/
def Field.Ty (α : Type) : Field → Type
  | epsilon => α
  | iterations => Tensor α
  | residuals => Tensor α
  | probabilities => Tensor α
  | defaults => Dict (PyTree (Leaf α))
  | accumulators => Dict (PyTree (Leaf α))
  | updates => Dict (PyTree (Leaf α))
  | depression_constant => α
  | error_mode => Option String

/-- Reading a field. -/
def ACTStates.read (s : ACTStates α) : (f : Field) → f.Ty α
  | .epsilon => s.epsilon
  | .iterations => s.iterations
  | .residuals => s.residuals
  | .probabilities => s.probabilities
  | .defaults => s.defaults
  | .accumulators => s.accumulators
  | .updates => s.updates
  | .depression_constant => s.depression_constant
  | .error_mode => s.error_mode

/-- Keyword arguments: a value for some of the fields. -/
def Kwargs (α : Type) := (f : Field) → Option (f.Ty α)

/-- `s.replace(**kw)`.  Passing `error_mode=None` is the same as not passing it. -/
def ACTStates.call (s : ACTStates α) (kw : Kwargs α) : Res (ACTStates α) :=
  s.replace (epsilon := kw .epsilon) (iterations := kw .iterations) (residuals := kw .residuals)
    (probabilities := kw .probabilities) (accumulators := kw .accumulators)
    (defaults := kw .defaults) (updates := kw .updates)
    (depression_constant := kw .depression_constant) (error_mode := (kw .error_mode).join)

/-- States are determined by their fields. -/
theorem ACTStates.read_ext {s s' : ACTStates α} (h : ∀ f, s.read f = s'.read f) : s = s' := by
  cases s; cases s'
  simp only [ACTStates.mk.injEq]
  exact ⟨h .epsilon, h .iterations, h .residuals, h .probabilities, h .defaults, h .accumulators,
    h .updates, h .depression_constant, h .error_mode⟩

/-- C46 for calls that give neither `depression_constant` nor `error_mode`: the call succeeds, every
given field has the given value and every other field the old one.  Missing: those two fields, for
which the statement is false. -/
theorem C46_replace_partial (s : ACTStates α) (kw : Kwargs α)
    (hd : kw .depression_constant = none) (he : kw .error_mode = none) :
    ∃ s', s.call kw = .ok s' ∧ ∀ f, s'.read f = (kw f).getD (s.read f) := by
  unfold ACTStates.call ACTStates.replace
  rw [hd, he]
  refine ⟨_, rfl, fun f => ?_⟩
  cases f <;> first | rfl | (rw [hd]; rfl) | (rw [he]; rfl)

/-- C46 is false for the other two: any call that gives `depression_constant`, or a mode, raises
`AttributeError`, because the validators it calls do not exist. -/
theorem C46_missing_validators (s : ACTStates α) (kw : Kwargs α)
    (h : (∃ d, kw .depression_constant = some d) ∨ ∃ m, kw .error_mode = some (some m)) :
    s.call kw = .error .attributeError := by
  unfold ACTStates.call ACTStates.replace
  rcases h with ⟨d, hd⟩ | ⟨m, hm⟩
  · rw [hd]
  · rw [hm]
    cases kw .depression_constant <;> rfl

/-- `replace` succeeds exactly if it is given neither of the two. -/
theorem C46_success_iff (s : ACTStates α) (kw : Kwargs α) :
    (∃ s', s.call kw = .ok s') ↔
      kw .depression_constant = none ∧ ∀ m, kw .error_mode ≠ some (some m) := by
  constructor
  · rintro ⟨s', h⟩
    constructor
    · cases hd : kw .depression_constant with
      | none => rfl
      | some d => rw [C46_missing_validators s kw (.inl ⟨d, hd⟩)] at h; cases h
    · intro m hm
      rw [C46_missing_validators s kw (.inr ⟨m, hm⟩)] at h; cases h
  · rintro ⟨hd, hm⟩
    unfold ACTStates.call ACTStates.replace
    rw [hd]
    cases he : kw .error_mode with
    | none => exact ⟨_, rfl⟩
    | some m => cases m with
      | none => exact ⟨_, rfl⟩
      | some m => exact absurd he (hm m)

/-- `ACTStates(**kw)` -/
def ACTStates.construct (kw : Kwargs α) : Res (ACTStates α) :=
  ACTStates.new { epsilon := kw .epsilon, iterations := kw .iterations, residuals := kw .residuals,
                  probabilities := kw .probabilities, defaults := kw .defaults,
                  accumulators := kw .accumulators, updates := kw .updates,
                  depression_constant := kw .depression_constant, error_mode := kw .error_mode }

/-- The constructor itself: with a value for every field it gives the state with these values, and
with a field left out it raises `TypeError`. -/
theorem C46_constructor (kw : Kwargs α) :
    ((∀ f, kw f ≠ none) → ∃ s, ACTStates.construct kw = .ok s ∧ ∀ f, kw f = some (s.read f)) ∧
    ((∃ f, kw f = none) → ACTStates.construct kw = .error .typeError) := by
  constructor
  · intro h
    have h' : ∀ f, ∃ v, kw f = some v := fun f => Option.ne_none_iff_exists'.1 (h f)
    choose v hv using h'
    refine ⟨⟨v .epsilon, v .iterations, v .residuals, v .probabilities, v .defaults,
      v .accumulators, v .updates, v .depression_constant, v .error_mode⟩, ?_, ?_⟩
    · unfold ACTStates.construct ACTStates.new
      simp only [hv]
    · intro f
      rw [hv]
      cases f <;> rfl
  · rintro ⟨f, hf⟩
    unfold ACTStates.construct ACTStates.new
    split
    · next h1 h2 h3 h4 h5 h6 h7 h8 h9 => cases f <;> simp_all
    · rfl

/-! Non-vacuity: replacing two fields of a concrete state. -/

/-- `replace(epsilon=1/2, updates={})` -/
def exampleKwargs : Kwargs ℚ
  | .epsilon => some (1/2 : ℚ)
  | .updates => some ([] : Dict (PyTree (Leaf ℚ)))
  | _ => none

example : ∃ s', Fixtures.fresh.call exampleKwargs = .ok s' ∧
    ∀ f, s'.read f = (exampleKwargs f).getD (Fixtures.fresh.read f) :=
  C46_replace_partial _ _ rfl rfl

example : ((Fixtures.fresh.call exampleKwargs).toOption.map fun s => s.epsilon) = some (1/2) ∧
    Fixtures.fresh.epsilon = 1/10 := by decide +kernel

end JaxAct
