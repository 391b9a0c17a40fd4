import Verif.Basic.Err
import Mathlib.Tactic.Common

/-! # Lemmas on `Res` (exceptions) -/

namespace JaxAct
variable {β γ : Type}

theorem bind_ok {x : Res β} {f : β → Res γ} {r : γ} :
    (x >>= f) = .ok r ↔ ∃ v, x = .ok v ∧ f v = .ok r := by
  cases x with
  | error e => exact ⟨fun h => (by cases h), fun ⟨_, h, _⟩ => (by cases h)⟩
  | ok v => exact ⟨fun h => ⟨v, rfl, h⟩, fun ⟨_, h, h'⟩ => (by cases h; exact h')⟩

theorem bind_error {x : Res β} {f : β → Res γ} {e : Err} :
    (x >>= f) = .error e ↔ x = .error e ∨ ∃ v, x = .ok v ∧ f v = .error e := by
  cases x with
  | error e' =>
    constructor
    · intro h; cases h; exact .inl rfl
    · rintro (h | ⟨_, h, _⟩) <;> cases h; rfl
  | ok v =>
    constructor
    · intro h; exact .inr ⟨v, rfl, h⟩
    · rintro (h | ⟨_, h, h'⟩)
      · cases h
      · cases h; exact h'

@[simp] theorem ok_bind {v : β} {f : β → Res γ} : ((Except.ok v : Res β) >>= f) = f v := rfl
@[simp] theorem error_bind {e : Err} {f : β → Res γ} :
    ((Except.error e : Res β) >>= f) = .error e := rfl
@[simp] theorem pure_eq_ok (v : β) : (pure v : Res β) = .ok v := rfl

theorem wrapRuntime_ok {x : Res β} {v : β} : wrapRuntime x = .ok v ↔ x = .ok v := by
  cases x <;> simp [wrapRuntime]

theorem wrapRuntime_error {x : Res β} {e : Err} :
    wrapRuntime x = .error e ↔ e = .runtimeError ∧ ∃ e', x = .error e' := by
  cases x with
  | error e' => simp [wrapRuntime]; exact eq_comm
  | ok v => simp [wrapRuntime]

end JaxAct
