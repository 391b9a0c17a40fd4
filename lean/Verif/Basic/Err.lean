/-!
# Python exceptions as values

Every modelled function that can raise returns `Except Err _`.  One constructor per
exception class that occurs on a modelled path.  The text of the messages is not
modelled (except in `Model/Text`, for `format_error_message`).
-/

namespace JaxAct

/-- The Python exception classes raised on the modelled paths.
`jaxRuntimeError` is `jax.errors.JaxRuntimeError`, raised by `checkify`'s `errors.throw()`
(`/repo/src/jax_act/core/tensoreditor.py:297`). -/
inductive Err where
  | typeError
  | valueError
  | runtimeError
  | keyError
  | indexError
  | nameError
  | attributeError
  | assertionError
  | notImplementedError
  | jaxRuntimeError
  deriving DecidableEq, Repr

/-- The result type of a Python call: a value, or a raised exception. -/
abbrev Res (β : Type _) := Except Err β

/-- `raise err` -/
@[reducible] def raise {β : Type _} (e : Err) : Res β := Except.error e

/-- `try: x except Exception: raise RuntimeError` (all modelled exceptions are subclasses of
`Exception`). -/
def wrapRuntime {β : Type _} (x : Res β) : Res β :=
  match x with
  | .ok v => .ok v
  | .error _ => .error .runtimeError

end JaxAct
