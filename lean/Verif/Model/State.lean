import Verif.Basic.Tensor
import Verif.Basic.Dict
import Verif.Basic.PyTree

/-!
# Model of `/repo/src/jax_act/core/states.py`

`EditorConfig` (16-30) is a plain record used by nothing but the `BroadcastEditor` stub and is not
modelled.
-/

namespace JaxAct

/-- `ACTStates`, `states.py:31-51,166-174`.  Python floats (`epsilon`, `depression_constant`) are
scalars of `α`; an update slot holding `None` is `PyTree.none`. -/
structure ACTStates (α : Type) where
  epsilon : α
  iterations : Tensor α
  residuals : Tensor α
  probabilities : Tensor α
  defaults : Dict (PyTree (Leaf α))
  accumulators : Dict (PyTree (Leaf α))
  updates : Dict (PyTree (Leaf α))
  depression_constant : α
  error_mode : Option String

/-- Keyword arguments of a call `ACTStates(...)`; an argument left out is `none`. -/
structure StateArgs (α : Type) where
  epsilon : Option α := none
  iterations : Option (Tensor α) := none
  residuals : Option (Tensor α) := none
  probabilities : Option (Tensor α) := none
  defaults : Option (Dict (PyTree (Leaf α))) := none
  accumulators : Option (Dict (PyTree (Leaf α))) := none
  updates : Option (Dict (PyTree (Leaf α))) := none
  depression_constant : Option α := none
  error_mode : Option (Option String) := none

namespace ACTStates
variable {α : Type}

/-- The dataclass constructor: no field has a default (`states.py:166-174`), so leaving any one out
raises `TypeError`. -/
def new (a : StateArgs α) : Res (ACTStates α) :=
  match a.epsilon, a.iterations, a.residuals, a.probabilities, a.defaults, a.accumulators,
        a.updates, a.depression_constant, a.error_mode with
  | some e, some i, some r, some p, some d, some ac, some u, some dc, some em =>
    .ok ⟨e, i, r, p, d, ac, u, dc, em⟩
  | _, _, _, _, _, _, _, _, _ => raise .typeError

/-- `ACTStates.execute_validation`, `states.py:52-75`: the name `ErrorModes` is not defined in the
module, so the first comparison raises `NameError` whatever the arguments. -/
def executeValidation (_s : ACTStates α) {β : Type} (_operand : β) : Res β := raise .nameError

/-- `ACTStates.validate_epsilon`, `states.py:76-86`. -/
def validateEpsilon (s : ACTStates α) (e : α) : Res α := s.executeValidation e

/-- `ACTStates.validate_iterations`, `states.py:88-109`.  The first message (95-99) reads
`iterations.dtype`: `AttributeError` for an object that is not an array. -/
def validateIterations (s : ACTStates α) : Leaf α → Res (Leaf α)
  | .obj _ => raise .attributeError
  | .tensor t => s.executeValidation (.tensor t)

/-- `ACTStates.validate_residuals`, `states.py:111-125`: builds a list and returns `None`. -/
def validateResiduals (_s : ACTStates α) (_t : Leaf α) : Res Unit := .ok ()

/-- `ACTStates.replace`, `states.py:126-165`.  An omitted argument is `None` and keeps the field.
`validate_depression_constant` and `validate_error_mode` (149, 153) do not exist on the class:
`AttributeError`. -/
def replace (s : ACTStates α)
    (epsilon : Option α := none)
    (iterations : Option (Tensor α) := none)
    (residuals : Option (Tensor α) := none)
    (probabilities : Option (Tensor α) := none)
    (accumulators : Option (Dict (PyTree (Leaf α))) := none)
    (defaults : Option (Dict (PyTree (Leaf α))) := none)
    (updates : Option (Dict (PyTree (Leaf α))) := none)
    (depression_constant : Option α := none)
    (error_mode : Option String := none) : Res (ACTStates α) :=
  match depression_constant, error_mode with
  | some _, _ => raise .attributeError
  | none, some _ => raise .attributeError
  | none, none =>
    .ok { epsilon := epsilon.getD s.epsilon
          iterations := iterations.getD s.iterations
          residuals := residuals.getD s.residuals
          probabilities := probabilities.getD s.probabilities
          defaults := defaults.getD s.defaults
          accumulators := accumulators.getD s.accumulators
          updates := updates.getD s.updates
          depression_constant := s.depression_constant
          error_mode := s.error_mode }

/-- Observation: leaf number `k` (in flattening order) of the tree stored under `name`. -/
def leaf? (d : Dict (PyTree (Leaf α))) (name : String) (k : Nat) : Option (Leaf α) :=
  match d.get? name with
  | some t => t.treeLeaves[k]?
  | none => none

/-- Observation: entry `i` of leaf number `k` of the tree stored under `name`. -/
def entry? (d : Dict (PyTree (Leaf α))) (name : String) (k : Nat) (i : List Nat) : Option α :=
  match leaf? d name k with
  | some l => l.at? i
  | none => none

end ACTStates
end JaxAct
