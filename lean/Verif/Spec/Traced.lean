import Verif.Spec.History
import Verif.Basic.Round
import Verif.Model.Layers

/-!
# Specification vocabulary: the state inside `jax.jit` and `while_loop`

`epsilon` and `depression_constant` are leaves of the flattened state (`states.py:182-201`).  When a
controller enters a traced function every leaf becomes an array; a Python float becomes a weakly typed
float32 scalar (`jax_enable_x64` off).  `halt_threshold` (`controller.py:115-117`) is then computed in
single precision.  The controller that leaves the traced function keeps these two arrays.

With `jax_enable_x64` on the leaves become weakly typed float64 scalars, and nothing changes.
-/

namespace JaxAct

/-- The formats seen by a traced function: with `jax_enable_x64` off no array is float64, and the
Python float operation `1 - epsilon` happens in float32. -/
def tracedFmt (F : DType → Fmt) : DType → Fmt
  | .f64 => F .f32
  | d => F d

/-- The state inside a traced function. -/
def ACTStates.traced (F : DType → Fmt) (s : ACTStates ℚ) : ACTStates ℚ :=
  { s with
    epsilon := (F .f32).rnd s.epsilon
    depression_constant := (F .f32).rnd s.depression_constant }

/-- `r` is the outcome of `execute_act` (`act.py:223-289`) when the precision of the two Python floats is
tracked.  `l` is the layer as it runs outside of `while_loop` (`make_controller`,
`setup_lazy_parameters`), `l'` the layer as it runs inside; `Layer.ExecuteAct` is the version in which
the floats stay Python floats. -/
def Layer.TracedExecuteAct (F : DType → Fmt) (l l' : Layer ℚ) (s : PyTree (Leaf ℚ)) (depression : ℚ)
    (maxIterations : Int) (check : Bool) (r : Res (Controller ℚ × PyTree (Leaf ℚ))) : Prop :=
  match l.prepare check s depression with
  | .error e => r = .error e
  | .ok c => ∃ q, WhileLoop Carry.sig Carry.rebuild
      (@isActNotComplete ℚ (Arith.rounded (tracedFmt F)))
      (@Layer.adapter ℚ (Arith.rounded (tracedFmt F)) l' check)
      ⟨⟨c.state.traced F⟩, s, ⟨0, maxIterations⟩⟩ q ∧ r = q.map fun x => (x.controller, x.state)

variable {α : Type}

/-- No tensor of the tree is float64. -/
def NoF64 (t : PyTree (Leaf α)) : Prop := ∀ a : Tensor α, .tensor a ∈ t.treeLeaves → a.dtype ≠ .f64

/-- No array of the state is float64. -/
structure ACTStates.NoF64 (s : ACTStates α) : Prop where
  iterations : s.iterations.dtype ≠ .f64
  probabilities : s.probabilities.dtype ≠ .f64
  accumulators : ∀ n t, s.accumulators.get? n = some t → JaxAct.NoF64 t
  updates : ∀ n t, s.updates.get? n = some t → JaxAct.NoF64 t

/-- No array passed to the call is float64. -/
def Op.NoF64 : Op α → Prop
  | .cache _ t => JaxAct.NoF64 t
  | .iterate h => h.dtype ≠ .f64
  | .reset => True

end JaxAct
