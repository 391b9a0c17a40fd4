import Verif.Basic.Err

/-!
# `jax.lax.while_loop`

Documented behaviour: the carry is flattened (every leaf must be an array or a number, otherwise
`TypeError`); the body is traced once on the initial carry, before any iteration and whether or not
the condition holds, so an exception raised by the body is raised here; the result must have the
carry's tree structure, shapes and dtypes (otherwise `TypeError`); then the compiled body is run
while the compiled condition holds.  Between iterations the carry exists only as a list of leaves, so
body and condition always receive a rebuilt carry.

Simplifications: tracing with abstract values is represented by running the body on the initial
values.  Whether a jittable Python function raises, and the types it returns, depend only on the types
of its arguments, so the two agree; the theorems that need this take it as a hypothesis on the user's
functions.  Weak types are not distinguished: inside the loop a Python float is a weakly typed scalar.
-/

namespace JaxAct
variable {σ S : Type}

/-- The loop proper. -/
inductive WhileSteps (cond : σ → Bool) (step : σ → Res σ) : σ → σ → Prop
  | stop (x : σ) : cond x = false → WhileSteps cond step x x
  | next (x y z : σ) : cond x = true → step x = .ok y → WhileSteps cond step y z →
      WhileSteps cond step x z

/-- `r` is the outcome of `jax.lax.while_loop(cond, body, init)`.  `sig` gives the tree structure and
leaf types of a carry (`none` if some leaf is not an array or number), `rebuild` is
`tree_unflatten(*tree_flatten(·))`.  A relation, because a loop may run forever. -/
def WhileLoop [DecidableEq S] (sig : σ → Option S) (rebuild : σ → σ) (cond : σ → Bool)
    (body : σ → Res σ) (init : σ) (r : Res σ) : Prop :=
  match sig init with
  | none => r = .error .typeError
  | some t =>
    match body (rebuild init) with
    | .error e => r = .error e
    | .ok out =>
      if sig out = some t then
        ∃ z, WhileSteps cond (fun x => (body x).map rebuild) (rebuild init) z ∧ r = .ok z
      else r = .error .typeError

end JaxAct
