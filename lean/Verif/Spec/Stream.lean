import Verif.Spec.History
import Verif.Spec.Ponder

/-!
# Specification: streams

A controller can be kept running: after an iteration `reset_batches` lets the elements that are done start
on something new while the others go on.  Here are the calls of such a session and, for one batch element,
the step at which its present computation began.  The latter uses nothing of the model.
-/

namespace JaxAct

/-- One iteration, followed by `reset_batches` or not. -/
structure Turn (α : Type) where
  round : Round α
  reset : Bool

/-- The calls of a turn. -/
def Turn.ops {α : Type} (t : Turn α) : List (Op α) :=
  t.round.ops ++ if t.reset then [Op.reset] else []

/-- The calls of several turns. -/
def turnOps {α : Type} (ts : List (Turn α)) : List (Op α) := ts.flatMap Turn.ops

namespace Graves
variable {K : Type} [Field K] [LinearOrder K]

/-- What is supplied from step `m` on. -/
def after (m : Nat) (h : Nat → K) : Nat → K := fun t => h (m + t)

/-- The step at which the computation that is present after `n` steps began: at a reset the computation ends if
its running sum has exceeded `1 - eps`, and the next step begins a new one. -/
def began (eps dep : K) (h : Nat → K) (reset : Nat → Bool) : Nat → Nat
  | 0 => 0
  | n + 1 =>
    let m := began eps dep h reset n
    if reset n = true ∧ Crossed eps dep (after m h) (n + 1 - m) then n + 1 else m

end Graves
end JaxAct
