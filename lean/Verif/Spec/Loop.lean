import Verif.Model.Layers
import Verif.Spec.Mapping
import Verif.Spec.Types

/-!
# Specification vocabulary: the documented loop

`act.py:253-262`: `while not controller.is_halted: controller, state = self.run_iteration(controller,
state)`, with at most `max_iterations` iterations.
-/

namespace JaxAct
variable {α : Type}

/-- Controller and user state, as seen between two iterations. -/
structure LoopState (α : Type) where
  controller : Controller α
  state : PyTree (Leaf α)

/-- The same with every dict in key order, as JAX hands it to the next iteration. -/
def LoopState.keyOrder (x : LoopState α) : LoopState α :=
  ⟨⟨x.controller.state.sorted⟩, x.state.canon⟩

/-- `run_iteration(controller, state)` returns the pair `controller', state'` (a tuple or a list). -/
def Layer.Runs (l : Layer α) (x y : LoopState α) : Prop :=
  ∃ ret first, l.runIteration x.controller x.state = .ok ret ∧
    (ret = .tuple [first, .value y.state] ∨ ret = .list [first, .value y.state]) ∧
    (first = .ctrl y.controller ∨ first = .given ∧ y.controller = x.controller)

/-- Every batch element is halted. -/
def AllHalted [Arith α] (c : Controller α) : Prop :=
  ∀ b x, c.haltedBatches.at? b = some x → x = true

/-- The `k`-th iterate of the documented loop from `x`: `traj 0, traj 1, ..., traj k`, where every
iteration but none after was run because some batch element was not halted and the maximum not
reached. -/
structure Documented [Arith α] (run : LoopState α → LoopState α → Prop) (max : Int)
    (x : LoopState α) (k : Nat) (y : LoopState α) : Prop where
  path : ∃ traj : Nat → LoopState α, traj 0 = x ∧ traj k = y ∧
    ∀ i < k, ¬ AllHalted (traj i).controller ∧ (i : Int) < max ∧
      run (traj i) (traj (i + 1))
  stopped : AllHalted y.controller ∨ max ≤ k

/-- The user's code is jittable, as `act.py:241-243` requires: on all arguments with the tree structure
and leaf types of `init`, an iteration raises the same exception or returns something of the same
structure and types. -/
def Layer.Jittable [Arith α] (l : Layer α) (check : Bool) (init : Carry α) : Prop :=
  ∀ x : Carry α, x.sig = init.sig →
    (l.adapter check x).map Carry.sig = (l.adapter check init).map Carry.sig

/-- A layer whose iteration makes some controller calls, chosen from the user state, and computes the
next user state; e.g. the layers of the user guide, which cache an update for every accumulator and
then iterate. -/
def callLayer [Arith α] (make : PyTree (Leaf α) → α → Res (Made α))
    (calls : PyTree (Leaf α) → List (Op α)) (next : PyTree (Leaf α) → PyTree (Leaf α)) : Layer α where
  makeController := make
  runIteration c s := do
    let c' ← run c (calls s)
    pure (.tuple [.ctrl c', .value (next s)])
  setupLazyParameters _ _ := .ok ()

/-- The user's functions are jittable: on states of the types of `s0` they make the same calls with
arguments of the same types, and the next state has the types of `s0`. -/
structure TypedCalls [Arith α] (calls : PyTree (Leaf α) → List (Op α))
    (next : PyTree (Leaf α) → PyTree (Leaf α)) (s0 : PyTree (Leaf α)) : Prop where
  calls : ∀ s, TreesAlike s0 s → List.Forall₂ CallsAlike (calls s0) (calls s)
  next : ∀ s, TreesAlike s0 s → TreesAlike s0 (next s)

end JaxAct
