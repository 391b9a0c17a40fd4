import Verif.Model.Controller

/-!
# Call histories

Sequences of public method calls on a controller, as a user writes them:
`c.cache_update(..)`, `c.iterate_act(..)`, `c.reset_batches()`.
-/

namespace JaxAct
variable {α : Type} [Arith α]

/-- One method call. -/
inductive Op (α : Type) where
  | cache (name : String) (item : PyTree (Leaf α))
  | iterate (halting : Tensor α)
  | reset

namespace Op

/-- Perform the call. -/
def call (c : Controller α) : Op α → Res (Controller α)
  | cache n t => c.cacheUpdate n t
  | iterate h => c.iterateAct h
  | reset => c.resetBatches

/-- The call is not `reset_batches`. -/
def NotReset : Op α → Prop
  | reset => False
  | _ => True

end Op

/-- Perform the calls one after the other; stops at the first exception. -/
def run (c : Controller α) : List (Op α) → Res (Controller α)
  | [] => .ok c
  | op :: ops => do
    let c' ← op.call c
    run c' ops

/-- One complete iteration as in the user guide: cache an update per accumulator, then iterate. -/
structure Round (α : Type) where
  updates : List (String × PyTree (Leaf α))
  halting : Tensor α

/-- The calls of a round. -/
def Round.ops (r : Round α) : List (Op α) :=
  r.updates.map (fun nu => Op.cache nu.1 nu.2) ++ [Op.iterate r.halting]

/-- The calls of several rounds. -/
def roundOps (rs : List (Round α)) : List (Op α) := rs.flatMap Round.ops

end JaxAct
