import Verif.Spec.History

/-! # A controller with some of its accumulators only -/

namespace JaxAct
variable {α : Type}

/-- The entries whose name satisfies `p`, in the same order. -/
def Dict.keep {V : Type} (p : String → Bool) (d : Dict V) : Dict V := d.filter fun kv => p kv.1

/-- The state with the accumulators whose name satisfies `p`; everything else is the same. -/
def ACTStates.restrict (p : String → Bool) (s : ACTStates α) : ACTStates α :=
  { s with
    defaults := s.defaults.keep p
    accumulators := s.accumulators.keep p
    updates := s.updates.keep p }

/-- A call that caches an update for another accumulator does not concern the restriction. -/
def Op.concerns (p : String → Bool) : Op α → Bool
  | .cache n _ => p n
  | _ => true

end JaxAct
