import Verif.Spec.Session
import Verif.Spec.History

/-!
# Rounds in which an element pauses

Two sequences of rounds that an element and one of its accumulator entries cannot tell apart, except that in some
rounds of either it is given a halting probability of zero (or less).  The rest of the batch, the other entries and
the updates in such rounds are arbitrary.  This file does not mention the controller.
-/

namespace JaxAct
open ACTStates

/-- An entry of an accumulator: the name, the number of the leaf, the index. -/
structure Place where
  name : String
  leaf : Nat
  idx : List Nat

/-- The update for a place, with its dtype. -/
def Round.UpdateAt {α : Type} (r : Round α) (q : Place) (d : DType) (u : α) : Prop :=
  ∃ t, leaf? r.updates q.name q.leaf = some (.tensor t) ∧ t.dtype = d ∧ t.at? q.idx = some u

/-- Element `b` with its entry `q` in the first rounds gets what element `b'` with its entry `q'` gets in the second,
with pauses in between. -/
inductive Paused {α : Type} [LE α] [Zero α] (b b' : List Nat) (q q' : Place) :
    List (Round α) → List (Round α) → Prop
  | nil : Paused b b' q q' [] []
  | both {r r' : Round α} {rs rs' : List (Round α)} {x u : α} {d : DType}
      (dtype : r'.halting.dtype = r.halting.dtype)
      (halting : r.halting.at? b = some x) (halting' : r'.halting.at? b' = some x)
      (update : r.UpdateAt q d u) (update' : r'.UpdateAt q' d u)
      (rest : Paused b b' q q' rs rs') : Paused b b' q q' (r :: rs) (r' :: rs')
  | pause {r : Round α} {rs rs' : List (Round α)} (halting : ∀ x, r.halting.at? b = some x → x ≤ 0)
      (rest : Paused b b' q q' rs rs') : Paused b b' q q' (r :: rs) rs'
  | pause' {r' : Round α} {rs rs' : List (Round α)} (halting : ∀ x, r'.halting.at? b' = some x → x ≤ 0)
      (rest : Paused b b' q q' rs rs') : Paused b b' q q' rs (r' :: rs')

end JaxAct
