import Verif.Spec.Pause
import Verif.Spec.Graves

/-!
# Rounds that hold an update

Two sequences of rounds that differ only in how the halting probability given to an update is divided among rounds.
This file does not mention the controller.
-/

namespace JaxAct

/-- Element `b` is given the update `u` for its entry `q` in every round, and the clipped halting probabilities sum to
`S`. -/
inductive Held {K : Type} [Field K] [LinearOrder K] (b : List Nat) (q : Place) (u : K) : List (Round K) → K → Prop
  | nil : Held b q u [] 0
  | cons {r : Round K} {rs : List (Round K)} {h S : K} {d : DType} (halting : r.halting.at? b = some h)
      (update : r.UpdateAt q d u) (rest : Held b q u rs S) : Held b q u (r :: rs) (Graves.clip h + S)

/-- Element `b` with its entry `q` is given the updates that element `b'` is given for its entry `q'`, in the same
order and for the same total probability (`dep` and `dep'` times the halting probabilities), but not necessarily for
as many rounds. -/
inductive Paced {K : Type} [Field K] [LinearOrder K] (dep dep' : K) (b b' : List Nat) (q q' : Place) :
    List (Round K) → List (Round K) → Prop
  | nil : Paced dep dep' b b' q q' [] []
  | hold {xs ys rs rs' : List (Round K)} {u S S' : K} (here : Held b q u xs S) (there : Held b' q' u ys S')
      (spent : dep * S = dep' * S') (rest : Paced dep dep' b b' q q' rs rs') :
      Paced dep dep' b b' q q' (xs ++ rs) (ys ++ rs')

end JaxAct
