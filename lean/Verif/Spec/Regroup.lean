import Verif.Spec.History

/-!
# Specification vocabulary: leaves of accumulators, wherever they are kept

For comparing controllers that keep the same tensors under different names or in different trees.
-/

namespace JaxAct
variable {α : Type}

/-- The same halting state, and leaf `k` of accumulator `n` of the first controller is leaf `j` of
accumulator `m` of the second: value, default and pending update. -/
structure SameLeaf (n : String) (k : Nat) (m : String) (j : Nat) (s t : ACTStates α) : Prop where
  epsilon : s.epsilon = t.epsilon
  depression : s.depression_constant = t.depression_constant
  probabilities : s.probabilities = t.probabilities
  residuals : s.residuals = t.residuals
  iterations : s.iterations = t.iterations
  acc : ACTStates.leaf? s.accumulators n k = ACTStates.leaf? t.accumulators m j
  default : ACTStates.leaf? s.defaults n k = ACTStates.leaf? t.defaults m j
  upd : ACTStates.leaf? s.updates n k = ACTStates.leaf? t.updates m j

/-- The same calls of `iterate_act` and `reset_batches`, and between them updates that have the same tensor
as leaf `k` of the update of `n` and as leaf `j` of the update of `m`.  What is cached for other names, and
when, is not restricted. -/
inductive SameForLeaf (n : String) (k : Nat) (m : String) (j : Nat) :
    List (Op α) → List (Op α) → Prop
  | nil : SameForLeaf n k m j [] []
  | left {n' x ops ops'} : n' ≠ n → SameForLeaf n k m j ops ops' →
      SameForLeaf n k m j (.cache n' x :: ops) ops'
  | right {m' y ops ops'} : m' ≠ m → SameForLeaf n k m j ops ops' →
      SameForLeaf n k m j ops (.cache m' y :: ops')
  | cache {x y : PyTree (Leaf α)} {ops ops'} : x.treeLeaves[k]? = y.treeLeaves[j]? →
      SameForLeaf n k m j ops ops' → SameForLeaf n k m j (.cache n x :: ops) (.cache m y :: ops')
  | iterate (h : Tensor α) {ops ops'} : SameForLeaf n k m j ops ops' →
      SameForLeaf n k m j (.iterate h :: ops) (.iterate h :: ops')
  | reset {ops ops'} : SameForLeaf n k m j ops ops' →
      SameForLeaf n k m j (.reset :: ops) (.reset :: ops')

/-- The trees stored under the given names, as one list. -/
def listOf (names : List String) (d : Dict (PyTree (Leaf α))) : PyTree (Leaf α) :=
  .node .list (names.map fun n => (d.get? n).getD .none)

/-- The controller that keeps all accumulators of `s` in one accumulator `N`, a list, with nothing
pending. -/
def ACTStates.grouped (N : String) (s : ACTStates α) : ACTStates α :=
  { s with
    accumulators := [(N, listOf s.accumulators.keys s.accumulators)]
    defaults := [(N, listOf s.accumulators.keys s.defaults)]
    updates := [(N, .none)] }

/-- The round that caches the updates of a round as one list. -/
def Round.grouped (N : String) (names : List String) (r : Round α) : Round α :=
  ⟨[(N, listOf names r.updates)], r.halting⟩

end JaxAct
