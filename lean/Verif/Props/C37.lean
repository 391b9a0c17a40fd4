import Verif.Lemmas.Broadcast
import Verif.Props.C36

/-! # C37 Broadcast internal assertions never fire -/

namespace JaxAct
open Utils PyTree
variable {β : Type}

/-- C37, second assertion (`utils.py:134`, leaves left in the queue): it can never fail.  When the
replication returns at all, the queue is used up. -/
theorem C37_second_assertion (s t : PyTree β) (out q : List β)
    (h : replicateLeaves s.treeStructure t.treeStructure s.treeLeaves = .ok (out, q)) : q = [] :=
  (replicate_ok s.canon t.canon [] out q (isCanon_canon s) (isCanon_canon t)
    (by rw [List.append_nil]; exact h)).1

mutual
theorem noEmpty_fits : ∀ s t : TreeDef, NoEmpty s → Descends s t → Fits s t
  | .leaf _, _, _, _ => trivial
  | .none, _, h, _ => h.elim
  | .node _ _, .leaf _, h, hd => hd.elim (fun g => absurd g h.1) fun g => g.elim
  | .node _ _, .none, h, hd => hd.elim (fun g => absurd g h.1) fun g => g.elim
  | .node _ cs, .node _ ts, h, hd =>
    hd.elim (fun g => absurd g h.1) fun g => .inr ⟨h.1, g.1, noEmptyL_fitsL cs ts h.2 g.2⟩
theorem noEmptyL_fitsL : ∀ cs ts : List TreeDef, NoEmptyL cs → DescendsL cs ts → FitsL cs ts
  | [], [], _, _ => trivial
  | c :: cs, t :: ts, h, hd => ⟨noEmpty_fits c t h.1 hd.1, noEmptyL_fitsL cs ts h.2 hd.2⟩
  | [], _ :: _, _, h => h.elim
  | _ :: _, [], _, h => h.elim
end

/-- C37, first assertion (`utils.py:133`), for sources without `None` and empty containers.
Missing: other sources, for which it is false, see `C37_first_assertion_reachable`. -/
theorem C37_first_assertion_partial (s t : PyTree β) (hs : NoEmpty s.treeStructure) :
    broadcastPytreeShape s t ≠ .error .assertionError := by
  intro h
  rcases (C36_error_iff s t _).1 h with h | h
  · exact absurd h.1 (by decide)
  · exact h.2.2 (noEmpty_fits _ _ hs h.2.1)

/-- The first assertion fires exactly when the container structure of the source agrees with the
target but an empty container or `None` of the source lies over a target leaf. -/
theorem C37_assertion_iff (s t : PyTree β) :
    broadcastPytreeShape s t = .error .assertionError ↔
      Descends s.treeStructure t.treeStructure ∧ ¬ Fits s.treeStructure t.treeStructure := by
  rw [C36_error_iff]
  simp

/-- C37 is false as stated: broadcasting `[]` to `[x]` fires the first assertion. -/
theorem C37_first_assertion_reachable (x : β) :
    broadcastPytreeShape (.node .list []) (.node .list [.leaf x]) = .error .assertionError := rfl

example : NoEmpty (PyTree.node .tuple [.leaf 1, .node .list [.leaf 2]] : PyTree Nat).treeStructure := by
  simp [treeStructure, canon, canonL, sortNode, struct, PyTree.map, mapL, NoEmpty, NoEmptyL]

/-- Replication that succeeds, queue used up. -/
example : (replicateLeaves (.node .list [.leaf (), .leaf ()])
    (.node .list [.node .tuple [.leaf (), .leaf ()], .leaf ()]) [5, 6]).toOption
    = some ([5, 5, 6], ([] : List Nat)) := by decide +kernel

end JaxAct
