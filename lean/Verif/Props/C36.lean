import Verif.Lemmas.Broadcast
import Verif.Props.Fixtures

/-! # C36 broadcast_pytree_shape replicates each source leaf over the matching target subtree -/

namespace JaxAct
open Utils PyTree
variable {β : Type}

mutual
theorem collapse_fits : ∀ s t : TreeDef, Collapse s t → Fits s t
  | .leaf _, _, _ => trivial
  | .none, .none, _ => rfl
  | .node _ [], .node _ [], _ => .inl ⟨rfl, rfl⟩
  | .node _ (c :: cs), .node _ ts, h => .inr ⟨by simp, h.1, collapseL_fitsL (c :: cs) ts h.2⟩
  | .node _ [], .node _ (_ :: _), h => h.2.elim
  | .none, .leaf _, h => h.elim
  | .none, .node _ _, h => h.elim
  | .node _ _, .leaf _, h => h.elim
  | .node _ _, .none, h => h.elim
theorem collapseL_fitsL : ∀ cs ts : List TreeDef, CollapseL cs ts → FitsL cs ts
  | [], [], _ => trivial
  | c :: cs, t :: ts, h => ⟨collapse_fits c t h.1, collapseL_fitsL cs ts h.2⟩
  | [], _ :: _, h => h.elim
  | _ :: _, [], h => h.elim
end

theorem noEmpty_leaves : ∀ t : TreeDef, NoEmpty t → t.leaves ≠ []
  | .leaf _, _ => by simp [leaves]
  | .none, h => h.elim
  | .node _ [], h => absurd rfl h.1
  | .node _ (c :: cs), h => by
    simp only [leaves, leavesL]
    intro h'
    exact noEmpty_leaves c h.2.1 (List.append_eq_nil_iff.1 h').1

mutual
theorem fits_collapse : ∀ s t : TreeDef, NoEmpty t → Fits s t → Collapse s t
  | .leaf _, t, h, _ => noEmpty_leaves t h
  | .none, t, h, hf => absurd hf (noEmpty_leaves t h)
  | .node _ _, .leaf _, h, hf => hf.elim (fun g => absurd g.2 (noEmpty_leaves _ h)) fun g => g.elim
  | .node _ _, .none, h, hf => hf.elim (fun g => absurd g.2 (noEmpty_leaves _ h)) fun g => g.elim
  | .node _ cs, .node _ ts, h, hf =>
    hf.elim (fun g => absurd g.2 (noEmpty_leaves _ h))
      fun g => ⟨g.2.1, fitsL_collapseL cs ts h.2 g.2.2⟩
theorem fitsL_collapseL : ∀ cs ts : List TreeDef, NoEmptyL ts → FitsL cs ts → CollapseL cs ts
  | [], [], _, _ => trivial
  | c :: cs, t :: ts, h, hf => ⟨fits_collapse c t h.1 hf.1, fitsL_collapseL cs ts h.2 hf.2⟩
  | [], _ :: _, _, h => h.elim
  | _ :: _, [], _, h => h.elim
end

/-- C36, result: the result has the target's structure, and at every leaf position of the target
(a path of list positions and dict keys) it holds the source leaf lying on the path to it. -/
theorem C36_replicates (s t r : PyTree β) (hs : s.WF) (ht : t.WF)
    (h : broadcastPytreeShape s t = .ok r) :
    r.treeStructure = t.treeStructure ∧
    ∀ p y, t.atPath p = some (.leaf y) →
      ∃ q x, q <+: p ∧ s.atPath q = some (.leaf x) ∧ r.atPath p = some (.leaf x) := by
  obtain ⟨-, h1, -, h2⟩ := broadcast_ok h
  refine ⟨h1, fun p y hp => ?_⟩
  obtain ⟨q, x, g1, g2, g3⟩ := spread_path p _ _ r y h2 ((atPath_canon_leaf ht).2 hp)
  exact ⟨q, x, g1, (atPath_canon_leaf hs).1 g2, g3⟩

/-- C36, compatible trees: it succeeds if the source is the target with some non-empty subtrees
collapsed to leaves. -/
theorem C36_compatible_succeeds (s t : PyTree β)
    (h : Collapse s.treeStructure t.treeStructure) :
    ∃ r, broadcastPytreeShape s t = .ok r := by
  have hf := collapse_fits _ _ h
  rcases broadcast_cases s t with h | h | h
  · exact h.2
  · exact absurd (fits_descends _ _ hf) h.1
  · exact absurd hf h.2.1

/-- C36, exact condition for success, all trees. -/
theorem C36_success_iff (s t : PyTree β) :
    (∃ r, broadcastPytreeShape s t = .ok r) ↔ Fits s.treeStructure t.treeStructure :=
  ⟨fun ⟨_, h⟩ => (broadcast_ok h).1, fun hf => by
    rcases broadcast_cases s t with h | h | h
    · exact h.2
    · exact absurd (fits_descends _ _ hf) h.1
    · exact absurd hf h.2.1⟩

/-- C36, exact exceptions: `RuntimeError` when some source container does not meet the same
container in the target, `AssertionError` when only an empty container or `None` of the source lies
over a target leaf; nothing else is raised. -/
theorem C36_error_iff (s t : PyTree β) (e : Err) :
    broadcastPytreeShape s t = .error e ↔
      (e = .runtimeError ∧ ¬ Descends s.treeStructure t.treeStructure) ∨
      (e = .assertionError ∧ Descends s.treeStructure t.treeStructure ∧
        ¬ Fits s.treeStructure t.treeStructure) := by
  rcases broadcast_cases s t with ⟨h1, r, h2⟩ | ⟨h1, h2⟩ | ⟨h1, h1', h2⟩
  · rw [h2]
    constructor
    · intro h; cases h
    · rintro (h | h)
      · exact absurd (fits_descends _ _ h1) h.2
      · exact absurd h1 h.2.2
  · rw [h2]
    simp only [Except.error.injEq, h1, not_false_eq_true, and_true, false_and, and_false, or_false]
    exact eq_comm
  · rw [h2]
    simp only [Except.error.injEq, h1, h1', not_true_eq_false, and_false, false_or,
      not_false_eq_true, and_true]
    exact eq_comm

/-- C36, "raises otherwise", for targets without `None` and empty containers.  Missing: for other
targets it is false, see `C36_leaf_dropped`. -/
theorem C36_raises_otherwise_partial (s t : PyTree β) (ht : NoEmpty t.treeStructure) :
    (∃ r, broadcastPytreeShape s t = .ok r) ↔ Collapse s.treeStructure t.treeStructure := by
  rw [C36_success_iff]
  exact ⟨fits_collapse _ _ ht, collapse_fits _ _⟩

/-- C36 is false as stated: a source leaf over an empty container is not an incompatibility for the
code; it is dropped without an error. -/
theorem C36_leaf_dropped (x : β) :
    broadcastPytreeShape (.leaf x) (.node .list []) = .ok (.node .list []) ∧
    ¬ Collapse (PyTree.leaf x).treeStructure (PyTree.node .list [] : PyTree β).treeStructure :=
  ⟨rfl, fun h => h rfl⟩

/-- `{"b": 1, "a": 2}` over `{"a": [0, {"z": 0}], "b": (0, 0)}` -/
example : (broadcastPytreeShape (.node (.dict ["b", "a"]) [.leaf 1, .leaf 2])
    (.node (.dict ["a", "b"]) [.node .list [.leaf 0, .node (.dict ["z"]) [.leaf 0]],
      .node .tuple [.leaf 0, .leaf 0]] : PyTree Nat)).toOption =
    some (.node (.dict ["a", "b"]) [.node .list [.leaf 2, .node (.dict ["z"]) [.leaf 2]],
      .node .tuple [.leaf 1, .leaf 1]]) := by decide +kernel

example : (PyTree.node (.dict ["b", "a"]) [.leaf 1, .leaf 2] : PyTree Nat).WF := by
  simp [PyTree.WF, PyTree.WFL]

example : Collapse (PyTree.node .list [.leaf 1, .none] : PyTree Nat).treeStructure
    (PyTree.node .list [.node .tuple [.leaf 1, .leaf 1], .none] : PyTree Nat).treeStructure := by
  simp [treeStructure, canon, canonL, sortNode, struct, PyTree.map, mapL, Collapse, CollapseL, leaves,
    leavesL]

example : NoEmpty (PyTree.node .list [.leaf 1, .leaf 2] : PyTree Nat).treeStructure := by
  simp [treeStructure, canon, canonL, sortNode, struct, PyTree.map, mapL, NoEmpty, NoEmptyL]

example : Fixtures.raised (broadcastPytreeShape (.node .list [.leaf 1, .leaf 2])
    (.node .tuple [.leaf 1, .leaf 2] : PyTree Nat)) = some .runtimeError := by decide +kernel

/-- A namedtuple broadcasts to a larger one of its own class, not to a tuple or another class. -/
example : (broadcastPytreeShape (.node (.user "Point") [.leaf 1, .leaf 2])
      (.node (.user "Point") [.leaf 0, .node .list [.leaf 0, .leaf 0]] : PyTree Nat)).toOption =
        some (.node (.user "Point") [.leaf 1, .node .list [.leaf 2, .leaf 2]]) ∧
    Fixtures.raised (broadcastPytreeShape (.node (.user "Point") [.leaf 1, .leaf 2])
      (.node .tuple [.leaf 1, .leaf 2] : PyTree Nat)) = some .runtimeError ∧
    Fixtures.raised (broadcastPytreeShape (.node (.user "Point") [.leaf 1, .leaf 2])
      (.node (.user "Pair") [.leaf 1, .leaf 2] : PyTree Nat)) = some .runtimeError := by
  decide +kernel

end JaxAct
