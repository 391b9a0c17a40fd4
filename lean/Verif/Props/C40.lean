import Verif.Lemmas.Structure
import Verif.Props.Fixtures

/-! # C40 Structure comparison is an equivalence that ignores leaf contents

Full statement: reflexive, symmetric, transitive, and true iff the trees are equal after erasing the
leaf contents.  The last part is **false** when `None` occurs: leaves are erased *to* `None`, which
JAX does not treat as a leaf, so a leaf and a `None` compare equal.
-/

namespace JaxAct
open Utils
variable {β γ δ : Type}

/-- C40: the comparison is an equivalence relation. -/
theorem C40_equivalence :
    (∀ t : PyTree β, arePytreeStructureEqual t t = true) ∧
    (∀ s t : PyTree β, arePytreeStructureEqual s t = arePytreeStructureEqual t s) ∧
    (∀ s t u : PyTree β, arePytreeStructureEqual s t = true → arePytreeStructureEqual t u = true →
      arePytreeStructureEqual s u = true) := by
  refine ⟨fun t => structureEqual_iff.2 rfl, fun s t => ?_, fun s t u h1 h2 => ?_⟩
  · exact Bool.eq_iff_iff.2 (structureEqual_iff.trans (eq_comm.trans structureEqual_iff.symm))
  · exact structureEqual_iff.2 ((structureEqual_iff.1 h1).trans (structureEqual_iff.1 h2))

/-- C40: leaf contents do not matter. -/
theorem C40_ignores_leaves (f : β → δ) (s : PyTree β) (t : PyTree γ) :
    arePytreeStructureEqual (s.map f) t = arePytreeStructureEqual s t := by
  have : nullLeaves (s.map f) = nullLeaves s := by
    unfold nullLeaves
    rw [PyTree.canon_map, ← go_struct, PyTree.struct_map, go_struct]
  unfold arePytreeStructureEqual
  rw [this]

/-- C40, restricted to trees without `None`: true iff the structures as JAX sees them
(`tree_structure`) are equal.  Missing: trees containing `None`, where it fails. -/
theorem C40_iff_structure_partial {s : PyTree β} {t : PyTree γ} (hs : s.NoNone) (ht : t.NoNone) :
    arePytreeStructureEqual s t = true ↔ s.treeStructure = t.treeStructure :=
  structureEqual_noNone hs ht

mutual
/-- The same containers with the same keys at the same places; where one tree has a leaf or `None`, so
has the other. -/
def AlikeButLeaves : PyTree β → PyTree γ → Prop
  | .node k cs, .node k' cs' => k = k' ∧ AlikeButLeavesL cs cs'
  | .node _ _, .leaf _ => False
  | .node _ _, .none => False
  | .leaf _, .node _ _ => False
  | .none, .node _ _ => False
  | .leaf _, .leaf _ => True
  | .leaf _, .none => True
  | .none, .leaf _ => True
  | .none, .none => True
/-- `AlikeButLeaves` on children. -/
def AlikeButLeavesL : List (PyTree β) → List (PyTree γ) → Prop
  | [], [] => True
  | c :: cs, d :: ds => AlikeButLeaves c d ∧ AlikeButLeavesL cs ds
  | [], _ :: _ => False
  | _ :: _, [] => False
end

mutual
theorem alike_iff : ∀ (s : PyTree β) (t : PyTree γ),
    nullLeaves.go s = nullLeaves.go t ↔ AlikeButLeaves s t
  | .node k cs, .node k' cs' => by
    simp only [nullLeaves.go, AlikeButLeaves, PyTree.node.injEq, alikeL_iff cs cs']
  | .node _ _, .leaf _ => by simp [nullLeaves.go, AlikeButLeaves]
  | .node _ _, .none => by simp [nullLeaves.go, AlikeButLeaves]
  | .leaf _, .node _ _ => by simp [nullLeaves.go, AlikeButLeaves]
  | .none, .node _ _ => by simp [nullLeaves.go, AlikeButLeaves]
  | .leaf _, .leaf _ => by simp [nullLeaves.go, AlikeButLeaves]
  | .leaf _, .none => by simp [nullLeaves.go, AlikeButLeaves]
  | .none, .leaf _ => by simp [nullLeaves.go, AlikeButLeaves]
  | .none, .none => by simp [nullLeaves.go, AlikeButLeaves]
theorem alikeL_iff : ∀ (cs : List (PyTree β)) (ds : List (PyTree γ)),
    nullLeaves.goL cs = nullLeaves.goL ds ↔ AlikeButLeavesL cs ds
  | [], [] => by simp [nullLeaves.goL, AlikeButLeavesL]
  | c :: cs, d :: ds => by
    simp only [nullLeaves.goL, AlikeButLeavesL, List.cons.injEq, alike_iff c d, alikeL_iff cs ds]
  | [], _ :: _ => by simp [nullLeaves.goL, AlikeButLeavesL]
  | _ :: _, [] => by simp [nullLeaves.goL, AlikeButLeavesL]
end

/-- What the code decides, for all trees: the two have the same containers with the same keys at the same
places, dicts in key order, and a leaf or `None` of one faces a leaf or `None` of the other. -/
theorem C40_characterisation (s : PyTree β) (t : PyTree γ) :
    arePytreeStructureEqual s t = true ↔ AlikeButLeaves s.canon t.canon := by
  rw [← alike_iff]
  exact structureEqual_iff

/-- C40, one direction always holds: equal structures compare equal. -/
theorem C40_of_structure {s : PyTree β} {t : PyTree γ} (h : s.treeStructure = t.treeStructure) :
    arePytreeStructureEqual s t = true := structureEqual_of_treeStructure h

/-- C40, negation of the other direction: a leaf and `None` have different structures and compare
equal, at any place in any tree (here: as children of a list). -/
theorem C40_none_confused (x : β) :
    arePytreeStructureEqual (.leaf x) (.none : PyTree β) = true ∧
    (PyTree.leaf x).treeStructure ≠ (.none : PyTree β).treeStructure ∧
    arePytreeStructureEqual (.node .list [.leaf x, .leaf x]) (.node .list [.none, .leaf x]) = true := by
  refine ⟨structureEqual_iff.2 rfl, ?_, structureEqual_iff.2 rfl⟩
  intro h; cases h

section Example

/-- A leaf faces `None`, a container faces the same container. -/
example : AlikeButLeaves (.node .list [.leaf 1, .node .tuple [.leaf 2]] : PyTree Nat).canon
    (.node .list [.none, .node .tuple [.leaf 7]] : PyTree Nat).canon :=
  (C40_characterisation _ _).1 (by decide +kernel)

/-- Different containers, keys or lengths are told apart. -/
example : arePytreeStructureEqual (.node .list [.leaf 1, .leaf 2]) (.node .list [.leaf 7, .leaf 8])
      = true ∧
    arePytreeStructureEqual (.node .list [.leaf 1]) (.node .tuple [.leaf 1]) = false ∧
    arePytreeStructureEqual (.node (.dict ["a"]) [.leaf 1]) (.node (.dict ["b"]) [.leaf 1]) = false ∧
    arePytreeStructureEqual (.node (.dict ["b", "a"]) [.leaf 1, .leaf 2])
      (.node (.dict ["a", "b"]) [.leaf 3, .leaf 4]) = true := by decide +kernel

end Example
end JaxAct
