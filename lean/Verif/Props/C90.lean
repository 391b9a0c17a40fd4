import Verif.Lemmas.Spread
import Verif.Props.C38

/-! # C90 The laws of pytree broadcasting

`broadcast_pytree_shape` behaves like numpy's broadcasting: broadcasting to the same structure does
nothing, two broadcasts in a row are one, only the structure of the target matters, and it commutes
with functions on the leaves.  `execute_binary_operator` treats its operands alike unless empty
containers or `None` are involved. -/

namespace JaxAct
open Utils PyTree
variable {α β γ : Type}

/-- C90, identity: a tree broadcast to a target of its own structure keeps its structure and its
leaves. -/
theorem C90_identity (s t : PyTree β) (h : s.treeStructure = t.treeStructure) :
    ∃ r, broadcastPytreeShape s t = .ok r ∧ r.treeStructure = s.treeStructure ∧
      r.treeLeaves = s.treeLeaves := by
  have hs := spread_self s.canon t.canon h
  obtain ⟨r, hr⟩ := (C36_success_iff s t).2 (spread_fits _ _ _ hs)
  obtain ⟨-, h1, h2, h3⟩ := broadcast_ok hr
  have := spread_unique _ _ _ _ h3 hs
  refine ⟨r, hr, h1.trans h.symm, ?_⟩
  rw [treeLeaves, treeLeaves, h2, this]

/-- C90, composition: when `s` broadcasts to `t` and the result to `v`, then `s` broadcasts to `v`
directly, with the same result. -/
theorem C90_composition {s t u v w : PyTree β} (h1 : broadcastPytreeShape s t = .ok u)
    (h2 : broadcastPytreeShape u v = .ok w) : broadcastPytreeShape s v = .ok w := by
  obtain ⟨-, -, g2, g3⟩ := broadcast_ok h1
  obtain ⟨-, -, -, k3⟩ := broadcast_ok h2
  rw [g2] at k3
  have hs := spread_trans _ _ _ _ _ g3 k3
  obtain ⟨r, hr⟩ := (C36_success_iff s v).2 (spread_fits _ _ _ hs)
  rw [hr, spread_unique _ _ _ _ (broadcast_ok hr).2.2.2 hs]

/-- C90, the second broadcast succeeds exactly when `t` broadcasts to `v`. -/
theorem C90_composition_iff {s t u v : PyTree β} (h : broadcastPytreeShape s t = .ok u) :
    (∃ w, broadcastPytreeShape u v = .ok w) ↔ ∃ w, broadcastPytreeShape t v = .ok w := by
  rw [C36_success_iff, C36_success_iff, (broadcast_ok h).2.1]

/-- C90: only the structure of the target matters, for results and for exceptions. -/
theorem C90_target (s t t' : PyTree β) (h : t.treeStructure = t'.treeStructure) :
    broadcastPytreeShape s t = broadcastPytreeShape s t' := by
  unfold broadcastPytreeShape
  rw [h, treeLeaves_length_of h]

/-- C90: broadcasting commutes with functions on the leaves, and raises the same exceptions. -/
theorem C90_natural (f g : β → γ) (s t : PyTree β) :
    broadcastPytreeShape (s.map f) (t.map g) = (broadcastPytreeShape s t).map (PyTree.map f) := by
  have es : ∀ (f : β → γ) (s : PyTree β), (s.map f).treeStructure = s.treeStructure := fun f s => by
    rw [treeStructure, treeStructure, canon_map, struct_map]
  rcases broadcast_cases s t with ⟨-, r, h⟩ | ⟨h1, h⟩ | ⟨h1, h2, h⟩
  · have hs := spread_map f g _ _ _ (broadcast_ok h).2.2.2
    rw [← canon_map, ← canon_map] at hs
    obtain ⟨r', hr'⟩ := (C36_success_iff (s.map f) (t.map g)).2 (spread_fits _ _ _ hs)
    rw [h, hr', spread_unique _ _ _ _ (broadcast_ok hr').2.2.2 hs]
    rfl
  · rw [h]
    exact (C36_error_iff _ _ _).2 (.inl ⟨rfl, by rw [es, es]; exact h1⟩)
  · rw [h]
    exact (C36_error_iff _ _ _).2 (.inr ⟨rfl, by rw [es, es]; exact h1, by rw [es, es]; exact h2⟩)

mutual
theorem collapse_antisymm : ∀ s t : TreeDef, Collapse s t → Collapse t s → s = t
  | .leaf _, .leaf _, _, _ => rfl
  | .none, .none, _, _ => rfl
  | .node _ cs, .node _ ts, h, h' => by
    rw [h.1, collapseL_antisymm cs ts h.2 h'.2]
  | .leaf _, .none, _, h => h.elim
  | .leaf _, .node _ _, _, h => h.elim
  | .none, .leaf _, h, _ => h.elim
  | .none, .node _ _, h, _ => h.elim
  | .node _ _, .leaf _, h, _ => h.elim
  | .node _ _, .none, h, _ => h.elim
theorem collapseL_antisymm : ∀ cs ts : List TreeDef, CollapseL cs ts → CollapseL ts cs → cs = ts
  | [], [], _, _ => rfl
  | c :: cs, t :: ts, h, h' => by
    rw [collapse_antisymm c t h.1 h'.1, collapseL_antisymm cs ts h.2 h'.2]
  | [], _ :: _, h, _ => h.elim
  | _ :: _, [], h, _ => h.elim
end

theorem applyLeftBroadcast_swap (op : Tensor α → Tensor α → Res (Tensor α)) (a b : Leaf α) :
    wrapRuntime (applyLeftBroadcast (fun x y => op y x) b a) =
      wrapRuntime (applyLeftBroadcast op a b) := by
  unfold applyLeftBroadcast
  cases a.asTensor with
  | error e =>
    cases b.asTensor with
    | error e' => rfl
    | ok y => rfl
  | ok x =>
    cases b.asTensor with
    | error e' => rfl
    | ok y =>
      simp only [ok_bind]
      rcases Nat.lt_trichotomy x.shape.length y.shape.length with h | h | h
      · rw [if_pos h, if_neg (by omega), if_pos h]
      · rw [if_neg (by omega), if_neg (by omega), if_neg (by omega), if_neg (by omega)]
      · rw [if_neg (by omega), if_pos h, if_pos h]

theorem binaryLoop_swap (op : Tensor α → Tensor α → Res (Tensor α)) : ∀ as bs : List (Leaf α),
    binaryLoop (fun x y => op y x) bs as = binaryLoop op as bs
  | [], [] => rfl
  | [], _ :: _ => rfl
  | _ :: _, [] => rfl
  | a :: as, b :: bs => by
    rw [binaryLoop, binaryLoop, applyLeftBroadcast_swap, binaryLoop_swap op as bs]

/-- C90, operands: without `None` and empty containers, the operands of `execute_binary_operator` may
be swapped along with the arguments of the operator; results and exceptions are the same. -/
theorem C90_swap (op : Tensor α → Tensor α → Res (Tensor α)) (a b : PyTree (Leaf α))
    (ha : NoEmpty a.treeStructure) (hb : NoEmpty b.treeStructure) :
    executeBinaryOperator (fun x y => op y x) b a = executeBinaryOperator op a b := by
  have key : ∀ {a b a' : PyTree (Leaf α)}, broadcastPytreeShape a b = .ok a' →
      (do let out ← binaryLoop (fun x y => op y x) b.treeLeaves a'.treeLeaves
          PyTree.treeUnflatten b.treeStructure out) =
      (do let out ← binaryLoop op a'.treeLeaves b.treeLeaves
          PyTree.treeUnflatten a'.treeStructure out) := by
    intro a b a' h
    rw [binaryLoop_swap, (broadcast_ok h).2.1]
  have nd : ∀ {s t : TreeDef}, NoEmpty s → ¬ Fits s t → ¬ Descends s t := fun hs hf hd =>
    hf (noEmpty_fits _ _ hs hd)
  unfold executeBinaryOperator
  rcases align_cases a b with ⟨h1, a', h2, h3⟩ | ⟨h0, h1, b', h2, h3⟩ | ⟨h0, h1, h3⟩
  · rcases align_cases b a with ⟨g1, b', g2, g3⟩ | ⟨g0, g1, a'', g2, g3⟩ | ⟨g0, g1, g3⟩
    · have e := collapse_antisymm _ _ (fits_collapse _ _ hb h1) (fits_collapse _ _ ha g1)
      obtain ⟨r, k1, k2, k3⟩ := C90_identity a b e
      rw [h2] at k1
      cases k1
      obtain ⟨r, m1, m2, m3⟩ := C90_identity b a e.symm
      rw [g2] at m1
      cases m1
      rw [h3, g3]
      simp only [ok_bind]
      rw [binaryLoop_swap, k3, m3, k2, m2, e]
    · rw [h2] at g2
      cases g2
      rw [h3, g3]
      exact key h2
    · rcases g1 with g1 | g1
      · exact absurd g1 (nd hb g0)
      · exact absurd h1 g1
  · rcases align_cases b a with ⟨-, b'', g2, g3⟩ | ⟨g0, -⟩ | ⟨g0, -⟩
    · rw [h2] at g2
      cases g2
      rw [h3, g3]
      simp only [ok_bind]
      rw [binaryLoop_swap, (broadcast_ok h2).2.1]
    · exact absurd (fits_descends _ _ h1) g0
    · exact absurd h1 g0
  · rcases align_cases b a with ⟨g1, -⟩ | ⟨-, g1, -⟩ | ⟨-, -, g3⟩
    · rcases h1 with h1 | h1
      · exact absurd h1 (nd ha h0)
      · exact absurd g1 h1
    · exact absurd g1 h0
    · rw [h3, g3]; rfl

/-- C90, operands: with `None` (or an empty container) on one side the order matters.  A tensor and
`None` give `None`, `None` and a tensor raise `RuntimeError`, whatever the operator. -/
theorem C90_swap_fails (op : Tensor α → Tensor α → Res (Tensor α)) (x : Leaf α) :
    executeBinaryOperator op (.leaf x) .none = .ok .none ∧
    executeBinaryOperator (fun x y => op y x) .none (.leaf x) = .error .runtimeError := ⟨rfl, rfl⟩

section Examples
open Fixtures
attribute [local instance] Arith.exact

/-- Two steps and one: `x` over `[0, 0]` and then over `[(0, 0), 0]`. -/
example : (broadcastPytreeShape (.leaf 7) (.node .list [.leaf 0, .leaf 0] : PyTree Nat)).toOption =
      some (.node .list [.leaf 7, .leaf 7]) ∧
    (broadcastPytreeShape (.node .list [.leaf 7, .leaf 7])
      (.node .list [.node .tuple [.leaf 0, .leaf 0], .leaf 0] : PyTree Nat)).toOption =
      some (.node .list [.node .tuple [.leaf 7, .leaf 7], .leaf 7]) ∧
    (broadcastPytreeShape (.leaf 7)
      (.node .list [.node .tuple [.leaf 0, .leaf 0], .leaf 0] : PyTree Nat)).toOption =
      some (.node .list [.node .tuple [.leaf 7, .leaf 7], .leaf 7]) := by decide +kernel

/-- A dictionary over another one with the keys in a different order. -/
example : (PyTree.node (.dict ["b", "a"]) [.leaf 1, .leaf 2] : PyTree Nat).treeStructure =
      (PyTree.node (.dict ["a", "b"]) [.leaf 5, .leaf 6] : PyTree Nat).treeStructure ∧
    (broadcastPytreeShape (.node (.dict ["b", "a"]) [.leaf 1, .leaf 2])
      (.node (.dict ["a", "b"]) [.leaf 5, .leaf 6] : PyTree Nat)).toOption =
      some (.node (.dict ["a", "b"]) [.leaf 2, .leaf 1]) := by decide +kernel

/-- Subtraction with swapped operands, and the hypotheses of `C90_swap`. -/
example : (let shown := fun r : Res (PyTree (Leaf ℚ)) => r.toOption.map fun r => r.treeLeaves.map fun
      | .tensor t => (t.shape, (Arr.indices t.shape).map t.at?)
      | .obj _ => ([], [])
    shown (executeBinaryOperator (Tensor.binop Arith.sub) (pair (vec [5, 7]) (col 10 20))
      (bare (vec [1, 2]))) = some [([2], [some 4, some 5]), ([2, 1], [some 9, some 18])] ∧
    shown (executeBinaryOperator (fun x y => Tensor.binop Arith.sub y x) (bare (vec [1, 2]))
      (pair (vec [5, 7]) (col 10 20))) =
      some [([2], [some 4, some 5]), ([2, 1], [some 9, some 18])]) ∧
    NoEmpty (pair (vec [5, 7]) (col 10 20)).treeStructure ∧
    NoEmpty (bare (vec [1, 2])).treeStructure := by
  refine ⟨by decide +kernel, ?_, trivial⟩
  simp [pair, bare, treeStructure, canon, canonL, sortNode, struct, PyTree.map, mapL, NoEmpty,
    NoEmptyL]

end Examples
end JaxAct
