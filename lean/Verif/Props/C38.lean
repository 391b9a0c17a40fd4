import Verif.Lemmas.Binary
import Verif.Props.C37

/-! # C38 execute_binary_operator works leafwise with left broadcasting in either direction -/

namespace JaxAct
open Utils PyTree
variable {α : Type}

/-- The leaves of `a` and `b` that meet at path `p`: each lies on the way to `p`. -/
def MeetAt (a b : PyTree (Leaf α)) (p : List Step) (x y : Leaf α) : Prop :=
  ∃ q q', q <+: p ∧ q' <+: p ∧ a.atPath q = some (.leaf x) ∧ b.atPath q' = some (.leaf y)

/-- Common part: aligned operands hold, at every leaf path of the common structure, leaves that
meet there. -/
theorem align_meet {a b a' b' : PyTree (Leaf α)} (ha : a.WF) (hb : b.WF)
    (h : alignOperands a b = .ok (a', b')) :
    ∃ T, (T = a ∨ T = b) ∧ T.treeStructure = a'.treeStructure ∧
      (∀ p y, T.atPath p = some (.leaf y) ↔ T.canon.atPath p = some (.leaf y)) ∧ T.canon.WF ∧
      ∀ p y, T.canon.atPath p = some (.leaf y) → ∃ u v, MeetAt a b p u v ∧
        a'.canon.atPath p = some (.leaf u) ∧ b'.canon.atPath p = some (.leaf v) := by
  rcases align_cases a b with ⟨-, r, h1, h2⟩ | ⟨-, -, r, h1, h2⟩ | ⟨-, -, h2⟩
  · rw [h2] at h; cases h
    obtain ⟨-, g1, g2, g3⟩ := broadcast_ok h1
    refine ⟨b, .inr rfl, g1.symm, fun p y => (atPath_canon_leaf hb).symm, wf_canon b hb,
      fun p y hp => ?_⟩
    obtain ⟨q, x, k1, k2, k3⟩ := spread_path p _ _ _ y g3 hp
    rw [g2]
    exact ⟨x, y, ⟨q, p, k1, List.prefix_refl _, (atPath_canon_leaf ha).1 k2,
      (atPath_canon_leaf hb).1 hp⟩, k3, hp⟩
  · rw [h2] at h; cases h
    obtain ⟨-, g1, g2, g3⟩ := broadcast_ok h1
    refine ⟨a, .inl rfl, rfl, fun p y => (atPath_canon_leaf ha).symm, wf_canon a ha,
      fun p y hp => ?_⟩
    obtain ⟨q, x, k1, k2, k3⟩ := spread_path p _ _ _ y g3 hp
    rw [g2]
    exact ⟨y, x, ⟨p, q, List.prefix_refl _, k1, (atPath_canon_leaf ha).1 hp,
      (atPath_canon_leaf hb).1 k2⟩, hp, k3⟩
  · rw [h2] at h; cases h

theorem struct_leaf_path {β : Type} {t : PyTree β} {p : List Step} {y : β}
    (h : t.atPath p = some (.leaf y)) : t.struct.atPath p = some (.leaf ()) :=
  atPath_map _ p t _ h

/-- C38, result: the result has the structure of one of the operands, and at each of its leaf
paths it holds `op x' y'`, in argument order, where `x` and `y` are the leaves of `a` and `b` that
meet there and `x'`, `y'` are these with unit axes appended on the right up to the larger of the two
ranks. -/
theorem C38_result (op : Tensor α → Tensor α → Res (Tensor α)) (a b r : PyTree (Leaf α))
    (ha : a.WF) (hb : b.WF) (h : executeBinaryOperator op a b = .ok r) :
    ∃ T, (T = a ∨ T = b) ∧ r.treeStructure = T.treeStructure ∧
      ∀ p y, T.atPath p = some (.leaf y) →
        ∃ u v u' v' z, MeetAt a b p (.tensor u) (.tensor v) ∧
          Extends u u' (max u.shape.length v.shape.length) ∧
          Extends v v' (max u.shape.length v.shape.length) ∧
          op u' v' = .ok z ∧ r.atPath p = some (.leaf (.tensor z)) := by
  obtain ⟨a', b', out, h1, h2, h3⟩ := exec_ok_iff.1 h
  have hst := align_structure h1
  obtain ⟨T, hT, hTs, hTc, -, hm⟩ := align_meet ha hb h1
  obtain ⟨k1, k2, k3⟩ := unflatten_treeStructure h3
  obtain ⟨hrs, hrl⟩ := treeUnflatten_ok_iff.1 h3
  refine ⟨T, hT, k1.trans hTs.symm, fun p y hp => ?_⟩
  have hp' := (hTc p y).1 hp
  obtain ⟨u, v, hmeet, hu, hv⟩ := hm p y hp'
  obtain ⟨-, hloop⟩ := binaryLoop_ok (treeLeaves_length_of hst) h2
  obtain ⟨i, hi⟩ := path_index p _ (struct_leaf_path hu)
  obtain ⟨u2, e1, e2⟩ := hi a'.canon rfl
  obtain ⟨v2, f1, f2⟩ := hi b'.canon hst.symm
  obtain ⟨c, g1, g2⟩ := hi r hrs
  obtain rfl : u = u2 := by rw [hu] at e1; simpa using e1
  obtain rfl : v = v2 := by rw [hv] at f1; simpa using f1
  obtain ⟨c', h5, h6⟩ := hloop i u v e2 f2
  rw [hrl, h5] at g2
  cases g2
  obtain ⟨x, y', x', y'', z, rfl, rfl, m1, m2, m3, rfl⟩ := applyLeftBroadcast_ok h6
  exact ⟨x, y', x', y'', z, hmeet, m1, m2, m3, g1⟩

/-- C38, exceptions: every failure is a `RuntimeError`, whatever the operator raises. -/
theorem C38_error (op : Tensor α → Tensor α → Res (Tensor α)) (a b : PyTree (Leaf α)) (e : Err)
    (h : executeBinaryOperator op a b = .error e) : e = .runtimeError := by
  unfold executeBinaryOperator at h
  rw [bind_error] at h
  rcases h with h | ⟨⟨a', b'⟩, h1, h⟩
  · exact (wrapRuntime_error.1 h).1
  · simp only at h
    rw [bind_error] at h
    rcases h with h | ⟨out, h2, h3⟩
    · exact binaryLoop_error h
    · exfalso
      have hl := (binaryLoop_ok (treeLeaves_length_of (align_structure h1)) h2).1
      obtain ⟨t, ht⟩ := treeUnflatten_ok (d := a'.treeStructure) (ls := out)
        (by rw [treeStructure_leaves_length]; exact hl)
      rw [h3] at ht; cases ht

/-- C38, incompatible operands: `RuntimeError` if neither can be tree-broadcast to the other. -/
theorem C38_incompatible (op : Tensor α → Tensor α → Res (Tensor α)) (a b : PyTree (Leaf α))
    (h1 : ∀ r, broadcastPytreeShape a b ≠ .ok r) (h2 : ∀ r, broadcastPytreeShape b a ≠ .ok r) :
    executeBinaryOperator op a b = .error .runtimeError := by
  have : alignOperands a b = .error .runtimeError := by
    rcases align_cases a b with ⟨-, r, g, -⟩ | ⟨-, -, r, g, -⟩ | ⟨-, -, g⟩
    · exact absurd g (h1 r)
    · exact absurd g (h2 r)
    · exact g
  unfold executeBinaryOperator
  rw [this]; rfl

/-- The part of C38 shared by both directions: once the trees are aligned, the call succeeds if the
operator succeeds on the extended leaves that meet. -/
theorem exec_of_align {op : Tensor α → Tensor α → Res (Tensor α)} {a b a' b' : PyTree (Leaf α)}
    (ha : a.WF) (hb : b.WF) (hal : alignOperands a b = .ok (a', b'))
    (hop : ∀ p u v, MeetAt a b p u v → ∃ x y, u = .tensor x ∧ v = .tensor y ∧
      ∀ x' y', Extends x x' (max x.shape.length y.shape.length) →
        Extends y y' (max x.shape.length y.shape.length) → ∃ z, op x' y' = .ok z) :
    ∃ r, executeBinaryOperator op a b = .ok r := by
  have hst := align_structure hal
  obtain ⟨T, hT, hTs, hTc, hTw, hm⟩ := align_meet ha hb hal
  have hloop : ∃ out, binaryLoop op a'.treeLeaves b'.treeLeaves = .ok out := by
    refine binaryLoop_of fun i u v hu hv => ?_
    have hl : i < T.canon.leaves.length := by
      rw [leaves_length_of_struct (s := T.canon) (t := a'.canon) hTs]
      exact (List.getElem?_eq_some_iff.1 hu).1
    obtain ⟨p, hp⟩ := index_path T.canon hTw i _ (List.getElem?_eq_getElem hl)
    obtain ⟨t, ht, -⟩ := hp T.canon rfl
    obtain ⟨u2, e1, e2⟩ := hp a'.canon hTs.symm
    obtain ⟨v2, f1, f2⟩ := hp b'.canon (hst.symm.trans hTs.symm)
    obtain ⟨u3, v3, hmeet, g1, g2⟩ := hm p t ht
    obtain rfl : u = u2 := Option.some.inj (hu.symm.trans e2)
    obtain rfl : v = v2 := Option.some.inj (hv.symm.trans f2)
    obtain rfl : u = u3 := by rw [e1] at g1; simpa using g1
    obtain rfl : v = v3 := by rw [f1] at g2; simpa using g2
    obtain ⟨x, y, rfl, rfl, hxy⟩ := hop p u v hmeet
    obtain ⟨x', y', k1, k2, k3⟩ := applyLeftBroadcast_cases op x y
    obtain ⟨z, hz⟩ := hxy x' y' k1 k2
    exact ⟨.tensor z, by rw [k3, hz]; rfl⟩
  obtain ⟨out, ho⟩ := hloop
  have hl := (binaryLoop_ok (treeLeaves_length_of hst) ho).1
  obtain ⟨r, hr⟩ := treeUnflatten_ok (d := a'.treeStructure) (ls := out)
    (by rw [treeStructure_leaves_length]; exact hl)
  exact ⟨r, exec_ok_iff.2 ⟨a', b', out, hal, ho, hr⟩⟩

/-- C38, success when either operand can be tree-broadcast to the other, the leaves that meet are
tensors, and the operator succeeds on them once extended; for a first operand without `None` and
empty containers.  Missing: other first operands; there an internal `AssertionError` of the first
attempt prevents the second one, see `C38_second_attempt_skipped`. -/
theorem C38_success_partial (op : Tensor α → Tensor α → Res (Tensor α)) (a b : PyTree (Leaf α))
    (ha : a.WF) (hb : b.WF) (hne : NoEmpty a.treeStructure)
    (hab : (∃ r, broadcastPytreeShape a b = .ok r) ∨ (∃ r, broadcastPytreeShape b a = .ok r))
    (hop : ∀ p u v, MeetAt a b p u v → ∃ x y, u = .tensor x ∧ v = .tensor y ∧
      ∀ x' y', Extends x x' (max x.shape.length y.shape.length) →
        Extends y y' (max x.shape.length y.shape.length) → ∃ z, op x' y' = .ok z) :
    ∃ r, executeBinaryOperator op a b = .ok r := by
  rcases align_cases a b with ⟨-, r, -, g⟩ | ⟨-, -, r, -, g⟩ | ⟨g1, g2, g⟩
  · exact exec_of_align ha hb g hop
  · exact exec_of_align ha hb g hop
  · exfalso
    have hd : ¬ Descends a.treeStructure b.treeStructure := fun h => g1 (noEmpty_fits _ _ hne h)
    rcases hab with h | h
    · exact g1 ((C36_success_iff a b).1 h)
    · exact (g2.resolve_left hd) ((C36_success_iff b a).1 h)

/-- C38, success for all operands when the first can be broadcast to the second. -/
theorem C38_success_forward (op : Tensor α → Tensor α → Res (Tensor α)) (a b : PyTree (Leaf α))
    (ha : a.WF) (hb : b.WF) (hab : ∃ r, broadcastPytreeShape a b = .ok r)
    (hop : ∀ p u v, MeetAt a b p u v → ∃ x y, u = .tensor x ∧ v = .tensor y ∧
      ∀ x' y', Extends x x' (max x.shape.length y.shape.length) →
        Extends y y' (max x.shape.length y.shape.length) → ∃ z, op x' y' = .ok z) :
    ∃ r, executeBinaryOperator op a b = .ok r := by
  rcases align_cases a b with ⟨-, r, -, g⟩ | ⟨-, -, r, -, g⟩ | ⟨g1, -, -⟩
  · exact exec_of_align ha hb g hop
  · exact exec_of_align ha hb g hop
  · exact absurd ((C36_success_iff a b).1 hab) g1

/-- C38 is false as stated: with `a = []` and a single tensor `b`, `b` can be broadcast to `a`, but
the attempt to broadcast `a` to `b` fails with `AssertionError` rather than `RuntimeError`, the second
attempt is skipped, and the call raises. -/
theorem C38_second_attempt_skipped (op : Tensor α → Tensor α → Res (Tensor α)) (x : Leaf α) :
    broadcastPytreeShape (.leaf x) (.node .list []) = .ok (.node .list []) ∧
    executeBinaryOperator op (.node .list []) (.leaf x) = .error .runtimeError := ⟨rfl, rfl⟩

section examples
open Fixtures
attribute [local instance] Arith.exact

/-- Subtraction of `[1, 2]` (one leaf, rank 1) from a list of a rank 1 and a rank 2 leaf, and the
other way round: both directions work, in argument order. -/
example : ((executeBinaryOperator (Tensor.binop Arith.sub) (pair (vec [5, 7]) (col 10 20))
    (bare (vec [1, 2]))).toOption.map fun r => r.treeLeaves.map fun
      | .tensor t => (t.shape, (Arr.indices t.shape).map t.at?)
      | .obj _ => ([], [])) =
    some [([2], [some 4, some 5]), ([2, 1], [some 9, some 18])] := by decide +kernel

example : ((executeBinaryOperator (Tensor.binop Arith.sub) (bare (vec [1, 2]))
    (pair (vec [5, 7]) (col 10 20))).toOption.map fun r => r.treeLeaves.map fun
      | .tensor t => (t.shape, (Arr.indices t.shape).map t.at?)
      | .obj _ => ([], [])) =
    some [([2], [some (-4), some (-5)]), ([2, 1], [some (-9), some (-18)])] := by decide +kernel

/-- The hypotheses of `C38_success_partial` in the first of these cases. -/
example : (pair (vec [5, 7]) (col 10 20)).WF ∧ NoEmpty (pair (vec [5, 7]) (col 10 20)).treeStructure ∧
    ∃ r, broadcastPytreeShape (bare (vec [1, 2])) (pair (vec [5, 7]) (col 10 20)) = .ok r := by
  refine ⟨?_, ?_, _, rfl⟩
  · simp [pair, bare, PyTree.WF, PyTree.WFL]
  · simp [pair, bare, treeStructure, canon, canonL, sortNode, struct, PyTree.map, mapL, NoEmpty,
      NoEmptyL]

example : raised (executeBinaryOperator (Tensor.binop Arith.sub) (pair (vec [5, 7]) (col 10 20))
    (.node .tuple [bare (vec [1, 2]), bare (vec [1, 2])])) = some .runtimeError := by decide +kernel
end examples

end JaxAct
