import Verif.Model.Utils
import Verif.Spec.Paths
import Verif.Lemmas.PyTree
import Verif.Lemmas.Res

/-! # `broadcast_pytree_shape` -/

namespace JaxAct
open PyTree
namespace Utils
variable {β γ : Type}

theorem countLinkedLeaves_leaf (u : Unit) : countLinkedLeaves (.leaf u) = 1 := rfl
theorem countLinkedLeaves_none : countLinkedLeaves .none = 0 := rfl
theorem countLinkedLeaves_node (k : Kind) (cs : List TreeDef) :
    countLinkedLeaves (.node k cs) = countLinkedLeavesL cs := by
  cases cs <;> rfl

theorem replicateLeaves_leaf (u : Unit) (t : TreeDef) (x : β) (q : List β) :
    replicateLeaves (.leaf u) t (x :: q) = .ok (List.replicate (countLinkedLeaves t) x, q) := rfl
theorem replicateLeaves_none (t : TreeDef) (q : List β) :
    replicateLeaves .none t q = .ok ([], q) := rfl
theorem replicateLeaves_node (k : Kind) (cs : List TreeDef) (t : TreeDef) (q : List β) :
    replicateLeaves (.node k cs) t q =
      if cs.isEmpty then .ok ([], q)
      else if treedefIsLeaf t then raise .runtimeError
      else match t with
        | .node k' cs' =>
          match validateChildrenDescent k cs k' cs' with
          | .error e => .error e
          | .ok () => replicateLeavesL cs cs' q
        | _ => raise .runtimeError := by
  cases cs <;> cases t <;> rfl

mutual
theorem countLinkedLeaves_eq : ∀ t : TreeDef, countLinkedLeaves t = t.leaves.length
  | .leaf _ => rfl
  | .none => rfl
  | .node _ cs => by
    simp only [countLinkedLeaves_node, leaves]
    exact countLinkedLeavesL_eq cs
theorem countLinkedLeavesL_eq : ∀ cs : List TreeDef, countLinkedLeavesL cs = (leavesL cs).length
  | [] => rfl
  | c :: cs => by
    simp only [countLinkedLeavesL, leavesL, List.length_append, countLinkedLeaves_eq c,
      countLinkedLeavesL_eq cs]
end

theorem keysMatch_iff : ∀ {ks ks' : List String}, ks.length = ks'.length →
    (keysMatch (ks.zip ks') = true ↔ ks = ks')
  | [], [], _ => by simp [keysMatch]
  | [], _ :: _, h => by simp at h
  | _ :: _, [], h => by simp at h
  | a :: ks, b :: ks', h => by
    have ih := keysMatch_iff (ks := ks) (ks' := ks') (by simpa using h)
    simp only [List.zip_cons_cons, keysMatch]
    split
    · rename_i hne; simp only [Bool.false_eq_true, List.cons.injEq, false_iff]
      exact fun hc => hne hc.1
    · rename_i he
      rw [ih, not_not.1 he]; simp

/-- Under the invariant of tree definitions, the check passes exactly if the containers agree. -/
theorem validateChildrenDescent_iff {k k' : Kind} {cs cs' : List TreeDef}
    (h : ∀ ks, k = .dict ks → ks.length = cs.length)
    (h' : ∀ ks, k' = .dict ks → ks.length = cs'.length) :
    validateChildrenDescent k cs k' cs' = .ok () ↔ k = k' ∧ cs.length = cs'.length := by
  unfold validateChildrenDescent
  by_cases hl : cs.length = cs'.length
  · cases k with
    | list => cases k' <;> simp [Kind.cls, hl]
    | tuple => cases k' <;> simp [Kind.cls, hl]
    | user c => cases k' <;> simp [Kind.cls, hl]
    | dict ks =>
      cases k' with
      | list => simp [Kind.cls]
      | tuple => simp [Kind.cls]
      | user c => simp [Kind.cls]
      | dict ks' =>
        have := keysMatch_iff (ks := ks) (ks' := ks') (by rw [h ks rfl, h' ks' rfl, hl])
        by_cases hk : ks = ks'
        · subst hk; simp [Kind.cls, hl, this.2 rfl]
        · have : keysMatch (ks.zip ks') = false := by
            rw [Bool.eq_false_iff, ne_eq, this]; exact hk
          simp [Kind.cls, hl, this, hk]
  · by_cases hc : k.cls = k'.cls <;> simp [hl, hc]

theorem validateChildrenDescent_error {k k' : Kind} {cs cs' : List TreeDef} {e : Err}
    (h : validateChildrenDescent k cs k' cs' = .error e) : e = .runtimeError := by
  unfold validateChildrenDescent at h
  split at h
  · cases h; rfl
  · split at h
    · cases h; rfl
    · split at h
      · split at h
        · cases h
        · cases h; rfl
      · cases h

mutual
/-- Relation between source, target and result of a spread. -/
def Spread : PyTree β → PyTree γ → PyTree β → Prop
  | .leaf x, t, r => r = t.map (fun _ => x)
  | .none, t, r => r.struct = t.struct ∧ t.leaves = []
  | .node k cs, t, r => (cs = [] ∧ r.struct = t.struct ∧ t.leaves = []) ∨
      match t, r with
      | .node k' ts, .node k'' rs => cs ≠ [] ∧ k = k' ∧ k = k'' ∧ SpreadL cs ts rs
      | _, _ => False
/-- `Spread` on children. -/
def SpreadL : List (PyTree β) → List (PyTree γ) → List (PyTree β) → Prop
  | [], [], [] => True
  | c :: cs, t :: ts, r :: rs => Spread c t r ∧ SpreadL cs ts rs
  | _, _, _ => False
end

theorem struct_node_inv {r : PyTree β} {k : Kind} {ds : List TreeDef} (h : r.struct = .node k ds) :
    ∃ rs, r = .node k rs ∧ mapL (fun _ => ()) rs = ds := by
  cases r with
  | leaf x => simp [struct, PyTree.map] at h
  | none => simp [struct, PyTree.map] at h
  | node k' rs =>
    simp only [struct, PyTree.map, PyTree.node.injEq] at h
    exact ⟨rs, by rw [h.1], h.2⟩

theorem leaves_length_of_struct {s : PyTree β} {t : PyTree γ} (h : s.struct = t.struct) :
    s.leaves.length = t.leaves.length := by
  rw [← leaves_struct_length, ← leaves_struct_length t, h]

theorem mapL_length (f : β → γ) (cs : List (PyTree β)) : (mapL f cs).length = cs.length := by
  rw [mapL_eq, List.length_map]

theorem validate_struct_iff {k k' : Kind} {cs : List (PyTree β)} {ts : List (PyTree γ)}
    (hS : IsCanon (.node k cs)) (hT : IsCanon (.node k' ts)) :
    validateChildrenDescent k (mapL (fun _ => ()) cs) k' (mapL (fun _ => ()) ts) = .ok () ↔
      k = k' ∧ cs.length = ts.length := by
  rw [validateChildrenDescent_iff, mapL_length, mapL_length]
  · intro ks hk; rw [mapL_length]; exact (hS.1 ks hk).2
  · intro ks hk; rw [mapL_length]; exact (hT.1 ks hk).2

mutual
theorem replicate_ok : ∀ (S : PyTree β) (T : PyTree γ) (rest out q : List β),
    IsCanon S → IsCanon T →
    replicateLeaves S.struct T.struct (S.leaves ++ rest) = .ok (out, q) →
    q = rest ∧ out.length ≤ T.leaves.length ∧
    ∀ r : PyTree β, r.struct = T.struct → r.leaves = out → Spread S T r
  | .leaf x, T, rest, out, q, _, _, h => by
    simp only [struct, PyTree.map, leaves, replicateLeaves_leaf, List.singleton_append, Except.ok.injEq,
      Prod.mk.injEq] at h
    obtain ⟨rfl, rfl⟩ := h
    rw [countLinkedLeaves_eq]
    have hl : (PyTree.map (fun _ => ()) T).leaves.length = T.leaves.length := leaves_struct_length T
    rw [hl]
    refine ⟨rfl, by simp, fun r hr hrl => ?_⟩
    show r = T.map (fun _ => x)
    refine eq_of_struct_leaves ?_ ?_
    · rw [struct_map]; exact hr
    · rw [hrl, leaves_map]
      simp
  | .none, T, rest, out, q, _, _, h => by
    simp only [struct, PyTree.map, leaves, replicateLeaves_none, List.nil_append, Except.ok.injEq,
      Prod.mk.injEq] at h
    obtain ⟨rfl, rfl⟩ := h
    refine ⟨rfl, by simp, fun r hr hrl => ⟨hr, ?_⟩⟩
    have := leaves_length_of_struct hr
    rw [hrl] at this
    exact List.length_eq_zero_iff.1 this.symm
  | .node k [], T, rest, out, q, _, _, h => by
    simp only [struct, PyTree.map, mapL, leaves, leavesL, replicateLeaves_node, List.nil_append,
      List.isEmpty_nil, if_true, Except.ok.injEq, Prod.mk.injEq] at h
    obtain ⟨rfl, rfl⟩ := h
    refine ⟨rfl, by simp, fun r hr hrl => Or.inl ⟨rfl, hr, ?_⟩⟩
    have := leaves_length_of_struct hr
    rw [hrl] at this
    exact List.length_eq_zero_iff.1 this.symm
  | .node k (c :: cs), .leaf _, rest, out, q, _, _, h => by
    simp [struct, PyTree.map, mapL, replicateLeaves_node, treedefIsLeaf] at h
  | .node k (c :: cs), .none, rest, out, q, _, _, h => by
    simp [struct, PyTree.map, mapL, replicateLeaves_node, treedefIsLeaf] at h
  | .node k (c :: cs), .node k' ts, rest, out, q, hS, hT, h => by
    have hne : (mapL (fun _ => ()) (c :: cs)).isEmpty = false := by simp [mapL]
    simp only [struct, PyTree.map, replicateLeaves_node, hne, Bool.false_eq_true, if_false] at h
    split at h
    · cases h
    · split at h
      · cases h
      · rename_i hv
        obtain ⟨rfl, hlen⟩ := (validate_struct_iff hS hT).1 hv
        obtain ⟨h1, h2, h3⟩ := replicateL_ok (c :: cs) ts rest out q hS.2 hT.2 hlen h
        refine ⟨h1, h2, fun r hr hrl => Or.inr ?_⟩
        obtain ⟨rs, rfl, hrs⟩ := struct_node_inv hr
        exact ⟨by simp, rfl, rfl, h3 rs hrs hrl⟩
theorem replicateL_ok : ∀ (cs : List (PyTree β)) (ts : List (PyTree γ)) (rest out q : List β),
    IsCanonL cs → IsCanonL ts → cs.length = ts.length →
    replicateLeavesL (mapL (fun _ => ()) cs) (mapL (fun _ => ()) ts) (leavesL cs ++ rest)
      = .ok (out, q) →
    q = rest ∧ out.length ≤ (leavesL ts).length ∧
    ∀ rs : List (PyTree β), mapL (fun _ => ()) rs = mapL (fun _ => ()) ts → leavesL rs = out →
      SpreadL cs ts rs
  | [], ts, rest, out, q, _, _, hl, h => by
    simp only [mapL, leavesL, replicateLeavesL, List.nil_append, Except.ok.injEq,
      Prod.mk.injEq] at h
    obtain ⟨rfl, rfl⟩ := h
    refine ⟨rfl, by simp, fun rs hrs _ => ?_⟩
    cases ts with
    | nil =>
      cases rs with
      | nil => trivial
      | cons r rs => simp [mapL] at hrs
    | cons t ts => simp at hl
  | c :: cs, [], _, _, _, _, _, hl, _ => by simp at hl
  | c :: cs, t :: ts, rest, out, q, hS, hT, hl, h => by
    simp only [mapL, leavesL, replicateLeavesL, List.append_assoc] at h
    split at h
    · cases h
    · rename_i out1 q1 h1
      rw [wrapRuntime_ok] at h1
      split at h
      · cases h
      · rename_i out2 q2 h2
        simp only [Except.ok.injEq, Prod.mk.injEq] at h
        obtain ⟨rfl, rfl⟩ := h
        obtain ⟨rfl, g2, g3⟩ := replicate_ok c t _ out1 q1 hS.1 hT.1 h1
        obtain ⟨k1, k2, k3⟩ := replicateL_ok cs ts rest out2 q2 hS.2 hT.2 (by simpa using hl) h2
        refine ⟨k1, by simp only [leavesL, List.length_append]; omega, fun rs hrs hrl => ?_⟩
        cases rs with
        | nil => simp [mapL] at hrs
        | cons r rs =>
          simp only [mapL, List.cons.injEq] at hrs
          simp only [leavesL] at hrl
          have e1 : r.leaves.length = t.leaves.length := leaves_length_of_struct hrs.1
          have e2 : (leavesL rs).length = (leavesL ts).length := by
            have := leaves_length_of_struct (s := .node .list rs) (t := .node .list ts)
              (by simp only [struct, PyTree.map, hrs.2])
            exact this
          have e3 := congrArg List.length hrl
          simp only [List.length_append] at e3
          obtain ⟨f1, f2⟩ := List.append_inj hrl (by omega)
          exact ⟨g3 r hrs.1 f1, k3 rs hrs.2 f2⟩
end

mutual
/-- The descent succeeds exactly if the containers agree; it fails with `RuntimeError` only. -/
theorem replicate_descends : ∀ (S : PyTree β) (T : PyTree γ) (rest : List β),
    IsCanon S → IsCanon T →
    (Descends S.struct T.struct ∧
      ∃ out q, replicateLeaves S.struct T.struct (S.leaves ++ rest) = .ok (out, q)) ∨
    (¬ Descends S.struct T.struct ∧
      replicateLeaves S.struct T.struct (S.leaves ++ rest) = .error .runtimeError)
  | .leaf x, T, rest, _, _ => .inl ⟨trivial, _, _, rfl⟩
  | .none, T, rest, _, _ => .inl ⟨trivial, _, _, rfl⟩
  | .node k [], T, rest, _, _ => .inl ⟨.inl rfl, _, _, rfl⟩
  | .node k (c :: cs), .leaf _, rest, _, _ => by
    right
    simp [struct, PyTree.map, mapL, replicateLeaves_node, treedefIsLeaf, Descends]
  | .node k (c :: cs), .none, rest, _, _ => by
    right
    simp [struct, PyTree.map, mapL, replicateLeaves_node, treedefIsLeaf, Descends]
  | .node k (c :: cs), .node k' [], rest, _, _ => by
    right
    simp [struct, PyTree.map, mapL, replicateLeaves_node, treedefIsLeaf, Descends, DescendsL]
  | .node k (c :: cs), .node k' (t :: ts), rest, hS, hT => by
    have hne : (mapL (fun _ => ()) (c :: cs)).isEmpty = false := by simp [mapL]
    have hlf : treedefIsLeaf (.node k' (mapL (fun _ => ()) (t :: ts))) = false := by
      simp [mapL, treedefIsLeaf]
    simp only [struct, PyTree.map, replicateLeaves_node, hne, hlf, Bool.false_eq_true, if_false]
    have hv := validate_struct_iff hS hT
    cases he : validateChildrenDescent k (mapL (fun _ => ()) (c :: cs)) k'
        (mapL (fun _ => ()) (t :: ts)) with
    | error e =>
      right
      refine ⟨?_, by rw [validateChildrenDescent_error he]⟩
      intro hd
      rw [he] at hv
      have : k = k' ∧ (c :: cs).length = (t :: ts).length := by
        rcases hd with h | h
        · simp [mapL] at h
        · refine ⟨h.1, ?_⟩
          have := descendsL_length h.2
          rwa [mapL_length, mapL_length] at this
      have := hv.2 this
      cases this
    | ok _ =>
      obtain ⟨hk, hl⟩ := hv.1 he
      rcases replicateL_descends (c :: cs) (t :: ts) rest hS.2 hT.2 hl with h | h
      · left
        exact ⟨.inr ⟨hk, h.1⟩, h.2⟩
      · right
        refine ⟨?_, h.2⟩
        rintro (hd | hd)
        · simp [mapL] at hd
        · exact h.1 hd.2
theorem replicateL_descends : ∀ (cs : List (PyTree β)) (ts : List (PyTree γ)) (rest : List β),
    IsCanonL cs → IsCanonL ts → cs.length = ts.length →
    (DescendsL (mapL (fun _ => ()) cs) (mapL (fun _ => ()) ts) ∧
      ∃ out q, replicateLeavesL (mapL (fun _ => ()) cs) (mapL (fun _ => ()) ts) (leavesL cs ++ rest)
        = .ok (out, q)) ∨
    (¬ DescendsL (mapL (fun _ => ()) cs) (mapL (fun _ => ()) ts) ∧
      replicateLeavesL (mapL (fun _ => ()) cs) (mapL (fun _ => ()) ts) (leavesL cs ++ rest)
        = .error .runtimeError)
  | [], [], rest, _, _, _ => .inl ⟨trivial, _, _, rfl⟩
  | [], _ :: _, _, _, _, h => by simp at h
  | _ :: _, [], _, _, _, h => by simp at h
  | c :: cs, t :: ts, rest, hS, hT, hl => by
    simp only [mapL, leavesL, replicateLeavesL, List.append_assoc, DescendsL]
    rcases replicate_descends c t (leavesL cs ++ rest) hS.1 hT.1 with ⟨h1, out, q, h2⟩ | ⟨h1, h2⟩
    · have h2' := h2
      simp only [struct] at h2
      rw [h2]
      obtain ⟨rfl, -, -⟩ := replicate_ok c t _ out q hS.1 hT.1 h2'
      simp only [wrapRuntime]
      rcases replicateL_descends cs ts rest hS.2 hT.2 (by simpa using hl) with
        ⟨h3, out', q', h4⟩ | ⟨h3, h4⟩
      · left
        rw [h4]
        exact ⟨⟨h1, h3⟩, _, _, rfl⟩
      · right
        rw [h4]
        exact ⟨fun h => h3 h.2, rfl⟩
    · right
      simp only [struct] at h2
      rw [h2]
      exact ⟨fun h => h1 h.1, rfl⟩
theorem descendsL_length : ∀ {cs ds : List TreeDef}, DescendsL cs ds → cs.length = ds.length
  | [], [], _ => rfl
  | _ :: _, _ :: _, h => by simp [descendsL_length h.2]
  | [], _ :: _, h => absurd h id
  | _ :: _, [], h => absurd h id
end

mutual
theorem fits_descends : ∀ s t : TreeDef, Fits s t → Descends s t
  | .leaf _, _, _ => trivial
  | .none, _, _ => trivial
  | .node _ _, .leaf _, h => h.elim (fun h => .inl h.1) (fun h => h.elim)
  | .node _ _, .none, h => h.elim (fun h => .inl h.1) (fun h => h.elim)
  | .node _ cs, .node _ ts, h =>
    h.elim (fun h => .inl h.1) (fun h => .inr ⟨h.2.1, fitsL_descendsL cs ts h.2.2⟩)
theorem fitsL_descendsL : ∀ cs ts : List TreeDef, FitsL cs ts → DescendsL cs ts
  | [], [], _ => trivial
  | c :: cs, t :: ts, h => ⟨fits_descends c t h.1, fitsL_descendsL cs ts h.2⟩
  | [], _ :: _, h => h.elim
  | _ :: _, [], h => h.elim
end

mutual
theorem fits_length : ∀ (S : PyTree β) (T : PyTree γ) (rest out q : List β),
    IsCanon S → IsCanon T → Fits S.struct T.struct →
    replicateLeaves S.struct T.struct (S.leaves ++ rest) = .ok (out, q) →
    out.length = T.leaves.length
  | .leaf x, T, rest, out, q, _, _, _, h => by
    simp only [struct, PyTree.map, leaves, replicateLeaves_leaf, List.singleton_append, Except.ok.injEq,
      Prod.mk.injEq] at h
    obtain ⟨rfl, rfl⟩ := h
    rw [List.length_replicate, countLinkedLeaves_eq]
    exact leaves_struct_length T
  | .none, T, rest, out, q, _, _, hf, h => by
    simp only [struct, PyTree.map, leaves, replicateLeaves_none, List.nil_append, Except.ok.injEq,
      Prod.mk.injEq] at h
    obtain ⟨rfl, rfl⟩ := h
    have : T.struct.leaves = [] := hf
    rw [← leaves_struct_length, this]; rfl
  | .node k [], T, rest, out, q, _, _, hf, h => by
    simp only [struct, PyTree.map, mapL, leaves, leavesL, replicateLeaves_node, List.nil_append,
      List.isEmpty_nil, if_true, Except.ok.injEq, Prod.mk.injEq] at h
    obtain ⟨rfl, rfl⟩ := h
    have : T.struct.leaves = [] := by
      rcases hf with h | h
      · exact h.2
      · cases T with
        | leaf _ => exact h.elim
        | none => exact h.elim
        | node _ _ => exact absurd rfl h.1
    rw [← leaves_struct_length, this]; rfl
  | .node k (c :: cs), .leaf _, _, _, _, _, _, hf, _ => by
    rcases hf with h | h
    · simp [mapL] at h
    · exact h.elim
  | .node k (c :: cs), .none, _, _, _, _, _, hf, _ => by
    rcases hf with h | h
    · simp [mapL] at h
    · exact h.elim
  | .node k (c :: cs), .node k' ts, rest, out, q, hS, hT, hf, h => by
    have hne : (mapL (fun _ => ()) (c :: cs)).isEmpty = false := by simp [mapL]
    simp only [struct, PyTree.map, replicateLeaves_node, hne, Bool.false_eq_true, if_false] at h
    rcases hf with hf | hf
    · simp [mapL] at hf
    · split at h
      · cases h
      · split at h
        · cases h
        · exact fitsL_length (c :: cs) ts rest out q hS.2 hT.2 hf.2.2 h
theorem fitsL_length : ∀ (cs : List (PyTree β)) (ts : List (PyTree γ)) (rest out q : List β),
    IsCanonL cs → IsCanonL ts → FitsL (mapL (fun _ => ()) cs) (mapL (fun _ => ()) ts) →
    replicateLeavesL (mapL (fun _ => ()) cs) (mapL (fun _ => ()) ts) (leavesL cs ++ rest)
      = .ok (out, q) → out.length = (leavesL ts).length
  | [], [], _, out, q, _, _, _, h => by
    simp only [mapL, leavesL, replicateLeavesL, List.nil_append, Except.ok.injEq,
      Prod.mk.injEq] at h
    obtain ⟨rfl, rfl⟩ := h
    rfl
  | [], _ :: _, _, _, _, _, _, h, _ => by simp [mapL, FitsL] at h
  | _ :: _, [], _, _, _, _, _, h, _ => by simp [mapL, FitsL] at h
  | c :: cs, t :: ts, rest, out, q, hS, hT, hf, h => by
    simp only [mapL, leavesL, replicateLeavesL, List.append_assoc, FitsL] at h hf
    split at h
    · cases h
    · rename_i out1 q1 h1
      rw [wrapRuntime_ok] at h1
      split at h
      · cases h
      · rename_i out2 q2 h2
        simp only [Except.ok.injEq, Prod.mk.injEq] at h
        obtain ⟨rfl, rfl⟩ := h
        obtain ⟨rfl, -, -⟩ := replicate_ok c t _ out1 q1 hS.1 hT.1 h1
        have e1 := fits_length c t _ out1 _ hS.1 hT.1 hf.1 h1
        have e2 := fitsL_length cs ts rest out2 q2 hS.2 hT.2 hf.2 h2
        simp only [leavesL, List.length_append, e1, e2]
end

mutual
theorem spread_fits : ∀ (S : PyTree β) (T : PyTree γ) (r : PyTree β), Spread S T r →
    Fits S.struct T.struct
  | .leaf _, _, _, _ => trivial
  | .none, T, r, h => by
    show T.struct.leaves = []
    rw [← List.length_eq_zero_iff, leaves_struct_length, h.2]; rfl
  | .node k [], T, r, h => by
    left
    refine ⟨rfl, ?_⟩
    have : T.leaves = [] := by
      rcases h with h | h
      · exact h.2.2
      · cases T with
        | leaf _ => exact h.elim
        | none => exact h.elim
        | node _ _ =>
          cases r with
          | leaf _ => exact h.elim
          | none => exact h.elim
          | node _ _ => exact absurd rfl h.1
    show T.struct.leaves = []
    rw [← List.length_eq_zero_iff, leaves_struct_length, this]; rfl
  | .node k (c :: cs), .leaf _, _, h => by
    rcases h with h | h
    · simp at h
    · exact h.elim
  | .node k (c :: cs), .none, _, h => by
    rcases h with h | h
    · simp at h
    · exact h.elim
  | .node k (c :: cs), .node k' ts, .leaf _, h => by
    rcases h with h | h
    · simp at h
    · exact h.elim
  | .node k (c :: cs), .node k' ts, .none, h => by
    rcases h with h | h
    · simp at h
    · exact h.elim
  | .node k (c :: cs), .node k' ts, .node k'' rs, h => by
    rcases h with h | h
    · simp at h
    · exact .inr ⟨by simp [mapL], h.2.1, spreadL_fitsL (c :: cs) ts rs h.2.2.2⟩
theorem spreadL_fitsL : ∀ (cs : List (PyTree β)) (ts : List (PyTree γ)) (rs : List (PyTree β)),
    SpreadL cs ts rs → FitsL (mapL (fun _ => ()) cs) (mapL (fun _ => ()) ts)
  | [], [], [], _ => trivial
  | c :: cs, t :: ts, r :: rs, h => ⟨spread_fits c t r h.1, spreadL_fitsL cs ts rs h.2⟩
  | [], [], _ :: _, h => h.elim
  | [], _ :: _, _, h => h.elim
  | _ :: _, [], _, h => h.elim
  | _ :: _, _ :: _, [], h => h.elim
end

theorem child_some {k : Kind} {cs : List (PyTree β)} {st : Step} {c : PyTree β}
    (h : child k cs st = some c) : ∃ i, childIndex k st = some i ∧ cs[i]? = some c :=
  Option.bind_eq_some_iff.1 h

theorem atPath_map (f : β → γ) : ∀ (p : List Step) (t : PyTree β) (x : PyTree β),
    t.atPath p = some x → (t.map f).atPath p = some (x.map f)
  | [], t, x, h => by simp only [atPath, Option.some.injEq] at h ⊢; rw [h]
  | i :: p, .leaf _, _, h => by simp [atPath] at h
  | i :: p, .none, _, h => by simp [atPath] at h
  | i :: p, .node k cs, x, h => by
    simp only [atPath, PyTree.map, mapL_eq] at h ⊢
    cases hc : child k cs i with
    | none => rw [hc] at h; cases h
    | some c =>
      rw [hc] at h
      obtain ⟨j, h1, h2⟩ := child_some hc
      have : child k (cs.map (PyTree.map f)) i = some (c.map f) := by
        simp [child, h1, h2]
      rw [this]
      exact atPath_map f p c x h

theorem atPath_leaf_mem : ∀ (p : List Step) (t : PyTree β) (x : β),
    t.atPath p = some (.leaf x) → x ∈ t.leaves
  | [], t, x, h => by
    simp only [atPath, Option.some.injEq] at h; subst h; simp [leaves]
  | i :: p, .leaf _, _, h => by simp [atPath] at h
  | i :: p, .none, _, h => by simp [atPath] at h
  | i :: p, .node k cs, x, h => by
    simp only [atPath] at h
    cases hc : child k cs i with
    | none => rw [hc] at h; cases h
    | some c =>
      rw [hc] at h
      obtain ⟨j, -, h2⟩ := child_some hc
      simp only [leaves, leavesL_eq, List.mem_flatten, List.mem_map]
      exact ⟨_, ⟨c, List.mem_of_getElem? h2, rfl⟩, atPath_leaf_mem p c x h⟩

theorem spreadL_get : ∀ {cs : List (PyTree β)} {ts : List (PyTree γ)} {rs : List (PyTree β)},
    SpreadL cs ts rs → ∀ {i : Nat} {t : PyTree γ}, ts[i]? = some t →
      ∃ c r, cs[i]? = some c ∧ rs[i]? = some r ∧ Spread c t r
  | [], [], [], _, i, t, h => by simp at h
  | c :: cs, t :: ts, r :: rs, h, 0, t', ht => by
    simp only [List.getElem?_cons_zero, Option.some.injEq] at ht
    subst ht
    exact ⟨c, r, rfl, rfl, h.1⟩
  | c :: cs, t :: ts, r :: rs, h, i + 1, t', ht => by
    simp only [List.getElem?_cons_succ] at ht ⊢
    exact spreadL_get h.2 ht
  | [], [], _ :: _, h, _, _, _ => h.elim
  | [], _ :: _, _, h, _, _, _ => h.elim
  | _ :: _, [], _, h, _, _, _ => h.elim
  | _ :: _, _ :: _, [], h, _, _, _ => h.elim

/-- At every leaf position of the target the result holds the source leaf on the way to it. -/
theorem spread_path : ∀ (p : List Step) (S : PyTree β) (T : PyTree γ) (r : PyTree β) (y : γ),
    Spread S T r → T.atPath p = some (.leaf y) →
    ∃ q x, q <+: p ∧ S.atPath q = some (.leaf x) ∧ r.atPath p = some (.leaf x)
  | p, .leaf x, T, r, y, h, hp => by
    have h : r = T.map (fun _ => x) := h
    subst h
    exact ⟨[], x, List.nil_prefix, rfl, atPath_map (fun _ => x) p T _ hp⟩
  | p, .none, T, r, y, h, hp => by
    have := atPath_leaf_mem p T y hp
    rw [h.2] at this
    cases this
  | p, .node k cs, T, r, y, h, hp => by
    rcases h with h | h
    · have := atPath_leaf_mem p T y hp
      rw [h.2.2] at this
      cases this
    · cases T with
      | leaf _ => exact h.elim
      | none => exact h.elim
      | node k' ts =>
        cases r with
        | leaf _ => exact h.elim
        | none => exact h.elim
        | node k'' rs =>
          obtain ⟨-, rfl, rfl, h⟩ := h
          cases p with
          | nil => simp [atPath] at hp
          | cons i p =>
            simp only [atPath] at hp
            cases hc : child k ts i with
            | none => rw [hc] at hp; cases hp
            | some t =>
              rw [hc] at hp
              obtain ⟨j, hj, hc⟩ := child_some hc
              obtain ⟨c, r', h1, h2, h3⟩ := spreadL_get h hc
              obtain ⟨q, x, g1, g2, g3⟩ := spread_path p c t r' y h3 hp
              exact ⟨i :: q, x, List.cons_prefix_cons.2 ⟨rfl, g1⟩, by simp [atPath, child, hj, h1, g2],
                by simp [atPath, child, hj, h2, g3]⟩

/-! ### Paths do not see the order of dict entries -/

theorem lookup_iff {l : List (String × PyTree β)} (h : (l.map Prod.fst).Nodup) {s : String}
    {c : PyTree β} :
    (((l.map Prod.fst).idxOf? s).bind fun i => (l.map Prod.snd)[i]?) = some c ↔ (s, c) ∈ l := by
  induction l with
  | nil => simp
  | cons a l ih =>
    obtain ⟨k, v⟩ := a
    simp only [List.map_cons, List.nodup_cons] at h ⊢
    rw [List.idxOf?_cons]
    by_cases hk : k = s
    · subst hk
      simp only [beq_self_eq_true, if_true, Option.bind_some, List.getElem?_cons_zero,
        Option.some.injEq, List.mem_cons, Prod.mk.injEq, true_and]
      constructor
      · intro h; exact .inl h.symm
      · rintro (h' | h')
        · exact h'.symm
        · exact absurd (List.mem_map_of_mem (f := Prod.fst) h') h.1
    · have : (k == s) = false := by simpa using hk
      simp only [this, Bool.false_eq_true, if_false, List.mem_cons, Prod.mk.injEq, Ne.symm hk,
        false_and, false_or]
      rw [← ih h.2]
      cases (l.map Prod.fst).idxOf? s <;> simp

theorem nodup_zip_fst {ks : List String} {cs : List (PyTree β)} (h : ks.Nodup)
    (hl : ks.length = cs.length) : ((ks.zip cs).map Prod.fst).Nodup := by
  rw [List.map_fst_zip (le_of_eq hl)]; exact h

theorem child_dict {ks : List String} {cs : List (PyTree β)} (h : ks.Nodup)
    (hl : ks.length = cs.length) {s : String} {c : PyTree β} :
    child (.dict ks) cs (.key s) = some c ↔ (s, c) ∈ ks.zip cs := by
  rw [← lookup_iff (nodup_zip_fst h hl), List.map_fst_zip (le_of_eq hl),
    List.map_snd_zip (le_of_eq hl.symm)]
  rfl

theorem sortNode_atPath {k : Kind} {cs : List (PyTree β)} (st : Step) (p : List Step)
    (h : ∀ ks, k = .dict ks → ks.Nodup ∧ ks.length = cs.length) :
    (sortNode k cs).atPath (st :: p) = (node k cs).atPath (st :: p) := by
  cases k with
  | list => rfl
  | tuple => rfl
  | user _ => rfl
  | dict ks =>
    obtain ⟨hn, hl⟩ := h ks rfl
    simp only [sortNode, atPath]
    have : child (.dict ((sortKV (ks.zip cs)).map Prod.fst)) ((sortKV (ks.zip cs)).map Prod.snd) st
        = child (.dict ks) cs st := by
      cases st with
      | idx i => rfl
      | key s =>
        refine Option.ext fun c => ?_
        have hp := sortKV_perm (ks.zip cs)
        have hn' : ((sortKV (ks.zip cs)).map Prod.fst).Nodup :=
          ((hp.map Prod.fst).nodup_iff).2 (nodup_zip_fst hn hl)
        rw [child_dict hn hl, ← hp.mem_iff]
        exact lookup_iff hn'
    rw [this]

theorem wfl_mem : ∀ {cs : List (PyTree β)}, WFL cs → ∀ c ∈ cs, c.WF
  | c :: cs, h, d, hd => by
    rcases List.mem_cons.1 hd with rfl | hd
    · exact h.1
    · exact wfl_mem h.2 d hd

/-- Sorting dict keys does not change what is at a path. -/
theorem atPath_canon : ∀ (p : List Step) (t : PyTree β), t.WF →
    t.canon.atPath p = (t.atPath p).map canon
  | [], _, _ => rfl
  | _ :: _, .leaf _, _ => rfl
  | _ :: _, .none, _ => rfl
  | st :: p, .node k cs, h => by
    simp only [canon]
    rw [sortNode_atPath st p fun ks hk => ⟨(h.1 ks hk).1, by
      rw [canonL_eq, List.length_map]; exact (h.1 ks hk).2⟩]
    simp only [atPath, child, canonL_eq]
    cases childIndex k st with
    | none => rfl
    | some i =>
      simp only [Option.bind_some, List.getElem?_map]
      cases hc : cs[i]? with
      | none => rfl
      | some c => exact atPath_canon p c (wfl_mem h.2 c (List.mem_of_getElem? hc))

theorem canon_eq_leaf {t : PyTree β} {x : β} : t.canon = .leaf x ↔ t = .leaf x := by
  cases t with
  | leaf _ => rfl
  | none => rfl
  | node k cs =>
    cases k <;> simp [canon, sortNode]

theorem atPath_canon_leaf {t : PyTree β} (h : t.WF) {p : List Step} {x : β} :
    t.canon.atPath p = some (.leaf x) ↔ t.atPath p = some (.leaf x) := by
  rw [atPath_canon p t h]
  cases t.atPath p with
  | none => simp
  | some u => simp [canon_eq_leaf]

/-! ### The function itself -/

theorem broadcast_ok {s t r : PyTree β} (h : broadcastPytreeShape s t = .ok r) :
    Fits s.treeStructure t.treeStructure ∧ r.treeStructure = t.treeStructure ∧ r.canon = r ∧
      Spread s.canon t.canon r := by
  unfold broadcastPytreeShape at h
  rw [bind_ok] at h
  obtain ⟨⟨out, q⟩, h1, h2⟩ := h
  simp only at h2
  split at h2
  · cases h2
  · split at h2
    · cases h2
    · obtain ⟨g1, g2⟩ := treeUnflatten_ok_iff.1 h2
      have hq := replicate_ok s.canon t.canon [] out q (isCanon_canon s) (isCanon_canon t)
        (by rw [List.append_nil]; exact h1)
      have hs := hq.2.2 r g1 g2
      obtain ⟨k1, -, k3⟩ := unflatten_treeStructure h2
      exact ⟨spread_fits _ _ _ hs, k1, k3, hs⟩

theorem broadcast_cases (s t : PyTree β) :
    (Fits s.treeStructure t.treeStructure ∧ ∃ r, broadcastPytreeShape s t = .ok r) ∨
    (¬ Descends s.treeStructure t.treeStructure ∧
      broadcastPytreeShape s t = .error .runtimeError) ∨
    (Descends s.treeStructure t.treeStructure ∧ ¬ Fits s.treeStructure t.treeStructure ∧
      broadcastPytreeShape s t = .error .assertionError) := by
  rcases replicate_descends s.canon t.canon [] (isCanon_canon s) (isCanon_canon t) with
    ⟨h1, out, q, h2⟩ | ⟨h1, h2⟩
  · obtain ⟨hq, hle, hsp⟩ := replicate_ok s.canon t.canon [] out q (isCanon_canon s)
      (isCanon_canon t) h2
    subst hq
    have h2' : replicateLeaves s.treeStructure t.treeStructure s.treeLeaves = .ok (out, []) := by
      rw [List.append_nil] at h2; exact h2
    by_cases hl : out.length = t.treeLeaves.length
    · left
      obtain ⟨r, hr⟩ := treeUnflatten_ok (d := t.treeStructure) (ls := out)
        (by rw [treeStructure_leaves_length]; exact hl)
      have hb : broadcastPytreeShape s t = .ok r := by
        unfold broadcastPytreeShape
        rw [h2', ok_bind]
        simp only [hl, ne_eq, not_true_eq_false, if_false, List.length_nil]
        exact hr
      exact ⟨(broadcast_ok hb).1, r, hb⟩
    · right; right
      refine ⟨h1, fun hf => hl ?_, ?_⟩
      · exact fits_length s.canon t.canon [] out [] (isCanon_canon s) (isCanon_canon t) hf h2
      · unfold broadcastPytreeShape
        rw [h2', ok_bind]
        simp only
        rw [if_pos hl]
  · right; left
    refine ⟨h1, ?_⟩
    unfold broadcastPytreeShape
    have : replicateLeaves s.treeStructure t.treeStructure s.treeLeaves = .error .runtimeError := by
      rw [List.append_nil] at h2; exact h2
    rw [this]; rfl

end Utils
end JaxAct
