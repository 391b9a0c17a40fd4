import Verif.Model.Utils
import Verif.Lemmas.PyTree
import Verif.Lemmas.Utils

/-! # Lemmas on structure comparison -/

namespace JaxAct
namespace PyTree
variable {β γ : Type}

mutual
/-- No `None` occurs in the tree. -/
def NoNone : PyTree β → Prop
  | leaf _ => True
  | none => False
  | node _ cs => NoNoneL cs
/-- `NoNone` on children. -/
def NoNoneL : List (PyTree β) → Prop
  | [] => True
  | c :: cs => NoNone c ∧ NoNoneL cs
end

theorem noNoneL_iff (cs : List (PyTree β)) : NoNoneL cs ↔ ∀ c ∈ cs, NoNone c := by
  induction cs with
  | nil => simp [NoNoneL]
  | cons c cs ih => simp [NoNoneL, ih]

mutual
theorem noNone_canon : ∀ t : PyTree β, NoNone t → NoNone t.canon
  | leaf _, _ => trivial
  | none, h => h
  | node k cs, h => by
    have h' := noNoneL_canon cs h
    rw [noNoneL_iff] at h'
    cases k with
    | list => exact (noNoneL_iff _).2 h'
    | tuple => exact (noNoneL_iff _).2 h'
    | user _ => exact (noNoneL_iff _).2 h'
    | dict ks =>
      simp only [canon, sortNode, NoNone]
      rw [noNoneL_iff]
      intro c hc
      obtain ⟨kv, hkv, rfl⟩ := List.mem_map.1 hc
      have := (sortKV_perm _).mem_iff.1 hkv
      exact h' _ (List.of_mem_zip this).2
theorem noNoneL_canon : ∀ cs : List (PyTree β), NoNoneL cs → NoNoneL (canonL cs)
  | [], _ => trivial
  | c :: cs, h => ⟨noNone_canon c h.1, noNoneL_canon cs h.2⟩
end

end PyTree

namespace Utils
variable {β γ : Type}
open PyTree

mutual
theorem go_isCanon : ∀ t : PyTree β, IsCanon t → IsCanon (nullLeaves.go t)
  | .leaf _, _ => by simp [nullLeaves.go, IsCanon]
  | .none, _ => by simp [nullLeaves.go, IsCanon]
  | .node k cs, h => by
    simp only [nullLeaves.go, IsCanon] at h ⊢
    refine ⟨?_, goL_isCanon cs h.2⟩
    have := h.1
    rw [goL_length]
    exact this
theorem goL_isCanon : ∀ cs : List (PyTree β), IsCanonL cs → IsCanonL (nullLeaves.goL cs)
  | [], _ => by simp [nullLeaves.goL, IsCanonL]
  | c :: cs, h => by
    simp only [nullLeaves.goL, IsCanonL] at h ⊢
    exact ⟨go_isCanon c h.1, goL_isCanon cs h.2⟩
theorem goL_length : ∀ cs : List (PyTree β), (nullLeaves.goL cs).length = cs.length
  | [] => rfl
  | c :: cs => by simp only [nullLeaves.goL, List.length_cons, goL_length cs]
end

theorem map_unit (t : PyTree Unit) : t.struct = t := map_id' t

theorem nullLeaves_structure (t : PyTree β) : (nullLeaves t).treeStructure = nullLeaves t := by
  rw [treeStructure, map_unit]
  exact canon_of_isCanon _ (go_isCanon _ (isCanon_canon t))

theorem structureEqual_iff {s : PyTree β} {t : PyTree γ} :
    arePytreeStructureEqual s t = true ↔ nullLeaves s = nullLeaves t := by
  unfold arePytreeStructureEqual
  rw [decide_eq_true_iff, nullLeaves_structure, nullLeaves_structure]

mutual
theorem go_struct : ∀ t : PyTree β, nullLeaves.go t.struct = nullLeaves.go t
  | .leaf _ => rfl
  | .none => rfl
  | .node k cs => by
    simp only [struct, PyTree.map, nullLeaves.go]
    rw [goL_struct cs]
theorem goL_struct : ∀ cs : List (PyTree β),
    nullLeaves.goL (mapL (fun _ => ()) cs) = nullLeaves.goL cs
  | [] => rfl
  | c :: cs => by
    simp only [mapL, nullLeaves.goL, goL_struct cs]
    rw [show nullLeaves.go (PyTree.map (fun _ => ()) c) = nullLeaves.go c from go_struct c]
end

theorem structureEqual_of_treeStructure {s : PyTree β} {t : PyTree γ}
    (h : s.treeStructure = t.treeStructure) : arePytreeStructureEqual s t = true := by
  rw [structureEqual_iff]
  unfold nullLeaves
  rw [← go_struct, ← go_struct t.canon]
  exact congrArg _ h

mutual
theorem go_eq_iff : ∀ (s : PyTree β) (t : PyTree γ), NoNone s → NoNone t →
    (nullLeaves.go s = nullLeaves.go t ↔ s.struct = t.struct)
  | .leaf _, .leaf _, _, _ => by simp [nullLeaves.go, struct, PyTree.map]
  | .leaf _, .node _ _, _, _ => by simp [nullLeaves.go, struct, PyTree.map]
  | .node _ _, .leaf _, _, _ => by simp [nullLeaves.go, struct, PyTree.map]
  | .none, _, h, _ => absurd h id
  | .leaf _, .none, _, h => absurd h id
  | .node _ _, .none, _, h => absurd h id
  | .node k cs, .node k' cs', h, h' => by
    simp only [nullLeaves.go, struct, PyTree.map, PyTree.node.injEq]
    rw [goL_eq_iff cs cs' h h']
theorem goL_eq_iff : ∀ (cs : List (PyTree β)) (ds : List (PyTree γ)), NoNoneL cs → NoNoneL ds →
    (nullLeaves.goL cs = nullLeaves.goL ds ↔
      mapL (fun _ => ()) cs = mapL (fun _ => ()) ds)
  | [], [], _, _ => by simp [nullLeaves.goL, mapL]
  | [], _ :: _, _, _ => by simp [nullLeaves.goL, mapL]
  | _ :: _, [], _, _ => by simp [nullLeaves.goL, mapL]
  | c :: cs, d :: ds, h, h' => by
    simp only [nullLeaves.goL, mapL, List.cons.injEq]
    rw [goL_eq_iff cs ds h.2 h'.2]
    have := go_eq_iff c d h.1 h'.1
    simp only [struct] at this
    rw [this]
end

theorem structureEqual_noNone {s : PyTree β} {t : PyTree γ} (hs : s.NoNone) (ht : t.NoNone) :
    arePytreeStructureEqual s t = true ↔ s.treeStructure = t.treeStructure := by
  rw [structureEqual_iff]
  exact go_eq_iff _ _ (noNone_canon s hs) (noNone_canon t ht)

end Utils
end JaxAct
