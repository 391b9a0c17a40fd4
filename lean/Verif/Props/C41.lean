import Verif.Lemmas.Structure
import Verif.Props.Fixtures

/-! # C41 Equality comparison of pytrees

Full statement: `are_pytrees_equal(a, b)` is True iff `a` and `b` have the same structure and
pairwise equal leaves, and never raises.  **False**: the structure is not compared (only the number
of leaves), it raises `AssertionError` for different numbers of leaves, and `TypeError`/`ValueError`
for leaves of incompatible shapes; leaves of different but broadcastable shapes can compare equal.
-/

namespace JaxAct
open Utils
variable {α : Type}

/-- What the code decides: it returns a bool iff the numbers of leaves agree and each pair of leaves
can be compared; the bool says that all pairs are equal. -/
theorem C41_characterisation (close : α → α → Bool) (a b : PyTree (Leaf α)) (r : Bool) :
    arePytreesEqual close a b = .ok r ↔
      a.treeLeaves.length = b.treeLeaves.length ∧
      (∀ (k : Nat) x y, a.treeLeaves[k]? = some x → b.treeLeaves[k]? = some y →
        ∃ q, areLeavesEqual close x y = .ok q) ∧
      (r = true ↔ ∀ (k : Nat) x y, a.treeLeaves[k]? = some x → b.treeLeaves[k]? = some y →
        areLeavesEqual close x y = .ok true) := by
  have key : ∀ t, mergePytrees (areLeavesEqual close) a b = .ok t →
      (t.treeLeaves.all id = true ↔ ∀ (k : Nat) x y, a.treeLeaves[k]? = some x →
        b.treeLeaves[k]? = some y → areLeavesEqual close x y = .ok true) := by
    intro t ht
    obtain ⟨h1, -, -, h4, h5⟩ := mergePytrees_ok ht
    rw [List.all_eq_true]
    constructor
    · intro h k x y hx hy
      obtain ⟨z, hz, hk⟩ := h5 k x y hx hy
      have := h z (List.mem_of_getElem? hk)
      rw [hz, show z = true from this]
    · intro h z hz
      obtain ⟨k, hk⟩ := List.mem_iff_getElem?.1 hz
      have hlt : k < t.treeLeaves.length := (List.getElem?_eq_some_iff.1 hk).1
      have hx := List.getElem?_eq_getElem (l := a.treeLeaves) (i := k) (by omega)
      have hy := List.getElem?_eq_getElem (l := b.treeLeaves) (i := k) (by omega)
      obtain ⟨z', hz', hk'⟩ := h5 k _ _ hx hy
      rw [hk] at hk'
      cases hk'
      have := h k _ _ hx hy
      rw [hz'] at this
      exact Except.ok.inj this
  unfold arePytreesEqual
  rw [bind_ok]
  constructor
  · rintro ⟨t, ht, hr⟩
    cases hr
    obtain ⟨h1, -, -, -, h5⟩ := mergePytrees_ok ht
    refine ⟨h1, fun k x y hx hy => ?_, key t ht⟩
    obtain ⟨z, hz, -⟩ := h5 k x y hx hy
    exact ⟨z, hz⟩
  · rintro ⟨h1, h2, h3⟩
    obtain ⟨t, ht⟩ := mergePytrees_of h1 h2
    refine ⟨t, ht, ?_⟩
    rw [pure_eq_ok]
    congr 1
    exact Bool.eq_iff_iff.2 ((key t ht).trans h3.symm)

/-- C41, for two trees of tensors with the same structure and pairwise equal leaf shapes: never
raises, and True iff all entries are pairwise close.  Missing: trees of different structure and
leaves of different shapes, where it fails. -/
theorem C41_same_structure_partial (close : α → α → Bool) {a b : PyTree (Leaf α)}
    (hs : a.treeStructure = b.treeStructure)
    (hl : ∀ (k : Nat) x y, a.treeLeaves[k]? = some x → b.treeLeaves[k]? = some y →
      ∃ t u, x = .tensor t ∧ y = .tensor u ∧ t.shape = u.shape) :
    ∃ r, arePytreesEqual close a b = .ok r ∧
      (r = true ↔ ∀ (k : Nat) t u, a.treeLeaves[k]? = some (.tensor t) →
        b.treeLeaves[k]? = some (.tensor u) →
        ∀ i p q, t.at? i = some p → u.at? i = some q → close p q = true) := by
  classical
  have hlen : a.treeLeaves.length = b.treeLeaves.length := by
    rw [← PyTree.treeStructure_leaves_length, ← PyTree.treeStructure_leaves_length, hs]
  have hten : ∀ t u : Tensor α, t.shape = u.shape → ∃ q, areLeavesEqual close (.tensor t) (.tensor u)
      = .ok q ∧ (q = true ↔ ∀ i p q, t.at? i = some p → u.at? i = some q → close p q = true) := by
    intro t u hsh
    obtain ⟨r, hr, hrs, hat⟩ := Arr.bmap2_same (f := close) hsh
    refine ⟨r.all id, by simp only [areLeavesEqual, hr], ?_⟩
    rw [Arr.all_iff]
    constructor
    · intro h i p q hp hq
      have := hat i
      simp only [Tensor.at?] at hp hq
      rw [hp, hq] at this
      exact h i _ this
    · intro h i x hx
      rw [hat i] at hx
      cases hp : t.arr.at? i with
      | none => rw [hp] at hx; cases hx
      | some p =>
        cases hq : u.arr.at? i with
        | none => rw [hp, hq] at hx; cases hx
        | some q =>
          rw [hp, hq] at hx
          cases hx
          exact h i p q hp hq
  let P : Prop := ∀ (k : Nat) t u, a.treeLeaves[k]? = some (.tensor t) →
        b.treeLeaves[k]? = some (.tensor u) →
        ∀ i p q, t.at? i = some p → u.at? i = some q → close p q = true
  refine ⟨decide P, ?_, decide_eq_true_iff⟩
  rw [C41_characterisation]
  refine ⟨hlen, fun k x y hx hy => ?_, ?_⟩
  · obtain ⟨t, u, rfl, rfl, hsh⟩ := hl k x y hx hy
    obtain ⟨q, hq, -⟩ := hten t u hsh
    exact ⟨q, hq⟩
  · rw [decide_eq_true_iff]
    constructor
    · intro hP k x y hx hy
      obtain ⟨t, u, rfl, rfl, hsh⟩ := hl k x y hx hy
      obtain ⟨q, hq, hq'⟩ := hten t u hsh
      rw [hq, hq'.2 (hP k t u hx hy)]
    · intro h k t u ht hu
      obtain ⟨t', u', h1, h2, hsh⟩ := hl k _ _ ht hu
      cases h1; cases h2
      obtain ⟨q, hq, hq'⟩ := hten t u hsh
      have := h k _ _ ht hu
      rw [hq] at this
      exact hq'.1 (Except.ok.inj this)

/-- C41, negation 1: a list and a tuple of the same tensors are different trees and compare equal. -/
theorem C41_structure_ignored (close : α → α → Bool) (hrefl : ∀ x, close x x = true) (t : Tensor α) :
    arePytreesEqual close (.node .list [.leaf (.tensor t)]) (.node .tuple [.leaf (.tensor t)])
      = .ok true ∧
    (PyTree.node .list [PyTree.leaf (Leaf.tensor t)]).treeStructure ≠
      (PyTree.node .tuple [PyTree.leaf (Leaf.tensor t)]).treeStructure := by
  constructor
  · rw [C41_characterisation]
    have ht : areLeavesEqual close (.tensor t) (.tensor t) = .ok true := by
      obtain ⟨r, hr, hrs, hat⟩ := Arr.bmap2_same (f := close) (a := t.arr) (b := t.arr) rfl
      simp only [areLeavesEqual, hr]
      congr 1
      rw [Arr.all_iff]
      intro i x hx
      rw [hat i] at hx
      cases hp : t.arr.at? i with
      | none => rw [hp] at hx; cases hx
      | some p => rw [hp] at hx; cases hx; exact hrefl p
    have hk : ∀ (k : Nat) x y, [Leaf.tensor t][k]? = some x → [Leaf.tensor t][k]? = some y →
        areLeavesEqual close x y = .ok true := by
      intro k x y hx hy
      have hx := List.mem_of_getElem? hx
      have hy := List.mem_of_getElem? hy
      rw [List.mem_singleton] at hx hy
      rw [hx, hy, ht]
    exact ⟨rfl, fun k x y hx hy => ⟨true, hk k x y hx hy⟩, by simp only [true_iff]; exact hk⟩
  · intro h; cases h

/-- C41, negation 2: different numbers of leaves raise `AssertionError`. -/
theorem C41_raises (close : α → α → Bool) {a b : PyTree (Leaf α)}
    (h : a.treeLeaves.length ≠ b.treeLeaves.length) :
    arePytreesEqual close a b = .error .assertionError := by
  unfold arePytreesEqual mergePytrees
  simp [h]

section Example
open Fixtures

/-- Equal, unequal, broadcast (`[1, 1]` against `[1]`), and incompatible shapes. -/
example :
    (arePytreesEqual (fun x y => decide (x = y)) (pair (vec [1, 2]) (col 3 4))
      (pair (vec [1, 2]) (col 3 4))).toOption = some true ∧
    (arePytreesEqual (fun x y => decide (x = y)) (pair (vec [1, 2]) (col 3 4))
      (pair (vec [1, 2]) (col 3 5))).toOption = some false ∧
    (arePytreesEqual (fun x y => decide (x = y)) (bare (vec [1, 1])) (bare (vec [1]))).toOption
      = some true ∧
    raised (arePytreesEqual (fun x y => decide (x = y)) (bare (vec [1, 1])) (bare (vec [1, 1, 1])))
      = some .typeError ∧
    raised (arePytreesEqual (fun x y => decide (x = y)) (bare (vec [1])) (.none))
      = some .assertionError := by decide +kernel

end Example
end JaxAct
