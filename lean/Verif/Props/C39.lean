import Verif.Lemmas.Utils
import Verif.Props.Fixtures

/-! # C39 merge_pytrees pairs leaves -/

namespace JaxAct
open Utils
variable {β γ δ : Type}

theorem mergeLoop_pure (f : β → γ → δ) : ∀ (as : List β) (bs : List γ),
    mergeLoop (fun a b => .ok (f a b)) as bs = .ok (List.zipWith f as bs)
  | [], _ => by simp [mergeLoop]
  | _ :: _, [] => by simp [mergeLoop]
  | a :: as, b :: bs => by simp [mergeLoop, mergeLoop_pure f as bs]

/-- C39, equal numbers of leaves: the result has the structure of the primary tree and its leaves are
`f` of the paired leaves. -/
theorem C39_merge_pairs (f : β → γ → δ) (p : PyTree β) (a : PyTree γ)
    (h : p.treeLeaves.length = a.treeLeaves.length) :
    ∃ t, mergePytrees (fun x y => .ok (f x y)) p a = .ok t ∧
      t.treeStructure = p.treeStructure ∧
      t.treeLeaves = List.zipWith f p.treeLeaves a.treeLeaves := by
  unfold mergePytrees
  simp only [h, ne_eq, not_true_eq_false, if_false, mergeLoop_pure, ok_bind]
  obtain ⟨t, ht⟩ := PyTree.treeUnflatten_ok (d := p.treeStructure)
    (ls := List.zipWith f p.treeLeaves a.treeLeaves)
    (by rw [PyTree.treeStructure_leaves_length]; simp [h])
  obtain ⟨h1, h2, -⟩ := PyTree.unflatten_treeStructure ht
  exact ⟨t, ht, h1, h2⟩

/-- C39, errors, for a function that may raise (anything but `AssertionError`): the merge raises
`AssertionError` iff the numbers of leaves differ. -/
theorem C39_merge_assertion_iff (f : β → γ → Res δ) (hf : ∀ x y, f x y ≠ .error .assertionError)
    (p : PyTree β) (a : PyTree γ) :
    mergePytrees f p a = .error .assertionError ↔
      p.treeLeaves.length ≠ a.treeLeaves.length := by
  constructor
  · intro h
    rcases mergePytrees_error h with ⟨h1, -⟩ | ⟨-, k, x, y, -, -, h2⟩
    · exact h1
    · exact absurd h2 (hf x y)
  · intro h
    unfold mergePytrees
    simp only [h, ne_eq, not_false_eq_true, if_true]

/-- C39, errors of the function: they surface unchanged, and only they do. -/
theorem C39_merge_propagates (f : β → γ → Res δ) (p : PyTree β) (a : PyTree γ)
    (h : p.treeLeaves.length = a.treeLeaves.length) :
    (∃ t, mergePytrees f p a = .ok t) ↔
      ∀ (k : Nat) x y, p.treeLeaves[k]? = some x → a.treeLeaves[k]? = some y →
        ∃ z, f x y = .ok z := by
  constructor
  · rintro ⟨t, ht⟩ k x y hx hy
    obtain ⟨-, -, -, -, h5⟩ := mergePytrees_ok ht
    obtain ⟨z, hz, -⟩ := h5 k x y hx hy
    exact ⟨z, hz⟩
  · exact mergePytrees_of h

theorem mergeLoop_first (f : β → γ → Res δ) (e : Err) : ∀ (as : List β) (bs : List γ),
    mergeLoop f as bs = .error e ↔
      ∃ (k : Nat) (x : β) (y : γ), as[k]? = some x ∧ bs[k]? = some y ∧ f x y = .error e ∧
        ∀ j < k, ∀ x' y', as[j]? = some x' → bs[j]? = some y' → ∃ z, f x' y' = .ok z
  | [], _ => by simp [mergeLoop]
  | _ :: _, [] => by simp [mergeLoop]
  | a :: as, b :: bs => by
    rw [mergeLoop]
    constructor
    · intro h
      cases hf : f a b with
      | error e' =>
        rw [hf] at h; cases h
        exact ⟨0, a, b, rfl, rfl, hf, fun j hj => absurd hj (Nat.not_lt_zero j)⟩
      | ok z =>
        rw [hf] at h
        cases hr : mergeLoop f as bs with
        | ok zs => simp only [ok_bind, hr] at h; cases h
        | error e' =>
          simp only [ok_bind, hr] at h; cases h
          obtain ⟨k, x, y, h1, h2, h3, h4⟩ := (mergeLoop_first f e as bs).1 hr
          refine ⟨k + 1, x, y, h1, h2, h3, fun j hj x' y' hx hy => ?_⟩
          cases j with
          | zero => cases hx; cases hy; exact ⟨z, hf⟩
          | succ j => exact h4 j (by omega) x' y' hx hy
    · rintro ⟨k, x, y, h1, h2, h3, h4⟩
      cases k with
      | zero => cases h1; cases h2; rw [h3]; rfl
      | succ k =>
        obtain ⟨z, hz⟩ := h4 0 (by omega) a b rfl rfl
        have hr := (mergeLoop_first f e as bs).2 ⟨k, x, y, h1, h2, h3,
          fun j hj x' y' hx hy => h4 (j + 1) (by omega) x' y' hx hy⟩
        rw [hz, hr]; rfl

/-- C39, which exception: with equal numbers of leaves the merge raises what the function raises on the
first pair, in flattening order, on which it raises. -/
theorem C39_merge_first_error (f : β → γ → Res δ) (p : PyTree β) (a : PyTree γ) (e : Err)
    (h : p.treeLeaves.length = a.treeLeaves.length) :
    mergePytrees f p a = .error e ↔
      ∃ (k : Nat) (x : β) (y : γ), p.treeLeaves[k]? = some x ∧ a.treeLeaves[k]? = some y ∧
        f x y = .error e ∧
        ∀ j < k, ∀ x' y', p.treeLeaves[j]? = some x' → a.treeLeaves[j]? = some y' →
          ∃ z, f x' y' = .ok z := by
  rw [← mergeLoop_first]
  constructor
  · intro hm
    cases hl : mergeLoop f p.treeLeaves a.treeLeaves with
    | error e' =>
      unfold mergePytrees at hm
      simp only [h, ne_eq, not_true_eq_false, if_false, hl] at hm
      cases hm; rfl
    | ok zs =>
      rcases mergePytrees_error hm with ⟨h1, -⟩ | ⟨-, k, x, y, hx, hy, h2⟩
      · exact absurd h h1
      · obtain ⟨z, hz, -⟩ := (mergeLoop_ok hl).2 k x y hx hy
        rw [hz] at h2; cases h2
  · intro hl
    unfold mergePytrees
    simp only [h, ne_eq, not_true_eq_false, if_false, hl]
    rfl

section Example
open Fixtures

/-- A dict written in the order `b, a` is paired in key order; a list of two with a list of one is
rejected. -/
example : raised (mergePytrees (fun x y => .ok (x + y))
      (.node .list [.leaf 1, .leaf 2]) (.node .list [.leaf 5])) = some .assertionError ∧
    (mergePytrees (fun x y => (.ok (x * 10 + y) : Res Nat))
      (.node (.dict ["b", "a"]) [.leaf 1, .leaf 2]) (.node .list [.leaf 5, .leaf 6])).toOption =
      some (.node (.dict ["a", "b"]) [.leaf 25, .leaf 16]) := by decide +kernel

/-- The function raises on the second and third pairs, differently; the second counts. -/
example : raised (mergePytrees (fun x _ => if x = 2 then raise .keyError
      else if x = 3 then raise .typeError else (.ok x : Res Nat))
      (.node .list [.leaf 1, .leaf 2, .leaf 3]) (.node .list [.leaf 5, .leaf 6, .leaf 7])) =
    some .keyError := by decide +kernel

end Example
end JaxAct
