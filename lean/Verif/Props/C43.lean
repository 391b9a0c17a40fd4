import Verif.Lemmas.Tensor
import Verif.Props.Fixtures

/-! # C43 setup_left_broadcast aligns from the left -/

namespace JaxAct
open Utils
variable {β : Type}

/-- C43, errors: for a target with a shape, `AssertionError` iff the tensor is not a scalar and has
more axes than the target; no other exception. -/
theorem C43_error_iff (t : Arr β) (s : List Nat) (e : Err) :
    setupLeftBroadcast t (some s) = .error e ↔
      e = .assertionError ∧ t.shape ≠ [] ∧ s.length < t.shape.length := by
  unfold setupLeftBroadcast Arr.ndim
  by_cases h0 : t.shape.length = 0
  · have : t.shape = [] := List.length_eq_zero_iff.1 h0
    simp [this]
  · have : t.shape ≠ [] := fun h => h0 (by simp [h])
    simp only [h0, if_false]
    split
    · rename_i h; simp [not_lt.2 h]
    · rename_i h; simp [this, not_le.1 h, eq_comm]

/-- C43, result: unit axes are appended up to the rank of the target (a scalar is returned as it is);
entries are addressed by the leading index components. -/
theorem C43_appends_unit_axes (t r : Arr β) (s : List Nat)
    (h : setupLeftBroadcast t (some s) = .ok r) :
    (t.shape = [] → r = t) ∧
    (t.shape ≠ [] → r.shape = t.shape ++ List.replicate (s.length - t.shape.length) 1 ∧
      r.shape.length = s.length ∧
      ∀ i x, r.at? i = some x ↔ InB r.shape i ∧ t.at? (i.take t.shape.length) = some x) := by
  unfold setupLeftBroadcast Arr.ndim at h
  by_cases h0 : t.shape.length = 0
  · have hn : t.shape = [] := List.length_eq_zero_iff.1 h0
    rw [if_pos h0] at h
    cases h
    exact ⟨fun _ => rfl, fun h => absurd hn h⟩
  · rw [if_neg h0] at h
    simp only at h
    split at h
    · rename_i hl
      cases h
      refine ⟨fun hn => absurd (by simp [hn]) h0, fun _ => ?_⟩
      obtain ⟨h1, h2⟩ := Arr.leftBroadcastLoop_spec (s.length - t.shape.length) t
      refine ⟨h1, by rw [h1]; simp; omega, fun i x => ?_⟩
      constructor
      · intro hx
        have hi := Arr.at?_isSome.1 (by rw [hx]; rfl)
        refine ⟨hi, ?_⟩
        rw [← h2 i (h1 ▸ hi)]; exact hx
      · rintro ⟨hi, hx⟩
        rw [h2 i (h1 ▸ hi)]; exact hx
    · cases h

/-- C43, pairing: against a target `u` whose shape begins with the tensor's shape, a following
elementwise operation succeeds, has the target's shape, and pairs entry `(b, rest)` of the target
with entry `b` of the tensor. -/
theorem C43_pairs_left {α : Type} [Arith α] (op : DType → α → α → α) (t u : Tensor α)
    (hp : t.shape <+: u.shape) :
    ∃ t' r, setupLeftBroadcastT t (some u.shape) = .ok t' ∧ Tensor.binop op t' u = .ok r ∧
      r.shape = u.shape ∧ r.dtype = DType.promote t.dtype u.dtype ∧
      ∀ b rest, b.length = t.shape.length → ∀ x y, t.at? b = some x → u.at? (b ++ rest) = some y →
        r.at? (b ++ rest) =
          some (op r.dtype (convS t.dtype r.dtype x) (convS u.dtype r.dtype y)) := by
  obtain ⟨rest, hr⟩ := hp
  obtain ⟨t', h1, h2, h3, h4⟩ := setupLeftBroadcastT_prefix t rest
  rw [hr] at h1 h3 h4
  obtain ⟨r, g1, g2⟩ := Tensor.binop_of (op := op) (a := t') (b := u) h3
  obtain ⟨k1, k2, k3⟩ := Tensor.binop_ok g1
  refine ⟨t', r, h1, g1, g2, by rw [k1, h2], fun b j hb x y hx hy => ?_⟩
  have hi : InB u.shape (b ++ j) := Arr.at?_isSome.1 (by
    show (u.at? (b ++ j)).isSome; rw [hy]; rfl)
  rw [k3 _ (by rw [g2]; exact hi), h4 _ hi, Arr.bIdx_self hi, List.take_left' hb, hx, hy, h2]
  rfl

/-- C43: a target without a shape raises `AttributeError` unless the tensor is a scalar. -/
theorem C43_no_shape (t : Arr β) :
    setupLeftBroadcast t none = if t.shape = [] then .ok t else .error .attributeError := by
  unfold setupLeftBroadcast Arr.ndim
  by_cases h : t.shape = [] <;> simp [h]

section Example
open Fixtures
attribute [local instance] Arith.exact

/-- `[2]` against `[2, 1]`: entry `(1, 0)` is paired with entry `1`. -/
example :
    (setupLeftBroadcastT (vec [10, 20]) (some [2, 1]) >>= fun t => Tensor.binop Arith.add t (col 3 4)
      ).toOption.bind (fun r => r.at? [1, 0]) = some 24 ∧
    raised (setupLeftBroadcastT (col 3 4) (some [2])) = some .assertionError := by decide +kernel

end Example
end JaxAct
