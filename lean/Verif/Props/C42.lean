import Verif.Lemmas.Tensor
import Verif.Props.Fixtures

/-! # C42 can_right_broadcast is exactly numpy broadcastability -/

namespace JaxAct
open Utils

theorem canBroadcastLoop_iff (l : List (Nat × Nat)) :
    canBroadcastLoop l = true ↔ ∀ p ∈ l, p.1 = 1 ∨ p.2 = 1 ∨ p.1 = p.2 := by
  induction l with
  | nil => simp [canBroadcastLoop]
  | cons p l ih =>
    obtain ⟨a, b⟩ := p
    simp only [canBroadcastLoop, List.forall_mem_cons]
    split
    · rename_i h; rw [ih]; constructor
      · exact fun hl => ⟨by tauto, hl⟩
      · exact fun hl => hl.2
    · split
      · rename_i h; rw [ih]; constructor
        · exact fun hl => ⟨by tauto, hl⟩
        · exact fun hl => hl.2
      · simp; tauto

theorem bshapeR_isSome_iff (s t : List Nat) :
    (∃ r, Arr.bshapeR s t = some r) ↔ ∀ p ∈ s.zip t, p.1 = 1 ∨ p.2 = 1 ∨ p.1 = p.2 := by
  induction s generalizing t with
  | nil => simp [Arr.bshapeR_nil]
  | cons a s ih =>
    cases t with
    | nil => simp [Arr.bshapeR]
    | cons b t =>
      simp only [Arr.bshapeR, List.zip_cons_cons, List.forall_mem_cons, ← ih t]
      constructor
      · rintro ⟨r, h⟩
        split at h
        · rename_i d r' hd hr
          refine ⟨?_, r', hr⟩
          unfold Arr.bdim at hd
          split_ifs at hd <;> simp_all
        · cases h
      · rintro ⟨h1, r, hr⟩
        have : ∃ d, Arr.bdim a b = some d := by
          unfold Arr.bdim
          split_ifs <;> simp_all
        obtain ⟨d, hd⟩ := this
        exact ⟨d :: r, by simp [hd, hr]⟩

theorem reverse_lastN (n : Nat) (s : List Nat) : (lastN n s).reverse = s.reverse.take n := by
  unfold lastN
  rw [List.reverse_drop]
  rcases Nat.le_total n s.length with h | h
  · rw [Nat.sub_sub_self h]
  · rw [Nat.sub_eq_zero_of_le h, Nat.sub_zero, List.take_of_length_le (by simp),
      List.take_of_length_le (by simpa using h)]

theorem zip_take_min {A B : Type} : ∀ (s : List A) (t : List B),
    (s.take (min s.length t.length)).zip (t.take (min s.length t.length)) = s.zip t
  | [], _ => by simp
  | _ :: _, [] => by simp
  | a :: s, b :: t => by simp [Nat.succ_min_succ, zip_take_min s t]

theorem canRightBroadcast_iff (a b : List Nat) :
    canRightBroadcast a b = true ↔ ∃ r, Arr.bshape a b = some r := by
  have h1 : (∃ r, Arr.bshape a b = some r) ↔
      ∀ p ∈ a.reverse.zip b.reverse, p.1 = 1 ∨ p.2 = 1 ∨ p.1 = p.2 := by
    rw [← bshapeR_isSome_iff]
    unfold Arr.bshape
    simp only [Option.map_eq_some_iff]
    constructor
    · rintro ⟨_, r, hr, -⟩; exact ⟨r, hr⟩
    · rintro ⟨r, hr⟩; exact ⟨_, r, hr, rfl⟩
  rw [h1]
  unfold canRightBroadcast
  simp only
  split
  · rename_i h0
    have : a.reverse.zip b.reverse = [] := by
      rw [← List.length_eq_zero_iff, List.length_zip, List.length_reverse, List.length_reverse, h0]
    simp [this]
  · rw [canBroadcastLoop_iff]
    set m := min a.length b.length with hm
    have h2 : ((lastN m a).zip (lastN m b)).reverse = a.reverse.zip b.reverse := by
      rw [List.zip_eq_zipWith, List.reverse_zipWith, reverse_lastN, reverse_lastN,
        ← List.zip_eq_zipWith]
      · have := zip_take_min a.reverse b.reverse
        simp only [List.length_reverse] at this
        exact this
      · simp [lastN]; omega
    rw [← h2]
    simp only [List.mem_reverse]

/-- C42: the test says True exactly if the shapes can be broadcast together by numpy's rule. -/
theorem C42_iff_broadcast (a b : List Nat) :
    canRightBroadcast a b = true ↔ ∃ r, Arr.bshape a b = some r := canRightBroadcast_iff a b

/-- C42: the test says True exactly if an elementwise operation between the two tensors succeeds. -/
theorem C42_iff_operation {α : Type} [Arith α] (op : DType → α → α → α) (x y : Tensor α) :
    canRightBroadcast x.shape y.shape = true ↔ ∃ r, Tensor.binop op x y = .ok r := by
  rw [canRightBroadcast_iff]
  constructor
  · rintro ⟨s, hs⟩
    obtain ⟨r, hr, -⟩ := Tensor.binop_of (op := op) hs
    exact ⟨r, hr⟩
  · rintro ⟨r, hr⟩
    exact ⟨_, (Tensor.binop_ok hr).2.1⟩

/-- C42: numpy's rule spelled out: aligned at the right, each pair of dimensions is equal or contains
a one. -/
theorem C42_iff_dimensions (a b : List Nat) :
    canRightBroadcast a b = true ↔
      ∀ (k x y : Nat), a.reverse[k]? = some x → b.reverse[k]? = some y → x = 1 ∨ y = 1 ∨ x = y := by
  rw [canRightBroadcast_iff]
  unfold Arr.bshape
  simp only [Option.map_eq_some_iff]
  rw [show (∃ r r', Arr.bshapeR a.reverse b.reverse = some r' ∧ r'.reverse = r) ↔
      ∃ r, Arr.bshapeR a.reverse b.reverse = some r from
    ⟨fun ⟨_, r, hr, _⟩ => ⟨r, hr⟩, fun ⟨r, hr⟩ => ⟨_, r, hr, rfl⟩⟩, bshapeR_isSome_iff]
  constructor
  · intro h k x y hx hy
    refine h (x, y) (List.mem_iff_getElem?.2 ⟨k, ?_⟩)
    exact List.getElem?_zip_eq_some.2 ⟨hx, hy⟩
  · rintro h ⟨x, y⟩ hp
    obtain ⟨k, hk⟩ := List.mem_iff_getElem?.1 hp
    obtain ⟨h1, h2⟩ := List.getElem?_zip_eq_some.1 hk
    exact h k x y h1 h2

section Example

example : canRightBroadcast [5, 1, 3] [4, 3] = true ∧ canRightBroadcast [2, 3] [2] = false ∧
    canRightBroadcast [] [7, 2] = true ∧ canRightBroadcast [0] [1] = true ∧
    Arr.bshape [5, 1, 3] [4, 3] = some [5, 4, 3] := by decide +kernel

end Example
end JaxAct
