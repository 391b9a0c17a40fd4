import Verif.Basic.Tensor
import Verif.Model.Utils
import Mathlib.Tactic.Common

/-! # Array lemmas -/

namespace JaxAct

theorem InB.length {s i : List Nat} (h : InB s i) : i.length = s.length := List.Forall₂.length_eq h

theorem inB_nil {i : List Nat} : InB [] i ↔ i = [] := by
  unfold InB; constructor
  · intro h; cases h; rfl
  · rintro rfl; exact List.Forall₂.nil

theorem inB_cons {d : Nat} {s i : List Nat} :
    InB (d :: s) i ↔ ∃ k j, i = k :: j ∧ k < d ∧ InB s j := by
  unfold InB; constructor
  · intro h; cases h with
    | cons a b => exact ⟨_, _, rfl, a, b⟩
  · rintro ⟨k, j, rfl, a, b⟩; exact List.Forall₂.cons a b

theorem inB_append {s r b j : List Nat} (h : b.length = s.length) :
    InB (s ++ r) (b ++ j) ↔ InB s b ∧ InB r j := by
  induction s generalizing b with
  | nil => cases b with
    | nil => simp [inB_nil]
    | cons _ _ => simp at h
  | cons d s ih => cases b with
    | nil => simp at h
    | cons k b =>
      simp only [List.length_cons, Nat.add_right_cancel_iff] at h
      simp only [List.cons_append, inB_cons, List.cons.injEq]
      constructor
      · rintro ⟨k', j', ⟨rfl, rfl⟩, hk, hj⟩
        rw [ih h] at hj
        exact ⟨⟨_, _, ⟨rfl, rfl⟩, hk, hj.1⟩, hj.2⟩
      · rintro ⟨⟨k', j', ⟨rfl, rfl⟩, hk, hj⟩, hr⟩
        exact ⟨_, _, ⟨rfl, rfl⟩, hk, (ih h).2 ⟨hj, hr⟩⟩

namespace Arr
variable {β γ δ : Type}

theorem ext_get {a b : Arr β} (hs : a.shape = b.shape)
    (h : ∀ i ha hb, a.get i ha = b.get i hb) : a = b := by
  cases a with | mk s f => cases b with | mk t g =>
  cases hs
  congr 1
  funext i hi
  exact h i hi hi

theorem at?_of_inB {a : Arr β} {i : List Nat} (h : InB a.shape i) : a.at? i = some (a.get i h) := by
  simp [at?, h]

theorem at?_of_not {a : Arr β} {i : List Nat} (h : ¬ InB a.shape i) : a.at? i = none := by
  simp [at?, h]

theorem at?_isSome {a : Arr β} {i : List Nat} : (a.at? i).isSome ↔ InB a.shape i := by
  unfold at?; split <;> simp_all

theorem at?_eq_some {a : Arr β} {i : List Nat} {x : β} :
    a.at? i = some x ↔ ∃ h : InB a.shape i, a.get i h = x := by
  unfold at?; split <;> simp_all

theorem ext_at {a b : Arr β} (hs : a.shape = b.shape) (h : ∀ i, a.at? i = b.at? i) : a = b := by
  refine ext_get hs fun i ha hb => ?_
  have := h i
  rw [at?_of_inB ha, at?_of_inB hb] at this
  simpa using this

@[simp] theorem map_shape (f : β → γ) (a : Arr β) : (a.map f).shape = a.shape := rfl

@[simp] theorem at?_map (f : β → γ) (a : Arr β) (i : List Nat) :
    (a.map f).at? i = (a.at? i).map f := by
  by_cases h : InB a.shape i
  · rw [at?_of_inB h, at?_of_inB (a := a.map f) h]; rfl
  · rw [at?_of_not h, at?_of_not (a := a.map f) h]; rfl

@[simp] theorem full_shape (s : List Nat) (v : β) : (full s v).shape = s := rfl

theorem at?_full (s : List Nat) (v : β) (i : List Nat) :
    (full s v).at? i = if InB s i then some v else none := by
  unfold at? full; split <;> simp_all

theorem mem_indices {s i : List Nat} : i ∈ indices s ↔ InB s i := by
  induction s generalizing i with
  | nil => simp [indices, inB_nil]
  | cons d s ih =>
    simp only [indices, List.mem_flatMap, List.mem_range, List.mem_map, inB_cons]
    constructor
    · rintro ⟨k, hk, j, hj, rfl⟩; exact ⟨k, j, rfl, hk, ih.1 hj⟩
    · rintro ⟨k, j, rfl, hk, hj⟩; exact ⟨k, hk, j, ih.2 hj, rfl⟩

theorem all_iff {p : β → Bool} {a : Arr β} :
    a.all p = true ↔ ∀ i x, a.at? i = some x → p x = true := by
  simp only [all, List.all_eq_true, mem_indices, Option.all_eq_true]
  constructor
  · intro h i x hx
    exact h i ((at?_isSome).1 (by simp [hx])) x hx
  · intro h i _ x hx; exact h i x hx

theorem any_iff {p : β → Bool} {a : Arr β} :
    a.any p = true ↔ ∃ i x, a.at? i = some x ∧ p x = true := by
  simp only [any, List.any_eq_true, mem_indices, Option.any_eq_true]
  constructor
  · rintro ⟨i, _, x, hx, hp⟩; exact ⟨i, x, hx, hp⟩
  · rintro ⟨i, x, hx, hp⟩
    exact ⟨i, (at?_isSome).1 (by simp [hx]), x, hx, hp⟩

/-! ### Broadcasting -/

theorem bshapeR_self (s : List Nat) : bshapeR s s = some s := by
  induction s with
  | nil => rfl
  | cons a s ih => simp [bshapeR, bdim, ih]

@[simp] theorem bshape_self (s : List Nat) : bshape s s = some s := by
  simp [bshape, bshapeR_self]

theorem bIdxR_self {s i : List Nat} (h : InB s i) : bIdxR s i = i := by
  induction s generalizing i with
  | nil => rw [inB_nil] at h; subst h; rfl
  | cons d s ih =>
    obtain ⟨k, j, rfl, hk, hj⟩ := inB_cons.1 h
    simp only [bIdxR, ih hj, List.cons.injEq, and_true]
    split <;> omega

theorem bIdx_self {s i : List Nat} (h : InB s i) : bIdx s i = i := by
  simp [bIdx, bIdxR_self (inB_reverse.2 h)]

theorem bmap2_shape {f : β → γ → δ} {a : Arr β} {b : Arr γ} {r : Arr δ}
    (h : bmap2 f a b = some r) : bshape a.shape b.shape = some r.shape := by
  unfold bmap2 at h
  split at h
  · rename_i s hs; cases h; exact hs
  · cases h

theorem bmap2_eq_none {f : β → γ → δ} {a : Arr β} {b : Arr γ} :
    bmap2 f a b = none ↔ bshape a.shape b.shape = none := by
  unfold bmap2; split <;> simp_all

theorem bmap2_isSome {f : β → γ → δ} {a : Arr β} {b : Arr γ} {s : List Nat}
    (h : bshape a.shape b.shape = some s) : ∃ r, bmap2 f a b = some r ∧ r.shape = s := by
  rcases hr : bmap2 f a b with _ | r
  · rw [bmap2_eq_none] at hr; simp [hr] at h
  · have := bmap2_shape hr; rw [h] at this; exact ⟨r, rfl, by simpa using this.symm⟩

theorem at?_bmap2 {f : β → γ → δ} {a : Arr β} {b : Arr γ} {r : Arr δ}
    (h : bmap2 f a b = some r) {i : List Nat} (hi : InB r.shape i) :
    r.at? i = (do let x ← a.at? (bIdx a.shape i); let y ← b.at? (bIdx b.shape i); pure (f x y)) := by
  have hb := bmap2_shape h
  unfold bmap2 at h
  split at h
  · rename_i s hs
    cases h
    have ha := bIdx_inB_left hs hi
    have hb := bIdx_inB_right hs hi
    rw [at?_of_inB hi, at?_of_inB ha, at?_of_inB hb]
    rfl
  · cases h

/-- Equal shapes: an entrywise map. -/
theorem bmap2_same {f : β → γ → δ} {a : Arr β} {b : Arr γ} (hs : a.shape = b.shape) :
    ∃ r, bmap2 f a b = some r ∧ r.shape = a.shape ∧
      ∀ i, r.at? i = (do let x ← a.at? i; let y ← b.at? i; pure (f x y)) := by
  have h : bshape a.shape b.shape = some a.shape := by rw [← hs]; simp
  obtain ⟨r, hr, hrs⟩ := bmap2_isSome (f := f) h
  refine ⟨r, hr, hrs, fun i => ?_⟩
  by_cases hi : InB a.shape i
  · rw [at?_bmap2 hr (hrs ▸ hi), bIdx_self hi, bIdx_self (hs ▸ hi)]
  · rw [at?_of_not (hrs ▸ hi), at?_of_not hi]; rfl

theorem broadcastTo_ok {a r : Arr β} {s : List Nat} (h : a.broadcastTo s = .ok r) :
    BTo a.shape s ∧ r.shape = s ∧
      ∀ i, InB s i → r.at? i = a.at? (bIdx a.shape i) := by
  unfold broadcastTo at h
  split at h
  · rename_i hb
    cases h
    refine ⟨hb, rfl, fun i hi => ?_⟩
    rw [at?_of_inB hi, at?_of_inB (bIdx_inB_left hb hi)]
  · cases h

theorem broadcastTo_of {a : Arr β} {s : List Nat} (h : BTo a.shape s) :
    ∃ r, a.broadcastTo s = .ok r := by
  unfold broadcastTo; rw [dif_pos h]; exact ⟨_, rfl⟩

/-! ### Left broadcasting -/

theorem bshapeR_append_ones (s r : List Nat) :
    bshapeR (List.replicate r.length 1 ++ s) (r ++ s) = some (r ++ s) := by
  induction r with
  | nil => simp [bshapeR_self]
  | cons d r ih =>
    simp only [List.length_cons, List.replicate_succ, List.cons_append, bshapeR, ih]
    by_cases h : 1 = d
    · simp [bdim, h]
    · simp [bdim, h]

theorem bTo_ones (s r : List Nat) : BTo (s ++ List.replicate r.length 1) (s ++ r) := by
  unfold BTo bshape
  have := bshapeR_append_ones s.reverse r.reverse
  simp only [List.length_reverse] at this
  simp [this]

theorem bshapeR_nil (t : List Nat) : bshapeR [] t = some t := by cases t <;> rfl

theorem bTo_nil (t : List Nat) : BTo [] t := by simp [BTo, bshape, bshapeR_nil]

theorem bIdxR_append_ones {r j : List Nat} (s i : List Nat) (hj : InB r j) (hi : InB s i) :
    bIdxR (List.replicate r.length 1 ++ s) (j ++ i) = List.replicate r.length 0 ++ i := by
  induction r generalizing j with
  | nil => rw [inB_nil] at hj; subst hj; simp [bIdxR_self hi]
  | cons d r ih =>
    obtain ⟨k, j, rfl, hk, hj⟩ := inB_cons.1 hj
    simp [bIdxR, List.replicate_succ, ih hj]

theorem bIdx_ones {s r b j : List Nat} (hb : InB s b) (hj : InB r j) :
    bIdx (s ++ List.replicate r.length 1) (b ++ j) = b ++ List.replicate r.length 0 := by
  have := bIdxR_append_ones (r := r.reverse) (j := j.reverse) s.reverse b.reverse
    (inB_reverse.2 hj) (inB_reverse.2 hb)
  simp only [List.length_reverse] at this
  simp [bIdx, this]

theorem inB_drop {s r i : List Nat} (h : InB (s ++ r) i) : InB r (i.drop s.length) := by
  have := List.forall₂_drop s.length h
  simpa [InB] using this

theorem bIdx_ones' {s r i : List Nat} (h : InB (s ++ r) i) :
    bIdx (s ++ List.replicate r.length 1) i = i.take s.length ++ List.replicate r.length 0 := by
  have := bIdx_ones (inB_take h) (inB_drop h)
  rwa [List.take_append_drop] at this

theorem bIdx_nil (i : List Nat) : bIdx [] i = [] := by simp [bIdx, bIdxR]

open Utils in
theorem leftBroadcastLoop_spec (n : Nat) (a : Arr β) :
    (leftBroadcastLoop n a).shape = a.shape ++ List.replicate n 1 ∧
    ∀ i, InB (a.shape ++ List.replicate n 1) i →
      (leftBroadcastLoop n a).at? i = a.at? (i.take a.shape.length) := by
  induction n generalizing a with
  | zero =>
    simp only [leftBroadcastLoop, List.replicate_zero, List.append_nil, true_and]
    intro i hi
    rw [← hi.length, List.take_length]
  | succ n ih =>
    obtain ⟨h1, h2⟩ := ih a.expandLast
    have hsh : a.expandLast.shape ++ List.replicate n 1 = a.shape ++ List.replicate (n+1) 1 := by
      simp [expandLast, List.replicate_succ]
    refine ⟨by rw [leftBroadcastLoop, h1, hsh], fun i hi => ?_⟩
    rw [leftBroadcastLoop, h2 i (hsh ▸ hi)]
    have h3 : InB a.expandLast.shape (i.take a.expandLast.shape.length) :=
      inB_take (r := List.replicate n 1) (hsh ▸ hi)
    rw [at?_of_inB h3]
    have h4 : InB a.shape (i.take a.shape.length) := inB_take hi
    rw [at?_of_inB h4]
    simp only [expandLast]
    congr 2
    simp [List.take_take]

end Arr
end JaxAct
