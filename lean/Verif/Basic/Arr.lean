import Verif.Basic.Err
import Mathlib.Data.List.Forall2
import Mathlib.Data.List.TakeDrop

/-!
# Arrays and numpy broadcasting

`Arr β` is an n-dimensional array: a shape and an entry for every in-bounds index.
-/

namespace JaxAct

/-- `i` is an in-bounds index for an array of shape `s`. -/
def InB (s : List Nat) (i : List Nat) : Prop := List.Forall₂ (fun k d => k < d) i s

instance (s i : List Nat) : Decidable (InB s i) := by unfold InB; infer_instance

/-- An array with entries in `β`. -/
structure Arr (β : Type) where
  shape : List Nat
  get : (i : List Nat) → InB shape i → β

namespace Arr
variable {β γ δ : Type}

/-- `len(a.shape)`, `a.ndim` -/
def ndim (a : Arr β) : Nat := a.shape.length

/-- Observation: the entry at index `i`, if `i` is in bounds. -/
def at? (a : Arr β) (i : List Nat) : Option β :=
  if h : InB a.shape i then some (a.get i h) else none

/-- Entrywise map. -/
def map (f : β → γ) (a : Arr β) : Arr γ := ⟨a.shape, fun i h => f (a.get i h)⟩

/-- `jnp.full(shape, v)` -/
def full (s : List Nat) (v : β) : Arr β := ⟨s, fun _ _ => v⟩

/-- All in-bounds indices of a shape, in row-major order. -/
def indices : List Nat → List (List Nat)
  | [] => [[]]
  | d :: s => (List.range d).flatMap fun k => (indices s).map (k :: ·)

/-- `jnp.all(p(a))`, computed. -/
def all (p : β → Bool) (a : Arr β) : Bool :=
  (indices a.shape).all fun i => (a.at? i).all p

/-- `jnp.any(p(a))`, computed. -/
def any (p : β → Bool) (a : Arr β) : Bool :=
  (indices a.shape).any fun i => (a.at? i).any p

/-! ### Broadcasting -/

/-- Broadcast of two dimensions: equal, or one of them is one. -/
def bdim (a b : Nat) : Option Nat :=
  if a = b then some a else if a = 1 then some b else if b = 1 then some a else none

/-- Broadcast of two shapes, given from the right. -/
def bshapeR : List Nat → List Nat → Option (List Nat)
  | [], t => some t
  | s, [] => some s
  | a :: s, b :: t =>
    match bdim a b, bshapeR s t with
    | some d, some r => some (d :: r)
    | _, _ => none

/-- numpy's broadcast of two shapes (aligned at the right). -/
def bshape (s t : List Nat) : Option (List Nat) :=
  (bshapeR s.reverse t.reverse).map List.reverse

/-- Index into an operand of (reversed) shape `s` for (reversed) result index `i`. -/
def bIdxR : List Nat → List Nat → List Nat
  | [], _ => []
  | _ :: _, [] => []
  | d :: s, k :: i => (if d = 1 then 0 else k) :: bIdxR s i

/-- Index into an operand of shape `s` for result index `i`: missing leading axes are dropped,
unit axes are read at 0. -/
def bIdx (s i : List Nat) : List Nat := (bIdxR s.reverse i.reverse).reverse

/-- `s` broadcasts to `t` (from the right). -/
def BTo (s t : List Nat) : Prop := bshape s t = some t

instance (s t : List Nat) : Decidable (BTo s t) := by unfold BTo; infer_instance

theorem bdim_left {a b d : Nat} (h : bdim a b = some d) : a = d ∨ a = 1 := by
  unfold bdim at h; split_ifs at h <;> simp_all

theorem bIdxR_inB_left {s t r i : List Nat} (h : bshapeR s t = some r) (hi : InB r i) :
    InB s (bIdxR s i) := by
  induction s generalizing t r i with
  | nil => simp [bIdxR, InB]
  | cons a s ih =>
    cases t with
    | nil =>
      simp only [bshapeR, Option.some.injEq] at h
      subst h
      cases hi with
      | cons hk hi =>
        rename_i k i
        simp only [bIdxR]
        refine List.Forall₂.cons ?_ (ih (t := []) (r := s) (by cases s <;> rfl) hi)
        split <;> omega
    | cons b t =>
      simp only [bshapeR] at h
      split at h
      · rename_i d r' hd hr
        simp only [Option.some.injEq] at h
        subst h
        cases hi with
        | cons hk hi =>
          simp only [bIdxR]
          refine List.Forall₂.cons ?_ (ih hr hi)
          rcases bdim_left hd with h | h
          · split
            · omega
            · omega
          · simp [h]
      · simp at h

theorem bdim_comm (a b : Nat) : bdim a b = bdim b a := by
  unfold bdim; split_ifs <;> simp_all

theorem bshapeR_comm (s t : List Nat) : bshapeR s t = bshapeR t s := by
  induction s generalizing t with
  | nil => cases t <;> rfl
  | cons a s ih =>
    cases t with
    | nil => rfl
    | cons b t => simp only [bshapeR, bdim_comm a b, ih t]

theorem bshape_comm (s t : List Nat) : bshape s t = bshape t s := by
  unfold bshape; rw [bshapeR_comm]

theorem inB_reverse {s i : List Nat} : InB s.reverse i.reverse ↔ InB s i := by
  unfold InB; exact List.forall₂_reverse_iff

theorem bIdx_inB_left {s t r i : List Nat} (h : bshape s t = some r) (hi : InB r i) :
    InB s (bIdx s i) := by
  unfold bshape at h
  rw [Option.map_eq_some_iff] at h
  obtain ⟨r', h, rfl⟩ := h
  have := bIdxR_inB_left h (i := i.reverse) (by rw [← inB_reverse]; simpa using hi)
  rw [← inB_reverse]; simpa [bIdx] using this

theorem bIdx_inB_right {s t r i : List Nat} (h : bshape s t = some r) (hi : InB r i) :
    InB t (bIdx t i) := bIdx_inB_left (by rwa [bshape_comm]) hi

/-- Entrywise binary operation with numpy broadcasting; `none` if the shapes are incompatible. -/
def bmap2 (f : β → γ → δ) (a : Arr β) (b : Arr γ) : Option (Arr δ) :=
  match h : bshape a.shape b.shape with
  | some r => some ⟨r, fun i hi => f (a.get (bIdx a.shape i) (bIdx_inB_left h hi))
                                     (b.get (bIdx b.shape i) (bIdx_inB_right h hi))⟩
  | none => none

/-- The exception of an elementwise operation on incompatible shapes: operands of equal non-zero
rank reach `lax`, which raises `TypeError`; otherwise `lax.broadcast_shapes` raises `ValueError`. -/
def bErr (s t : List Nat) : Err := if s.length = t.length then .typeError else .valueError

/-- `jnp.broadcast_to(a, shape)` -/
def broadcastTo (a : Arr β) (s : List Nat) : Res (Arr β) :=
  if h : BTo a.shape s then .ok ⟨s, fun i hi => a.get (bIdx a.shape i) (bIdx_inB_left h hi)⟩
  else .error .valueError

theorem inB_take {s r i : List Nat} (h : InB (s ++ r) i) : InB s (i.take s.length) := by
  have := List.forall₂_take s.length h
  simpa [InB] using this

/-- `a[..., None]`: append a unit axis (the last index component is ignored). -/
def expandLast (a : Arr β) : Arr β :=
  ⟨a.shape ++ [1], fun i h => a.get (i.take a.shape.length) (inB_take h)⟩

end Arr
end JaxAct
