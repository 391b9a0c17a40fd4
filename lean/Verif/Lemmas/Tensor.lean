import Verif.Lemmas.Arr
import Verif.Lemmas.Res

/-! # Tensor lemmas -/

namespace JaxAct

namespace DType

@[simp] theorem withFloat_withFloat (d : DType) : d.withFloat.withFloat = d.withFloat := by
  cases d <;> rfl

theorem withFloat_isFloating (d : DType) : d.withFloat.isFloating = true := by cases d <;> rfl

theorem withFloat_of {d : DType} (h : d.isFloating = true) : d.withFloat = d := by
  simp [withFloat, h]

theorem withInt_of {d : DType} (h : d.isFloating = true) : d.withInt = d := by
  cases d <;> simp_all [withInt, isFloating]

theorem withInt_eq_self_iff {d : DType} : d = d.withInt ↔ d ≠ .bool := by
  cases d <;> simp [withInt]

@[simp] theorem promote_self (d : DType) : promote d d = d := by cases d <;> rfl

theorem promote_comm (a b : DType) : promote a b = promote b a := by cases a <;> cases b <;> rfl

@[simp] theorem promote_bool_left (d : DType) : promote .bool d = d := by cases d <;> rfl
@[simp] theorem promote_bool_right (d : DType) : promote d .bool = d := by cases d <;> rfl

/-- If a `withInt` equals a `withFloat`, the first dtype is floating. -/
theorem floating_of_withInt_eq {a b : DType} (h : a.withInt = b.withFloat) :
    a.isFloating = true ∧ b.withFloat = a := by
  cases a <;> cases b <;> simp_all [withInt, withFloat, isFloating]

end DType

namespace Tensor
variable {α : Type}

theorem ext_at {a b : Tensor α} (hd : a.dtype = b.dtype) (hs : a.shape = b.shape)
    (h : ∀ i, a.at? i = b.at? i) : a = b := by
  cases a; cases b; cases hd
  congr 1
  exact Arr.ext_at hs h

theorem select_ok {p : Arr Bool} {a b r : Tensor α} (h : select p a b = .ok r) :
    a.shape = b.shape ∧ a.dtype = b.dtype ∧ r.dtype = a.dtype ∧ r.shape = a.shape ∧
    (p.shape = a.shape ∨ p.shape = []) ∧
    (p.shape = a.shape → ∀ i, r.at? i =
      (do let c ← p.at? i; if c then a.at? i else b.at? i)) := by
  unfold select at h
  split at h
  · rename_i hs
    split at h
    · rename_i hp
      cases h
      refine ⟨hs.1, hs.2, rfl, rfl, .inl hp, fun _ i => ?_⟩
      by_cases hi : InB a.arr.shape i
      · have hpi : InB p.shape i := hp ▸ hi
        have hbi : InB b.arr.shape i := hs.1 ▸ hi
        simp only [Tensor.at?, Arr.at?, dif_pos hi, dif_pos hpi, dif_pos hbi]
        simp only [Option.bind_eq_bind, Option.bind_some]
        split <;> rfl
      · have hpi : ¬ InB p.shape i := hp ▸ hi
        simp only [Tensor.at?, Arr.at?, dif_neg hi, dif_neg hpi]
        rfl
    · rename_i hp
      split at h
      · rename_i h0
        cases h
        exact ⟨hs.1, hs.2, rfl, rfl, .inr h0, fun h => absurd h hp⟩
      · cases h
  · cases h

theorem select_of {p : Arr Bool} {a b : Tensor α} (hs : a.shape = b.shape) (hd : a.dtype = b.dtype)
    (hp : p.shape = a.shape) : ∃ r, select p a b = .ok r := by
  unfold select
  rw [dif_pos ⟨hs, hd⟩, dif_pos hp]
  exact ⟨_, rfl⟩

theorem select_error {p : Arr Bool} {a b : Tensor α} {e : Err} (h : select p a b = .error e) :
    e = .typeError := by
  unfold select at h
  split at h
  · split at h
    · cases h
    · split at h <;> cases h; rfl
  · cases h; rfl

variable [Arith α]

@[simp] theorem convS_self (d : DType) (x : α) : convS d d x = x := by simp [convS]

@[simp] theorem conv_shape (d : DType) (t : Tensor α) : (t.conv d).shape = t.shape := by
  unfold conv; split <;> rfl

@[simp] theorem conv_arr_shape (d : DType) (t : Tensor α) :
    (t.conv d).arr.shape = t.arr.shape := conv_shape d t

@[simp] theorem conv_dtype (d : DType) (t : Tensor α) : (t.conv d).dtype = d := by
  unfold conv; split <;> simp_all

@[simp] theorem at?_conv (d : DType) (t : Tensor α) (i : List Nat) :
    (t.conv d).arr.at? i = (t.arr.at? i).map (convS t.dtype d) := by
  unfold conv
  split
  · rename_i h
    have : convS (α := α) t.dtype d = id := by funext x; simp [convS, h]
    rw [this]; simp
  · rename_i h
    have : convS (α := α) t.dtype d = Arith.cast d := by funext x; simp [convS, h]
    rw [this, Arr.at?_map]

theorem binop_ok {op : DType → α → α → α} {a b r : Tensor α} (h : binop op a b = .ok r) :
    r.dtype = DType.promote a.dtype b.dtype ∧ Arr.bshape a.shape b.shape = some r.shape ∧
    ∀ i, InB r.shape i → r.at? i = (do
      let x ← a.at? (Arr.bIdx a.shape i)
      let y ← b.at? (Arr.bIdx b.shape i)
      pure (op r.dtype (convS a.dtype r.dtype x) (convS b.dtype r.dtype y))) := by
  unfold binop at h
  simp only at h
  split at h
  · rename_i s hs
    cases h
    have h1 := Arr.bmap2_shape hs
    simp only [conv_arr_shape] at h1
    refine ⟨rfl, h1, fun i hi => ?_⟩
    have h2 := Arr.at?_bmap2 hs hi
    simp only [conv_arr_shape, at?_conv] at h2
    simp only [Tensor.at?, Tensor.shape]
    rw [h2]
    cases a.arr.at? (Arr.bIdx a.arr.shape i) <;> cases b.arr.at? (Arr.bIdx b.arr.shape i) <;> rfl
  · cases h

theorem binop_of {op : DType → α → α → α} {a b : Tensor α} {s : List Nat}
    (h : Arr.bshape a.shape b.shape = some s) : ∃ r, binop op a b = .ok r ∧ r.shape = s := by
  unfold binop
  simp only
  obtain ⟨r, hr, hs⟩ := Arr.bmap2_isSome
    (f := op (DType.promote a.dtype b.dtype))
    (a := (a.conv (DType.promote a.dtype b.dtype)).arr)
    (b := (b.conv (DType.promote a.dtype b.dtype)).arr) (s := s) (by simpa using h)
  rw [hr]
  exact ⟨_, rfl, hs⟩

theorem binop_error {op : DType → α → α → α} {a b : Tensor α} {e : Err}
    (h : binop op a b = .error e) :
    Arr.bshape a.shape b.shape = none ∧ e = Arr.bErr a.shape b.shape := by
  unfold binop at h
  simp only at h
  split at h
  · cases h
  · rename_i hn
    cases h
    rw [Arr.bmap2_eq_none] at hn
    exact ⟨by simpa using hn, rfl⟩

/-- Equal shapes. -/
theorem binop_same {op : DType → α → α → α} {a b : Tensor α} (hs : a.shape = b.shape) :
    ∃ r, binop op a b = .ok r ∧ r.dtype = DType.promote a.dtype b.dtype ∧ r.shape = a.shape ∧
    ∀ i, r.at? i = (do
      let x ← a.at? i
      let y ← b.at? i
      pure (op r.dtype (convS a.dtype r.dtype x) (convS b.dtype r.dtype y))) := by
  have hb : Arr.bshape a.shape b.shape = some a.shape := by rw [← hs]; simp
  obtain ⟨r, hr, hrs⟩ := binop_of (op := op) hb
  obtain ⟨h1, h2, h3⟩ := binop_ok hr
  refine ⟨r, hr, h1, hrs, fun i => ?_⟩
  simp only [Tensor.shape, Tensor.at?] at *
  by_cases hi : InB a.arr.shape i
  · rw [h3 i (hrs ▸ hi), Arr.bIdx_self hi, Arr.bIdx_self (hs ▸ hi)]
  · rw [Arr.at?_of_not (hrs ▸ hi), Arr.at?_of_not hi]; rfl

@[simp] theorem floatMul_shape (c : α) (t : Tensor α) : (floatMul c t).shape = t.shape := by
  simp [floatMul, Tensor.shape]
@[simp] theorem floatMul_dtype (c : α) (t : Tensor α) : (floatMul c t).dtype = t.dtype.withFloat :=
  rfl
@[simp] theorem oneSub_shape (t : Tensor α) : (oneSub t).shape = t.shape := by
  simp [oneSub, Tensor.shape]
@[simp] theorem oneSub_dtype (t : Tensor α) : (oneSub t).dtype = t.dtype.withInt := rfl
@[simp] theorem addOne_shape (t : Tensor α) : (addOne t).shape = t.shape := by
  simp [addOne, Tensor.shape]
@[simp] theorem addOne_dtype (t : Tensor α) : (addOne t).dtype = t.dtype.withInt := rfl
@[simp] theorem clip01_shape (t : Tensor α) : (clip01 t).shape = t.shape := by
  simp [clip01, Tensor.shape]
@[simp] theorem clip01_dtype (t : Tensor α) : (clip01 t).dtype = t.dtype.withFloat := rfl
@[simp] theorem gtFloat_shape (t : Tensor α) (c : α) : (gtFloat t c).shape = t.shape := by
  simp [gtFloat, Tensor.shape]
@[simp] theorem ofMask_shape (m : Arr Bool) : (ofMask (α := α) m).shape = m.shape := rfl
@[simp] theorem ofMask_dtype (m : Arr Bool) : (ofMask (α := α) m).dtype = .bool := rfl

@[simp] theorem at?_floatMul (c : α) (t : Tensor α) (i : List Nat) :
    (floatMul c t).at? i = (t.at? i).map fun x =>
      Arith.mul t.dtype.withFloat (Arith.cast t.dtype.withFloat c)
        (convS t.dtype t.dtype.withFloat x) := by
  simp [floatMul, Tensor.at?, Function.comp_def]

@[simp] theorem at?_oneSub (t : Tensor α) (i : List Nat) :
    (oneSub t).at? i = (t.at? i).map fun x =>
      Arith.sub t.dtype.withInt Arith.one (convS t.dtype t.dtype.withInt x) := by
  simp [oneSub, Tensor.at?, Function.comp_def]

@[simp] theorem at?_addOne (t : Tensor α) (i : List Nat) :
    (addOne t).at? i = (t.at? i).map fun x =>
      Arith.add t.dtype.withInt (convS t.dtype t.dtype.withInt x) Arith.one := by
  simp [addOne, Tensor.at?, Function.comp_def]

@[simp] theorem at?_clip01 (t : Tensor α) (i : List Nat) :
    (clip01 t).at? i = (t.at? i).map fun x =>
      Arith.min Arith.one (Arith.max Arith.zero (convS t.dtype t.dtype.withFloat x)) := by
  simp [clip01, Tensor.at?, Function.comp_def]

@[simp] theorem at?_gtFloat (t : Tensor α) (c : α) (i : List Nat) :
    (gtFloat t c).at? i = (t.at? i).map fun x =>
      Arith.lt (Arith.cast t.dtype.withFloat c) (convS t.dtype t.dtype.withFloat x) := by
  simp [gtFloat, Tensor.at?, Function.comp_def]

@[simp] theorem at?_ofMask (m : Arr Bool) (i : List Nat) :
    (ofMask (α := α) m).at? i = (m.at? i).map Arith.ofBool := by
  simp [ofMask, Tensor.at?]

end Tensor

/-! ### Left broadcasting against a target whose shape starts with the tensor's shape -/

namespace Utils
variable {β : Type}

theorem setupLeftBroadcast_prefix (a : Arr β) (r : List Nat) :
    ∃ a', setupLeftBroadcast a (some (a.shape ++ r)) = .ok a' ∧
      Arr.BTo a'.shape (a.shape ++ r) ∧
      ∀ i, InB (a.shape ++ r) i → a'.at? (Arr.bIdx a'.shape i) = a.at? (i.take a.shape.length) := by
  unfold setupLeftBroadcast
  by_cases h0 : a.ndim = 0
  · rw [if_pos h0]
    have hn : a.shape = [] := by simpa [Arr.ndim] using h0
    refine ⟨a, rfl, ?_, fun i hi => ?_⟩
    · rw [hn]; exact Arr.bTo_nil _
    · rw [hn, Arr.bIdx_nil]; simp
  · rw [if_neg h0]
    simp only [List.length_append, Nat.le_add_right, if_true, Nat.add_sub_cancel_left]
    obtain ⟨h1, h2⟩ := Arr.leftBroadcastLoop_spec r.length a
    refine ⟨_, rfl, ?_, fun i hi => ?_⟩
    · rw [h1]; exact Arr.bTo_ones _ _
    · rw [h1, Arr.bIdx_ones' hi, h2]
      · congr 1
        simp [hi.length]
      · refine (inB_append (by simp [hi.length])).2 ⟨Arr.inB_take hi, ?_⟩
        generalize r.length = n
        induction n with
        | zero => exact List.Forall₂.nil
        | succ n ih => rw [List.replicate_succ, List.replicate_succ]; exact List.Forall₂.cons (by omega) ih

theorem setupLeftBroadcastT_prefix {α : Type} (t : Tensor α) (r : List Nat) :
    ∃ t', setupLeftBroadcastT t (some (t.shape ++ r)) = .ok t' ∧ t'.dtype = t.dtype ∧
      Arr.BTo t'.shape (t.shape ++ r) ∧
      ∀ i, InB (t.shape ++ r) i → t'.at? (Arr.bIdx t'.shape i) = t.at? (i.take t.shape.length) := by
  obtain ⟨a', h1, h2, h3⟩ := setupLeftBroadcast_prefix t.arr r
  refine ⟨⟨t.dtype, a'⟩, ?_, rfl, h2, h3⟩
  unfold setupLeftBroadcastT
  rw [h1]; rfl

end Utils
end JaxAct
