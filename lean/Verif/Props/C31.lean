import Verif.Lemmas.Viewer
import Verif.Props.Fixtures

/-! # C31 Viewer masks show exactly the selected batch elements -/

namespace JaxAct
open Viewer
variable {α : Type} [Arith α]

/-- The number a boolean mask entry becomes in a product of dtype `d`. -/
def maskFactor (d : DType) (m : α) : α := convS .bool d m

theorem applyMask_prefix {mask t : Tensor α} (hb : mask.dtype = .bool) (hp : mask.shape <+: t.shape) :
    ∃ r, applyMask mask t = .ok r ∧ r.shape = t.shape ∧ r.dtype = t.dtype ∧
      ∀ b rest, b.length = mask.shape.length → r.at? (b ++ rest) =
        (do let m ← mask.at? b
            let x ← t.at? (b ++ rest)
            pure (Arith.mul t.dtype (maskFactor t.dtype m) x)) := by
  obtain ⟨ex, hx⟩ := hp
  obtain ⟨m', h1, h2, h3, h4⟩ := Utils.setupLeftBroadcastT_prefix mask ex
  rw [hx] at h1 h3 h4
  obtain ⟨r, g1, g2⟩ := Tensor.binop_of (op := Arith.mul) (a := m') (b := t) h3
  obtain ⟨k1, -, k3⟩ := Tensor.binop_ok g1
  have hd : r.dtype = t.dtype := by rw [k1, h2, hb]; simp
  refine ⟨r, by unfold applyMask; rw [h1]; exact g1, g2, hd, fun b rest hbl => ?_⟩
  by_cases hi : InB t.shape (b ++ rest)
  · rw [k3 _ (by rw [g2]; exact hi), h4 _ hi, Arr.bIdx_self hi, List.take_left' hbl, h2, hb, hd]
    cases mask.at? b with
    | none => rfl
    | some m =>
      cases t.at? (b ++ rest) with
      | none => rfl
      | some x => simp [convS, maskFactor]
  · have e1 : r.at? (b ++ rest) = none := Arr.at?_of_not (by
      show ¬ InB r.shape _; rw [g2]; exact hi)
    have e2 : t.at? (b ++ rest) = none := Arr.at?_of_not hi
    rw [e1, e2]
    cases mask.at? b <;> rfl

/-- C31, errors: with a well-formed viewer `mask_data` succeeds iff the mask is boolean and of batch
shape, and otherwise raises `ValueError`. -/
theorem C31_success_iff {v : Viewer α} (hwf : v.state.WF) (mask : Tensor α) :
    ((∃ v', v.maskData mask = .ok v') ↔
      mask.dtype = .bool ∧ mask.shape = v.state.probabilities.shape) ∧
    ((∃ e, v.maskData mask = .error e) ↔ v.maskData mask = .error .valueError) := by
  by_cases h1 : mask.dtype = .bool
  · by_cases h2 : mask.shape = v.state.probabilities.shape
    · have hok : ∃ v', v.maskData mask = .ok v' := by
        unfold maskData
        rw [if_neg (by simp [h1]), if_neg (by simp [h2])]
        have ok : ∀ t : Tensor α, v.state.probabilities.shape <+: t.shape →
            ∃ r, applyMask mask t = .ok r := fun t ht => by
          obtain ⟨r, hr, -⟩ := applyMask_prefix h1 (h2 ▸ ht)
          exact ⟨r, hr⟩
        refine transform_of (ok _ (by rw [hwf.it_shape]; exact List.prefix_refl _)) (ok _ (by rw [hwf.res_shape]; exact List.prefix_refl _))
          (ok _ (List.prefix_refl _)) ?_ ?_
        · intro n t ht l hl
          obtain ⟨a, ha, -, hp⟩ := hwf.batched n t (Dict.get?_of_mem hwf.acc_keys ht) l hl
          obtain ⟨r, hr⟩ := ok a hp
          exact ⟨a, r, ha, hr⟩
        · intro n t ht l hl
          have hd := Dict.get?_of_mem hwf.def_keys ht
          obtain ⟨acc, hacc⟩ := Dict.mem_keys_iff.1 ((hwf.def_iff n).1 (Dict.mem_keys_iff.2 ⟨t, hd⟩))
          obtain ⟨-, hs⟩ := hwf.same n acc t hacc hd
          obtain ⟨k, hk, rfl⟩ := List.mem_iff_getElem.1 hl
          obtain ⟨a, b, e1, e2, e3, -⟩ := (List.forall₂_iff_get.1 hs).2 k (hs.length_eq ▸ hk) hk
          obtain ⟨a', ha', -, hp⟩ := hwf.batched n acc hacc _ (List.get_mem ..)
          rw [e1] at ha'
          cases ha'
          obtain ⟨r, hr⟩ := ok b (e3 ▸ hp)
          exact ⟨b, r, e2, hr⟩
      obtain ⟨v', hv⟩ := hok
      simp [hv, h1, h2]
    · have : v.maskData mask = .error .valueError := by
        unfold maskData; rw [if_neg (by simp [h1]), if_pos h2]
      simp [this, h2]
  · have : v.maskData mask = .error .valueError := by unfold maskData; rw [if_pos h1]
    simp [this, h1]

theorem maskData_ok {v v' : Viewer α} {mask : Tensor α} (h : v.maskData mask = .ok v') :
    mask.dtype = .bool ∧ mask.shape = v.state.probabilities.shape ∧
      Transformed (applyMask mask) v.state v'.state := by
  unfold maskData at h
  split at h
  · cases h
  · split at h
    · cases h
    · rename_i h1 h2
      exact ⟨not_not.1 h1, not_not.1 h2, transform_ok h⟩

/-- Entry of a tensor, with the index split into batch part and rest, seen through a mask. -/
def Masked (mask : Tensor α) (d : DType) (old new : Option α) (b : List Nat) : Prop :=
  new = (do let m ← mask.at? b
            let x ← old
            pure (Arith.mul d (maskFactor d m) x))

theorem mappedDict_entry {mask : Tensor α} {d d' : Dict (PyTree (Leaf α))}
    (hb : mask.dtype = .bool) (hm : MappedDict (applyMask mask) d d')
    (hbat : ∀ n t, d.get? n = some t → ∀ l ∈ t.treeLeaves, ∃ a, l = Leaf.tensor a ∧
      mask.shape <+: a.shape)
    {n : String} {k : Nat} {a : Tensor α} (hl : ACTStates.leaf? d n k = some (.tensor a)) :
    ∃ a', ACTStates.leaf? d' n k = some (.tensor a') ∧ a'.shape = a.shape ∧ a'.dtype = a.dtype ∧
      ∀ b rest, b.length = mask.shape.length →
        Masked mask a.dtype (a.at? (b ++ rest)) (a'.at? (b ++ rest)) b := by
  unfold ACTStates.leaf? at hl ⊢
  cases ht : d.get? n with
  | none => rw [ht] at hl; cases hl
  | some t =>
    rw [ht] at hl
    obtain ⟨t', ht', -, hf⟩ := hm.2 n t ht
    rw [ht']
    simp only at hl ⊢
    obtain ⟨hk, e⟩ := List.getElem?_eq_some_iff.1 hl
    have hk' := hf.length_eq ▸ hk
    obtain ⟨x, y, e1, e2, e3⟩ := (List.forall₂_iff_get.1 hf).2 k hk hk'
    simp only [List.get_eq_getElem, e] at e1 e3
    cases e1
    obtain ⟨a0, ha0, hp⟩ := hbat n t ht (.tensor a) (e ▸ List.getElem_mem hk)
    cases ha0
    obtain ⟨r, hr, h1, h2, h3⟩ := applyMask_prefix hb hp
    rw [e2] at hr
    cases hr
    exact ⟨y, by rw [List.getElem?_eq_getElem hk', e3], h1, h2, h3⟩

omit [Arith α] in
theorem WF_defaults_batched {s : ACTStates α} (hwf : s.WF) {n : String} {t : PyTree (Leaf α)}
    (hd : s.defaults.get? n = some t) : ∀ l ∈ t.treeLeaves, ∃ a, l = Leaf.tensor a ∧
      s.probabilities.shape <+: a.shape := by
  intro l hl
  obtain ⟨acc, hacc⟩ := Dict.mem_keys_iff.1 ((hwf.def_iff n).1 (Dict.mem_keys_iff.2 ⟨t, hd⟩))
  obtain ⟨-, hs⟩ := hwf.same n acc t hacc hd
  obtain ⟨k, hk, rfl⟩ := List.mem_iff_getElem.1 hl
  obtain ⟨a, b, e1, e2, e3, -⟩ := (List.forall₂_iff_get.1 hs).2 k (hs.length_eq ▸ hk) hk
  obtain ⟨a', ha', -, hp⟩ := hwf.batched n acc hacc _ (List.get_mem ..)
  rw [e1] at ha'
  cases ha'
  exact ⟨b, e2, e3 ▸ hp⟩

/-- C31 for any arithmetic: every entry of every accumulator and default leaf, and of probabilities,
residuals and iterations, is multiplied by the mask entry of its batch element. -/
theorem C31_mask_entries {v v' : Viewer α} (hwf : v.state.WF) {mask : Tensor α}
    (h : v.maskData mask = .ok v') :
    (∀ n k a, ACTStates.leaf? v.state.accumulators n k = some (.tensor a) →
      ∃ a', ACTStates.leaf? v'.state.accumulators n k = some (.tensor a') ∧ a'.shape = a.shape ∧
        a'.dtype = a.dtype ∧ ∀ b rest, b.length = mask.shape.length →
          Masked mask a.dtype (a.at? (b ++ rest)) (a'.at? (b ++ rest)) b) ∧
    (∀ n k a, ACTStates.leaf? v.state.defaults n k = some (.tensor a) →
      ∃ a', ACTStates.leaf? v'.state.defaults n k = some (.tensor a') ∧ a'.shape = a.shape ∧
        a'.dtype = a.dtype ∧ ∀ b rest, b.length = mask.shape.length →
          Masked mask a.dtype (a.at? (b ++ rest)) (a'.at? (b ++ rest)) b) ∧
    (∀ b, Masked mask v.state.probabilities.dtype (v.state.probabilities.at? b)
      (v'.state.probabilities.at? b) b) ∧
    (∀ b, Masked mask v.state.residuals.dtype (v.state.residuals.at? b)
      (v'.state.residuals.at? b) b) ∧
    (∀ b, Masked mask v.state.iterations.dtype (v.state.iterations.at? b)
      (v'.state.iterations.at? b) b) := by
  obtain ⟨h1, h2, tr⟩ := maskData_ok h
  have core : ∀ {t r : Tensor α}, t.shape = v.state.probabilities.shape →
      applyMask mask t = .ok r → ∀ b, Masked mask t.dtype (t.at? b) (r.at? b) b := by
    intro t r hs hr b
    obtain ⟨r', hr', g1, g2, g3⟩ := applyMask_prefix (mask := mask) (t := t) h1
      (by rw [h2, hs]; exact List.prefix_refl _)
    rw [hr] at hr'
    cases hr'
    by_cases hb : b.length = mask.shape.length
    · have := g3 b [] hb
      rwa [List.append_nil] at this
    · have e0 : ∀ u : Tensor α, u.shape = v.state.probabilities.shape → u.at? b = none := by
        intro u hu
        refine Arr.at?_of_not fun hi => hb ?_
        have := hi.length
        rw [this, h2]; exact congrArg _ hu
      unfold Masked
      rw [e0 r (g1.trans hs), e0 t hs, e0 mask h2]
      rfl
  refine ⟨fun n k a hl => mappedDict_entry h1 tr.accumulators ?_ hl,
    fun n k a hl => mappedDict_entry h1 tr.defaults ?_ hl,
    core rfl tr.probabilities, core hwf.res_shape tr.residuals, core hwf.it_shape tr.iterations⟩
  · intro n t ht l hl
    obtain ⟨a, ha, -, hp⟩ := hwf.batched n t ht l hl
    exact ⟨a, ha, h2 ▸ hp⟩
  · intro n t ht l hl
    rw [h2]
    exact WF_defaults_batched hwf ht l hl

section Exact
variable {K : Type} [Field K] [LinearOrder K]
attribute [local instance] Arith.exact

theorem masked_exact {mask : Tensor K} {d : DType} {old new : Option K} {b : List Nat}
    (h : Masked mask d old new b) :
    (mask.at? b = some 1 → new = old) ∧ (mask.at? b = some 0 → new = old.map fun _ => 0) := by
  unfold Masked at h
  have hf : ∀ m : K, maskFactor d m = m := fun m => by
    unfold maskFactor convS; split <;> rfl
  have hm : ∀ x y : K, Arith.mul d x y = x * y := fun _ _ => rfl
  constructor <;> intro hb <;> rw [hb] at h <;> rw [h] <;> cases old <;> simp [hf, hm]

/-- C31 in exact arithmetic: where the mask is True (1) every entry is unchanged, where it is False
(0) every entry is zero. -/
theorem C31_exact {v v' : Viewer K} (hwf : v.state.WF) {mask : Tensor K}
    (h : v.maskData mask = .ok v') {b : List Nat} (hb : b.length = mask.shape.length) :
    (mask.at? b = some 1 →
      (∀ n k rest, ACTStates.entry? v'.state.accumulators n k (b ++ rest) =
        ACTStates.entry? v.state.accumulators n k (b ++ rest)) ∧
      (∀ n k rest, ACTStates.entry? v'.state.defaults n k (b ++ rest) =
        ACTStates.entry? v.state.defaults n k (b ++ rest)) ∧
      v'.state.probabilities.at? b = v.state.probabilities.at? b ∧
      v'.state.residuals.at? b = v.state.residuals.at? b ∧
      v'.state.iterations.at? b = v.state.iterations.at? b) ∧
    (mask.at? b = some 0 →
      (∀ n k rest, ACTStates.entry? v'.state.accumulators n k (b ++ rest) =
        (ACTStates.entry? v.state.accumulators n k (b ++ rest)).map fun _ => 0) ∧
      (∀ n k rest, ACTStates.entry? v'.state.defaults n k (b ++ rest) =
        (ACTStates.entry? v.state.defaults n k (b ++ rest)).map fun _ => 0) ∧
      v'.state.probabilities.at? b = (v.state.probabilities.at? b).map (fun _ => 0) ∧
      v'.state.residuals.at? b = (v.state.residuals.at? b).map (fun _ => 0) ∧
      v'.state.iterations.at? b = (v.state.iterations.at? b).map fun _ => 0) := by
  obtain ⟨h1, h2, h3, h4, h5⟩ := C31_mask_entries hwf h
  obtain ⟨-, h7, tr⟩ := maskData_ok h
  have entry : ∀ {d d' : Dict (PyTree (Leaf K))}, MappedDict (applyMask mask) d d' →
      (∀ n t, d.get? n = some t → ∀ l ∈ t.treeLeaves, ∃ a, l = Leaf.tensor a ∧
        v.state.probabilities.shape <+: a.shape) →
      (∀ n k a, ACTStates.leaf? d n k = some (.tensor a) →
        ∃ a', ACTStates.leaf? d' n k = some (.tensor a') ∧ a'.shape = a.shape ∧
        a'.dtype = a.dtype ∧ ∀ b rest, b.length = mask.shape.length →
          Masked mask a.dtype (a.at? (b ++ rest)) (a'.at? (b ++ rest)) b) →
      ∀ n k rest, ∃ dt, Masked mask dt (ACTStates.entry? d n k (b ++ rest))
        (ACTStates.entry? d' n k (b ++ rest)) b := by
    intro d d' hm hbat hd n k rest
    unfold ACTStates.entry?
    cases hl : ACTStates.leaf? d n k with
    | none =>
      have : ACTStates.leaf? d' n k = none := by
        unfold ACTStates.leaf? at hl ⊢
        cases hn : d.get? n with
        | none =>
          have : d'.get? n = none := by
            rw [Dict.get?_eq_none_iff, hm.1, ← Dict.get?_eq_none_iff]; exact hn
          rw [this]
        | some t =>
          obtain ⟨t', ht', -, hf⟩ := hm.2 n t hn
          rw [hn] at hl
          rw [ht']
          simp only [List.getElem?_eq_none_iff] at hl ⊢
          rw [← hf.length_eq]; exact hl
      rw [this]
      refine ⟨.f32, ?_⟩
      unfold Masked
      cases mask.at? b <;> rfl
    | some l =>
      have hlt : ∃ a, l = Leaf.tensor a := by
        unfold ACTStates.leaf? at hl
        cases hn : d.get? n with
        | none => rw [hn] at hl; cases hl
        | some t =>
          rw [hn] at hl
          obtain ⟨a, ha, -⟩ := hbat n t hn l (List.mem_of_getElem? hl)
          exact ⟨a, ha⟩
      obtain ⟨a, rfl⟩ := hlt
      obtain ⟨a', ha', -, -, g⟩ := hd n k a hl
      rw [ha']
      exact ⟨a.dtype, g b rest hb⟩
  have ea := entry tr.accumulators (fun n t ht l hl => by
    obtain ⟨a, ha, -, hp⟩ := hwf.batched n t ht l hl
    exact ⟨a, ha, hp⟩) h1
  have ed := entry tr.defaults (fun n t ht l hl => WF_defaults_batched hwf ht l hl) h2
  constructor
  · intro hm
    refine ⟨fun n k rest => ?_, fun n k rest => ?_, ?_, ?_, ?_⟩
    · obtain ⟨_, hd⟩ := ea n k rest; exact (masked_exact hd).1 hm
    · obtain ⟨_, hd⟩ := ed n k rest; exact (masked_exact hd).1 hm
    · exact (masked_exact (h3 b)).1 hm
    · exact (masked_exact (h4 b)).1 hm
    · exact (masked_exact (h5 b)).1 hm
  · intro hm
    refine ⟨fun n k rest => ?_, fun n k rest => ?_, ?_, ?_, ?_⟩
    · obtain ⟨_, hd⟩ := ea n k rest; exact (masked_exact hd).2 hm
    · obtain ⟨_, hd⟩ := ed n k rest; exact (masked_exact hd).2 hm
    · exact (masked_exact (h3 b)).2 hm
    · exact (masked_exact (h4 b)).2 hm
    · exact (masked_exact (h5 b)).2 hm

end Exact

section Example
open Fixtures
attribute [local instance] Arith.exact

/-- A mask that keeps the second batch element. -/
def exampleMask : Tensor ℚ := { vec [0, 1] with dtype := .bool }

example : fresh.WF ∧
    (Viewer.maskData ⟨{ fresh with probabilities := vec [1/2, 1/3] }⟩ exampleMask).toOption.map
      (fun w => (w.state.probabilities.at? [0], w.state.probabilities.at? [1],
        ACTStates.entry? w.state.accumulators "tree" 1 [0, 0],
        ACTStates.entry? w.state.accumulators "tree" 1 [1, 0]))
      = some (some 0, some (1/3), some 0, some 1) ∧
    raised (Viewer.maskData ⟨fresh⟩ (vec [0, 1])) = some .valueError ∧
    raised (Viewer.maskData ⟨fresh⟩ { vec [0, 1, 1] with dtype := .bool }) = some .valueError :=
  ⟨fresh_wf, by decide +kernel, by decide +kernel, by decide +kernel⟩

end Example
end JaxAct
