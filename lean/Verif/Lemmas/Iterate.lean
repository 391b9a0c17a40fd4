import Verif.Lemmas.Controller

/-! # The refinement theorem for `iterate_act` -/

namespace JaxAct

namespace ACTStates
variable {α : Type}

theorem replace_core (s : ACTStates α) (ep it re pr ac de up) :
    s.replace ep it re pr ac de up = .ok
      { epsilon := ep.getD s.epsilon, iterations := it.getD s.iterations,
        residuals := re.getD s.residuals, probabilities := pr.getD s.probabilities,
        defaults := de.getD s.defaults, accumulators := ac.getD s.accumulators,
        updates := up.getD s.updates, depression_constant := s.depression_constant,
        error_mode := s.error_mode } := rfl

end ACTStates

variable {α : Type} [Arith α]

/-- One committed leaf. -/
structure LeafStep (s : ACTStates α) (h : Tensor α) (ta tu ta' : Tensor α) : Prop where
  ushape : tu.shape = ta.shape
  dtypes : DType.promote ta.dtype (DType.promote s.probabilities.dtype tu.dtype) = ta.dtype
  shape : ta'.shape = ta.shape
  dtype : ta'.dtype = ta.dtype
  entry : ∀ i a u p x, ta.at? i = some a → tu.at? i = some u →
    s.probabilities.at? (i.take s.probabilities.shape.length) = some p →
    h.at? (i.take s.probabilities.shape.length) = some x →
    ta'.at? i = some (Spec.accStep s.probabilities.dtype ta.dtype tu.dtype s.epsilon
      s.depression_constant p (convS h.dtype s.probabilities.dtype x) a u)

/-- One committed tree. -/
structure TreeStep (s : ACTStates α) (h : Tensor α) (a u a' : PyTree (Leaf α)) : Prop where
  notNone : u.isNone = false
  count : u.treeLeaves.length = a.treeLeaves.length
  struct : a'.treeStructure = a.treeStructure
  canon : a'.canon = a'
  leaf : ∀ (k : Nat) l, a.treeLeaves[k]? = some l → ∃ ta tu ta', l = .tensor ta ∧
    u.treeLeaves[k]? = some (.tensor tu) ∧ a'.treeLeaves[k]? = some (.tensor ta') ∧
    LeafStep s h ta tu ta'

/-- The relation between the state before and after a successful `iterate_act`. -/
structure IterStep (s : ACTStates α) (h : Tensor α) (s' : ACTStates α) : Prop where
  hshape : h.shape = s.probabilities.shape
  hdtype : h.dtype.withFloat = s.probabilities.dtype
  epsilon : s'.epsilon = s.epsilon
  depression : s'.depression_constant = s.depression_constant
  error_mode : s'.error_mode = s.error_mode
  defaults : s'.defaults = s.defaults
  pshape : s'.probabilities.shape = s.probabilities.shape
  pdtype : s'.probabilities.dtype = s.probabilities.dtype
  rshape : s'.residuals.shape = s.residuals.shape
  rdtype : s'.residuals.dtype = s.residuals.dtype
  ishape : s'.iterations.shape = s.iterations.shape
  idtype : s'.iterations.dtype = s.iterations.dtype
  akeys : s'.accumulators.keys = s.accumulators.keys
  ukeys : s'.updates.keys = s.updates.keys
  cleared : ∀ n, n ∈ s.accumulators.keys → s'.updates.get? n = some .none
  cell : ∀ b p r n x, s.probabilities.at? b = some p → s.residuals.at? b = some r →
    s.iterations.at? b = some n → h.at? b = some x →
    let c := Spec.step s.probabilities.dtype s.iterations.dtype s.epsilon s.depression_constant
      ⟨p, r, n⟩ (convS h.dtype s.probabilities.dtype x)
    s'.probabilities.at? b = some c.prob ∧ s'.residuals.at? b = some c.resid ∧
    s'.iterations.at? b = some c.iter
  tree : ∀ n a, s.accumulators.get? n = some a → ∃ u a', s.updates.get? n = some u ∧
    s'.accumulators.get? n = some a' ∧ TreeStep s h a u a'

namespace Controller
open Utils

theorem at?_some_of_shape {β γ : Type} {a : Tensor β} {b : Tensor γ} {i : List Nat} {x : β}
    (hs : b.shape = a.shape) (ha : a.at? i = some x) : ∃ y, b.at? i = some y := by
  have : (a.arr.at? i).isSome := by simp only [Tensor.at?] at ha; rw [ha]; rfl
  have h2 := Arr.at?_isSome.1 this
  simp only [Tensor.shape] at hs
  exact Option.isSome_iff_exists.1 (Arr.at?_isSome.2 (hs ▸ h2))

theorem at?_clip_eq {d : DType} (h : Tensor α) (hd : h.dtype.withFloat = d) {b x}
    (hx : h.at? b = some x) : h.clip01.at? b = some (Spec.clamp (convS h.dtype d x)) := by
  rw [Tensor.at?_clip01, hx, hd]; rfl

/-- Success of `iterate_act` refines the specification. -/
theorem iterateAct_ok {s : ACTStates α} (hwf : s.WF) {h : Tensor α} {c' : Controller α}
    (ok : iterateAct ⟨s⟩ h = .ok c') : IterStep s h c'.state := by
  unfold iterateAct at ok
  split at ok
  · cases ok
  rename_i hs
  rw [not_not] at hs
  simp only [bind_ok, ACTStates.replace_core, Option.getD_some, Option.getD_none] at ok
  obtain ⟨⟨hh, r, p⟩, hpp, ⟨acc, upd⟩, hcl, it, hit, st, hst, hc⟩ := ok
  simp only at hcl hst hpp
  cases hst
  cases hc
  have hdt := processProbabilities_dtype _ _ hpp
  simp only [Tensor.clip01_dtype, DType.withFloat_withFloat] at hdt
  obtain ⟨hh', r', p', hpp', hhs, hhd, hrs, hrd, hps, hpd, hcell⟩ := processProbabilities_of (⟨s⟩ : Controller α)
    h.clip01 hwf.floating hwf.res_shape hwf.res_dtype (by rw [Tensor.clip01_shape]; exact hs)
    (by rw [Tensor.clip01_dtype]; exact hdt.2.1)
  rw [hpp'] at hpp
  cases hpp
  obtain ⟨hi1, hi2, hi3, hi4, -, hi5⟩ := Tensor.select_ok hit
  have hhb : (haltedBatches ⟨s⟩).shape = (iterations ⟨s⟩).shape := by
    rw [haltedBatches_shape]; exact hwf.it_shape.symm
  obtain ⟨hc1, hc2, hc3, hc4⟩ := commitLoop_ok _ _ _ _ _ _ _ hwf.acc_keys hcl
  refine {
    hshape := hs, hdtype := hdt.2.1, epsilon := rfl, depression := rfl, error_mode := rfl,
    defaults := rfl, pshape := hps, pdtype := hpd, rshape := hrs.trans hwf.res_shape.symm,
    rdtype := hrd.trans hwf.res_dtype.symm, ishape := hi4, idtype := hi3
    akeys := hc3 fun n hn => hn
    ukeys := hc4 fun n hn => (hwf.upd_iff n).2 hn
    cleared := fun n hn => (hc1 n hn).choose_spec.2.2
    cell := ?_, tree := ?_ }
  · intro b p r n x hp hr hn hx
    simp only
    obtain ⟨-, e2, e3⟩ := hcell b _ p r (at?_clip_eq h hdt.2.1 hx) hp hr
    refine ⟨e3, e2, ?_⟩
    rw [hi5 hhb b, at?_haltedBatches _ hwf.floating]
    simp only [probabilities, iterations, hp, hn, Option.map_some, Option.bind_eq_bind,
      Option.bind_some, Tensor.at?_addOne, Spec.step]
    rw [← DType.withInt_eq_self_iff.2 hwf.it_dtype]
    simp only [Tensor.convS_self]
    split <;> rfl
  · intro n a ha
    have hn : n ∈ s.accumulators.keys := Dict.mem_keys_iff.2 ⟨a, ha⟩
    obtain ⟨t, ht, hta, -⟩ := hc1 n hn
    obtain ⟨ta, tu, h1, h2, h3, h4⟩ := commitOne_ok _ _ ht
    have h1' : s.accumulators.get? n = some ta := h1
    rw [ha] at h1'
    cases h1'
    obtain ⟨m1, m2, m3, m4, m5⟩ := mergePytrees_ok h4
    refine ⟨tu, t, h2, hta, h3, m1.symm, m2, m3, fun k l hl => ?_⟩
    obtain ⟨tl, rfl, hlf, hlb⟩ := hwf.batched n a ha l (List.mem_of_getElem? hl)
    have hk : k < tu.treeLeaves.length := by
      rw [← m1]; exact (List.getElem?_eq_some_iff.1 hl).1
    have hk' := List.getElem?_eq_getElem hk
    obtain ⟨z, hz, hz'⟩ := m5 k _ _ hl hk'
    obtain ⟨tul, e1, e2, e3⟩ := updateAccumulator_ok _ _ _ _ _ hhs hhd hlb hz
    rw [e1] at hz hk'
    obtain ⟨ta', f1, f2, f3, f4⟩ := updateAccumulator_spec (⟨s⟩ : Controller α) tl tul hh
      hwf.floating hhs hhd hlb e2 e3
    rw [f1] at hz
    cases hz
    refine ⟨tl, tul, ta', rfl, hk', hz', e2, e3, f2, f3, ?_⟩
    intro i a u p x ha hu hp hx
    obtain ⟨rr, hrr⟩ := at?_some_of_shape (b := s.residuals) hwf.res_shape hp
    obtain ⟨g1, -, -⟩ := hcell _ _ p rr (at?_clip_eq h hdt.2.1 hx) hp hrr
    exact f4 i a u _ p ha hu g1 hp

/-- Exact success condition. -/
theorem iterateAct_of {s : ACTStates α} (hwf : s.WF) {h : Tensor α}
    (hs : h.shape = s.probabilities.shape) (hd : h.dtype.withFloat = s.probabilities.dtype)
    (hu : ∀ n a u, s.accumulators.get? n = some a → s.updates.get? n = some u → u.isNone = false ∧
      u.treeLeaves.length = a.treeLeaves.length ∧
      ∀ (k : Nat) (la : Leaf α) lu, a.treeLeaves[k]? = some la → u.treeLeaves[k]? = some lu →
        ∃ ta tu, la = .tensor ta ∧ lu = .tensor tu ∧ tu.shape = ta.shape ∧
        DType.promote ta.dtype (DType.promote s.probabilities.dtype tu.dtype) = ta.dtype) :
    ∃ c', iterateAct ⟨s⟩ h = .ok c' := by
  obtain ⟨hh, r, p, hpp, hhs, hhd, hrs, hrd, hps, hpd, hcell⟩ := processProbabilities_of (⟨s⟩ : Controller α)
    h.clip01 hwf.floating hwf.res_shape hwf.res_dtype (by rw [Tensor.clip01_shape]; exact hs)
    (by rw [Tensor.clip01_dtype]; exact hd)
  obtain ⟨⟨acc, upd⟩, hcl⟩ := commitLoop_of (⟨s⟩ : Controller α) hh s.accumulators.keys s.accumulators
    s.updates hwf.acc_keys (by
      intro n hn
      obtain ⟨a, ha⟩ := Dict.mem_keys_iff.1 hn
      obtain ⟨u, hu'⟩ := Dict.mem_keys_iff.1 ((hwf.upd_iff n).2 hn)
      obtain ⟨h1, h2, h3⟩ := hu n a u ha hu'
      unfold commitOne
      rw [Dict.getItem_ok.2 ha, Dict.getItem_ok.2 hu', ok_bind, ok_bind, h1]
      simp only [Bool.false_eq_true, if_false]
      refine mergePytrees_of h2.symm fun k la lu hla hlu => ?_
      obtain ⟨ta, tu, rfl, rfl, e2, e3⟩ := h3 k la lu hla hlu
      obtain ⟨ta'', e, -, hb⟩ := hwf.batched n a ha _ (List.mem_of_getElem? hla)
      cases e
      obtain ⟨ta', f1, -⟩ := updateAccumulator_spec (⟨s⟩ : Controller α) ta tu hh
        hwf.floating hhs hhd hb e2 e3
      exact ⟨_, f1⟩)
  obtain ⟨it, hit⟩ := Tensor.select_of (p := haltedBatches ⟨s⟩) (a := s.iterations)
    (b := s.iterations.addOne) (by simp) (by simpa using DType.withInt_eq_self_iff.2 hwf.it_dtype)
    (by rw [haltedBatches_shape]; exact hwf.it_shape.symm)
  unfold iterateAct
  rw [if_neg (by rw [not_not]; exact hs)]
  simp only
  rw [hpp, ok_bind]
  simp only [accumulators, iterations]
  rw [hcl, ok_bind]
  simp only
  rw [hit, ok_bind, ACTStates.replace_core, ok_bind]
  exact ⟨_, rfl⟩

/-- Which exceptions `iterate_act` can raise. -/
theorem iterateAct_error {s : ACTStates α} (hwf : s.WF) {h : Tensor α} {e : Err}
    (err : iterateAct ⟨s⟩ h = .error e) :
    (h.shape ≠ s.probabilities.shape ∧ e = .valueError) ∨
    (h.shape = s.probabilities.shape ∧ h.dtype.withFloat ≠ s.probabilities.dtype ∧
      e = .typeError) ∨
    (h.shape = s.probabilities.shape ∧ h.dtype.withFloat = s.probabilities.dtype ∧
      e = .runtimeError) := by
  unfold iterateAct at err
  split at err
  · rename_i hs; cases err; exact .inl ⟨hs, rfl⟩
  rename_i hs
  rw [not_not] at hs
  right
  simp only at err
  by_cases hd : h.dtype.withFloat = s.probabilities.dtype
  · right
    refine ⟨hs, hd, ?_⟩
    obtain ⟨hh, r, p, hpp, -⟩ := processProbabilities_of (⟨s⟩ : Controller α)
      h.clip01 hwf.floating hwf.res_shape hwf.res_dtype (by rw [Tensor.clip01_shape]; exact hs)
      (by rw [Tensor.clip01_dtype]; exact hd)
    rw [hpp, ok_bind] at err
    simp only at err
    rcases bind_error.1 err with h1 | ⟨⟨acc, upd⟩, -, h1⟩
    · exact commitLoop_error _ _ _ _ _ h1
    · obtain ⟨it, hit⟩ := Tensor.select_of (p := haltedBatches ⟨s⟩) (a := s.iterations)
        (b := s.iterations.addOne) (by simp) (by simpa using DType.withInt_eq_self_iff.2 hwf.it_dtype)
        (by rw [haltedBatches_shape]; exact hwf.it_shape.symm)
      simp only [iterations] at h1
      rw [hit, ok_bind, ACTStates.replace_core, ok_bind] at h1
      cases h1
  · left
    refine ⟨hs, hd, ?_⟩
    rcases bind_error.1 err with h1 | ⟨x, h1, -⟩
    · exact processProbabilities_error _ _ (by rw [Tensor.clip01_shape]; exact hs) h1
    · have := processProbabilities_dtype _ _ h1
      simp only [Tensor.clip01_dtype, DType.withFloat_withFloat] at this
      exact absurd this.2.1 hd

/-- `iterate_act` preserves well-formedness. -/
theorem IterStep.wf {s s' : ACTStates α} {h : Tensor α} (hwf : s.WF) (st : IterStep s h s') :
    s'.WF where
  floating := by rw [st.pdtype]; exact hwf.floating
  res_shape := by rw [st.rshape, st.pshape]; exact hwf.res_shape
  res_dtype := by rw [st.rdtype, st.pdtype]; exact hwf.res_dtype
  it_shape := by rw [st.ishape, st.pshape]; exact hwf.it_shape
  it_dtype := by rw [st.idtype]; exact hwf.it_dtype
  acc_keys := by have := hwf.acc_keys; unfold Dict.WF at *; rw [st.akeys]; exact this
  def_keys := by rw [st.defaults]; exact hwf.def_keys
  upd_keys := by have := hwf.upd_keys; unfold Dict.WF at *; rw [st.ukeys]; exact this
  def_iff := by rw [st.defaults, st.akeys]; exact hwf.def_iff
  upd_iff := by rw [st.ukeys, st.akeys]; exact hwf.upd_iff
  batched := by
    intro n t' ht' l hl
    have hn : n ∈ s.accumulators.keys := by rw [← st.akeys]; exact Dict.mem_keys_iff.2 ⟨_, ht'⟩
    obtain ⟨a, ha⟩ := Dict.mem_keys_iff.1 hn
    obtain ⟨u, a', -, h2, h3⟩ := st.tree n a ha
    rw [ht'] at h2
    cases h2
    obtain ⟨k, hk⟩ := List.mem_iff_getElem?.1 hl
    have hlen : t'.treeLeaves.length = a.treeLeaves.length := by
      rw [← PyTree.treeStructure_leaves_length, h3.struct, PyTree.treeStructure_leaves_length]
    have hka : k < a.treeLeaves.length := by
      rw [← hlen]; exact (List.getElem?_eq_some_iff.1 hk).1
    obtain ⟨ta, tu, ta', e1, e2, e3, e4⟩ := h3.leaf k _ (List.getElem?_eq_getElem hka)
    rw [hk] at e3
    cases e3
    obtain ⟨ta2, e5, e6, e7⟩ := hwf.batched n a ha _ (List.getElem_mem hka)
    rw [e1] at e5
    cases e5
    refine ⟨ta', rfl, by rw [e4.dtype]; exact e6, by rw [st.pshape, e4.shape]; exact e7⟩
  same := by
    intro n t' u ht' hu
    have hn : n ∈ s.accumulators.keys := by rw [← st.akeys]; exact Dict.mem_keys_iff.2 ⟨_, ht'⟩
    obtain ⟨a, ha⟩ := Dict.mem_keys_iff.1 hn
    obtain ⟨v, a', -, h2, h3⟩ := st.tree n a ha
    rw [ht'] at h2
    cases h2
    rw [st.defaults] at hu
    obtain ⟨h4, h5⟩ := hwf.same n a u ha hu
    refine ⟨h3.struct.trans h4, ?_⟩
    have hlen : t'.treeLeaves.length = a.treeLeaves.length := by
      rw [← PyTree.treeStructure_leaves_length, h3.struct, PyTree.treeStructure_leaves_length]
    rw [List.forall₂_iff_get] at h5 ⊢
    refine ⟨hlen.trans h5.1, fun k hk1 hk2 => ?_⟩
    have hka : k < a.treeLeaves.length := hlen ▸ hk1
    obtain ⟨x, y, e1, e2, e3, e4⟩ := h5.2 k hka hk2
    obtain ⟨ta, tu, ta', f1, f2, f3, f4⟩ := h3.leaf k _ (List.getElem?_eq_getElem hka)
    simp only [List.get_eq_getElem] at *
    rw [f1] at e1
    cases e1
    refine ⟨ta', y, ?_, e2, by rw [f4.shape]; exact e3, by rw [f4.dtype]; exact e4⟩
    rw [List.getElem?_eq_getElem hk1] at f3
    exact Option.some.inj f3

end Controller
end JaxAct
