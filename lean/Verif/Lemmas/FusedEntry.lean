import Verif.Lemmas.Fused
import Verif.Lemmas.Entry

/-! # The entries after an iteration with contracted sums -/

namespace JaxAct
variable {α : Type} [Arith α]

/-- One entry of an accumulator of dtype `dA` that receives the update entry `u` of dtype `dU`, the sum
contracted if no conversion is needed. -/
def Spec.accFused (fma : DType → α → α → α → α) (d dA dU : DType) (eps dep p h a u : α) : α :=
  if isHalted d eps p then a
  else
    let dM := DType.promote d dU
    let w := convS d dM (weight d eps dep p h)
    let y := convS dU dM u
    if dM = dA then fma dA w y a
    else Arith.add dA a (convS dM dA (Arith.mul dM w y))

/-- The entries of a contracted sum. -/
theorem fusedSum_at {fma : DType → α → α → α → α} {ta hx tu nw : Tensor α} (h : fusedSum fma ta hx tu = .ok nw)
    (hdt : DType.promote ta.dtype (DType.promote hx.dtype tu.dtype) = ta.dtype)
    (hb : Arr.bshape hx.shape tu.shape = some ta.shape) {i : List Nat} {a w u : α} (hi : InB ta.shape i)
    (ha : ta.at? i = some a) (hw : hx.at? (Arr.bIdx hx.shape i) = some w)
    (hu : tu.at? (Arr.bIdx tu.shape i) = some u) :
    nw.at? i = some (
      let dM := DType.promote hx.dtype tu.dtype
      let w' := convS hx.dtype dM w
      let u' := convS tu.dtype dM u
      if dM = ta.dtype then fma ta.dtype w' u' a
      else Arith.add ta.dtype a (convS dM ta.dtype (Arith.mul dM w' u'))) := by
  unfold fusedSum at h
  simp only at h ⊢
  split at h
  · rename_i hd
    have e : DType.promote hx.dtype tu.dtype = ta.dtype := by rw [← hd]; exact hdt
    rw [if_pos e]
    simp only [e] at h ⊢
    split at h
    · cases h
    · rename_i xy h1
      have s1 := Arr.bmap2_shape h1
      have s1' : xy.shape = ta.shape := by
        have : Arr.bshape hx.shape tu.shape = some xy.shape := by simpa using s1
        rw [hb] at this; exact (Option.some.inj this).symm
      split at h
      · cases h
      · rename_i r h2
        cases h
        have s2 := Arr.bmap2_shape h2
        have s2' : r.shape = ta.shape := by
          have : Arr.bshape ta.shape xy.shape = some r.shape := by simpa using s2
          rw [s1'] at this; simpa using this.symm
        have e1 := Arr.at?_bmap2 h1 (i := i) (by rw [s1']; exact hi)
        have e2 := Arr.at?_bmap2 h2 (i := i) (by rw [s2']; exact hi)
        show r.at? i = _
        simp only [Tensor.at?] at ha hw hu
        simp only [Tensor.conv_arr_shape, Tensor.at?_conv] at e1 e2
        rw [hw, hu] at e1
        simp only [Option.map_some, Option.bind_eq_bind, Option.bind_some, Option.pure_def] at e1
        have b1 : Arr.bIdx ta.arr.shape i = i := Arr.bIdx_self hi
        have b2 : Arr.bIdx xy.shape i = i := by rw [s1']; exact Arr.bIdx_self hi
        rw [b1, b2, ha, e1] at e2
        simp only [Option.map_some, Option.bind_eq_bind, Option.bind_some, Option.pure_def,
          Tensor.convS_self] at e2
        exact e2
  · rename_i hd
    have e : ¬ DType.promote hx.dtype tu.dtype = ta.dtype := by
      intro e; rw [e, DType.promote_self] at hd; exact hd rfl
    rw [if_neg e]
    rw [bind_ok] at h
    obtain ⟨m, h1, h2⟩ := h
    obtain ⟨d1, s1, a1⟩ := Tensor.binop_ok h1
    obtain ⟨d2, s2, a2⟩ := Tensor.binop_ok h2
    have s1' : m.shape = ta.shape := by rw [hb] at s1; exact (Option.some.inj s1).symm
    have s2' : nw.shape = ta.shape := by rw [s1'] at s2; simpa using s2.symm
    have e1 := a1 i (by rw [s1']; exact hi)
    have e2 := a2 i (by rw [s2']; exact hi)
    rw [hw, hu] at e1
    simp only [Option.bind_eq_bind, Option.bind_some, Option.pure_def] at e1
    rw [s1', Arr.bIdx_self hi, ha, e1] at e2
    simp only [Option.bind_eq_bind, Option.bind_some, Option.pure_def] at e2
    rw [e2, d2, d1, hdt, Tensor.convS_self]

namespace Controller
open Utils ACTStates

theorem commitOneFused_congr (fma : DType → α → α → α → α) (c : Controller α) (hh : Tensor α) {a a' u u' : Dict (PyTree (Leaf α))}
    {n : String} (ha : a.get? n = a'.get? n) (hu : u.get? n = u'.get? n) :
    c.commitOneFused fma hh a u n = c.commitOneFused fma hh a' u' n := by
  unfold commitOneFused Dict.getItem
  rw [ha, hu]

theorem commitLoopFused_ok (fma : DType → α → α → α → α) (c : Controller α) (hh : Tensor α) : ∀ (names : List String)
    (a u a' u' : Dict (PyTree (Leaf α))), names.Nodup →
    c.commitLoopFused fma hh names a u = .ok (a', u') →
    (∀ n ∈ names, ∃ t, c.commitOneFused fma hh a u n = .ok t ∧ a'.get? n = some t ∧
      u'.get? n = some .none) ∧
    (∀ n, n ∉ names → a'.get? n = a.get? n ∧ u'.get? n = u.get? n) ∧
    ((∀ n ∈ names, n ∈ a.keys) → a'.keys = a.keys) ∧
    ((∀ n ∈ names, n ∈ u.keys) → u'.keys = u.keys)
  | [], a, u, a', u', _, h => by
    simp only [commitLoopFused, Except.ok.injEq, Prod.mk.injEq] at h
    obtain ⟨rfl, rfl⟩ := h
    exact ⟨by simp, fun n _ => ⟨rfl, rfl⟩, fun _ => rfl, fun _ => rfl⟩
  | n :: names, a, u, a', u', hnd, h => by
    rw [List.nodup_cons] at hnd
    simp only [commitLoopFused] at h
    split at h
    · cases h
    · rename_i t ht
      rw [wrapRuntime_ok] at ht
      obtain ⟨h1, h2, h3, h4⟩ := commitLoopFused_ok fma c hh names _ _ a' u' hnd.2 h
      refine ⟨?_, ?_, ?_, ?_⟩
      · intro m hm
        rcases List.mem_cons.1 hm with rfl | hm
        · refine ⟨t, ht, ?_, ?_⟩
          · rw [(h2 m hnd.1).1]; simp
          · rw [(h2 m hnd.1).2]; simp
        · obtain ⟨t', ht', h5⟩ := h1 m hm
          have hne : n ≠ m := by rintro rfl; exact hnd.1 hm
          rw [commitOneFused_congr fma c hh (a' := a) (u' := u) (Dict.get?_set_ne _ hne _)
            (Dict.get?_set_ne _ hne _)] at ht'
          exact ⟨t', ht', h5⟩
      · intro m hm
        simp only [List.mem_cons, not_or] at hm
        rw [(h2 m hm.2).1, (h2 m hm.2).2, Dict.get?_set_ne _ (Ne.symm hm.1),
          Dict.get?_set_ne _ (Ne.symm hm.1)]
        exact ⟨rfl, rfl⟩
      · intro hk
        have hn := hk n (by simp)
        rw [h3 (fun m hm => by rw [Dict.keys_set_of_mem hn]; exact hk m (by simp [hm])),
          Dict.keys_set_of_mem hn]
      · intro hk
        have hn := hk n (by simp)
        rw [h4 (fun m hm => by rw [Dict.keys_set_of_mem hn]; exact hk m (by simp [hm])),
          Dict.keys_set_of_mem hn]

theorem commitOneFused_ok (fma : DType → α → α → α → α) (c : Controller α) (hh : Tensor α) {a u : Dict (PyTree (Leaf α))} {n : String}
    {t : PyTree (Leaf α)} (h : c.commitOneFused fma hh a u n = .ok t) :
    ∃ ta tu, a.get? n = some ta ∧ u.get? n = some tu ∧ tu.isNone = false ∧
      mergePytrees (fun x y => c.updateFused fma x y hh) ta tu = .ok t := by
  unfold commitOneFused at h
  simp only [bind_ok, Dict.getItem_ok] at h
  obtain ⟨ta, h1, tu, h2, h3⟩ := h
  split at h3
  · cases h3
  · rename_i hn
    exact ⟨ta, tu, h1, h2, by simpa using hn, h3⟩


/-- `_update_accumulator` with a contracted sum on a leaf whose shape starts with the batch shape. -/
theorem updateFused_at (fma : DType → α → α → α → α) (c : Controller α) (ta tu : Tensor α) (hh : Tensor α)
    (hf : c.probabilities.dtype.isFloating = true)
    (hs : hh.shape = c.probabilities.shape) (hd : hh.dtype = c.probabilities.dtype)
    (hb : c.probabilities.shape <+: ta.shape) (hsu : tu.shape = ta.shape)
    (hdt : DType.promote ta.dtype (DType.promote c.probabilities.dtype tu.dtype) = ta.dtype) {l' : Leaf α}
    (ok : c.updateFused fma (.tensor ta) (.tensor tu) hh = .ok l') :
    ∃ ta', l' = .tensor ta' ∧
      ∀ i a u w q, ta.at? i = some a → tu.at? i = some u →
        hh.at? (i.take c.probabilities.shape.length) = some w →
        c.probabilities.at? (i.take c.probabilities.shape.length) = some q →
        let dM := DType.promote c.probabilities.dtype tu.dtype
        let w' := convS c.probabilities.dtype dM w
        let u' := convS tu.dtype dM u
        ta'.at? i = some (if Spec.isHalted c.probabilities.dtype c.state.epsilon q then a else
          if dM = ta.dtype then fma ta.dtype w' u' a
          else Arith.add ta.dtype a (convS dM ta.dtype (Arith.mul dM w' u'))) := by
  obtain ⟨r, hr⟩ := hb
  obtain ⟨hx, h1, h1d, h1b, h1a⟩ := setupLeftBroadcastT_prefix hh r
  rw [hs, hr] at h1 h1b h1a
  obtain ⟨m, h2, h2b, h2a⟩ := setupLeftBroadcast_prefix c.haltedBatches r
  rw [haltedBatches_shape, hr] at h2 h2b h2a
  obtain ⟨m', h3⟩ := Arr.broadcastTo_of h2b
  obtain ⟨-, h3s, h3a⟩ := Arr.broadcastTo_ok h3
  have hbs : Arr.bshape hx.shape tu.shape = some ta.shape := by rw [hsu]; exact h1b
  unfold updateFused at ok
  simp only [Leaf.asTensor, ok_bind] at ok
  rw [if_neg (by rw [hsu]; simp)] at ok
  simp only [h1, h2, h3, ok_bind, bind_ok] at ok
  obtain ⟨nw, h5, res, h6, h7⟩ := ok
  cases h7
  refine ⟨res, rfl, fun i a u w q ha hu hw hq => ?_⟩
  simp only
  have hi : InB ta.shape i := (Arr.at?_isSome (a := ta.arr)).1 (by rw [← Tensor.at?, ha]; rfl)
  have e1 := h1a i hi
  rw [hw] at e1
  have e2 := h2a i hi
  rw [at?_haltedBatches c hf, hq] at e2
  have e3 := h3a i hi
  rw [e2] at e3
  have e5 := fusedSum_at h5 (by rw [h1d, hd]; exact hdt) hbs hi ha e1
    (by rw [hsu, Arr.bIdx_self hi]; exact hu)
  rw [h1d, hd] at e5
  obtain ⟨-, -, h6d, h6s, -, h6a⟩ := Tensor.select_ok h6
  have e6 := h6a h3s i
  rw [e3, ha, e5] at e6
  simp only [Option.map_some, Option.bind_eq_bind, Option.bind_some] at e6
  rw [e6]
  split <;> rfl

/-- The entries after an iteration with contracted sums, next to those after `iterate_act`. -/
theorem iterateFusedSums_entry {fma : DType → α → α → α → α} {s : ACTStates α} (hwf : s.WF) {h : Tensor α}
    {c' : Controller α} (ok : iterateFusedSums fma ⟨s⟩ h = .ok c') {n : String} {k : Nat} {i : List Nat} {a : α}
    (ha : entry? s.accumulators n k i = some a) :
    ∃ d' u p x dA dU, iterateAct ⟨s⟩ h = .ok d' ∧ dA.isFloating = true ∧ entry? s.updates n k i = some u ∧
      s.probabilities.at? (i.take s.probabilities.shape.length) = some p ∧
      h.at? (i.take s.probabilities.shape.length) = some x ∧
      entry? d'.state.accumulators n k i = some (Spec.accStep s.probabilities.dtype dA dU s.epsilon
        s.depression_constant p (convS h.dtype s.probabilities.dtype x) a u) ∧
      entry? c'.state.accumulators n k i = some (Spec.accFused fma s.probabilities.dtype dA dU s.epsilon
        s.depression_constant p (convS h.dtype s.probabilities.dtype x) a u) := by
  have hrel := Alike.iterate fma (Alike.refl ⟨s⟩) h
  rw [ok] at hrel
  cases hx : iterateAct ⟨s⟩ h with
  | error e => rw [hx] at hrel; cases hrel
  | ok d' =>
  have st := iterateAct_ok hwf hx
  obtain ⟨p, hp⟩ := hwf.prob_of_entry ha
  obtain ⟨x, hxx⟩ := Controller.at?_some_of_shape (b := h) st.hshape hp
  obtain ⟨l, h1, h2⟩ := entry?_eq_some.1 ha
  obtain ⟨t, h3, h4⟩ := leaf?_eq_some.1 h1
  obtain ⟨u, a', e1, e2, e3⟩ := st.tree n t h3
  obtain ⟨ta, tu, ta', f1, f2, f3, f4⟩ := e3.leaf k l h4
  subst f1
  obtain ⟨tl, htl, hlf, hlb⟩ := hwf.batched n t h3 _ (List.mem_of_getElem? h4)
  cases htl
  obtain ⟨y, hy⟩ := Controller.at?_some_of_shape (b := tu) f4.ushape (show ta.at? i = some a from h2)
  have := f4.entry i a y p x h2 hy hp hxx
  refine ⟨d', y, p, x, ta.dtype, tu.dtype, rfl, hlf,
    entry?_eq_some.2 ⟨_, leaf?_eq_some.2 ⟨u, e1, f2⟩, hy⟩, hp, hxx,
    entry?_eq_some.2 ⟨_, leaf?_eq_some.2 ⟨a', e2, f3⟩, this⟩, ?_⟩
  unfold iterateFusedSums at ok
  rw [if_neg (by rw [not_not]; exact st.hshape)] at ok
  simp only [bind_ok, ACTStates.replace_core, Option.getD_some, Option.getD_none] at ok
  obtain ⟨⟨hh, r, pp⟩, hpp, ⟨acc, upd⟩, hcl, it, hit, st', hst, hc⟩ := ok
  simp only at hcl hst hpp
  cases hst
  cases hc
  obtain ⟨hh', r', p', hpp', hhs, hhd, -, -, -, -, hcell⟩ := processProbabilities_of (⟨s⟩ : Controller α)
    h.clip01 hwf.floating hwf.res_shape hwf.res_dtype (by rw [Tensor.clip01_shape]; exact st.hshape)
    (by rw [Tensor.clip01_dtype]; exact st.hdtype)
  rw [hpp'] at hpp
  cases hpp
  obtain ⟨hc1, -, -, -⟩ := commitLoopFused_ok fma _ _ _ _ _ _ _ hwf.acc_keys hcl
  obtain ⟨t', ht', hta, -⟩ := hc1 n (Dict.mem_keys_iff.2 ⟨t, h3⟩)
  obtain ⟨ta0, tu0, g1, g2, -, g4⟩ := commitOneFused_ok fma _ _ ht'
  have g1' : s.accumulators.get? n = some ta0 := g1
  have g2' : s.updates.get? n = some tu0 := g2
  rw [h3] at g1'
  rw [e1] at g2'
  cases g1'
  cases g2'
  obtain ⟨-, -, -, -, m5⟩ := mergePytrees_ok g4
  obtain ⟨z, hz, hz'⟩ := m5 k _ _ h4 f2
  obtain ⟨tb, rfl, hat⟩ := updateFused_at fma (⟨s⟩ : Controller α) ta tu hh hwf.floating hhs hhd hlb f4.ushape
    f4.dtypes hz
  obtain ⟨rr, hrr⟩ := at?_some_of_shape (b := s.residuals) hwf.res_shape hp
  obtain ⟨w1, -, -⟩ := hcell _ _ p rr (at?_clip_eq h st.hdtype hxx) hp hrr
  exact entry?_eq_some.2 ⟨_, leaf?_eq_some.2 ⟨t', hta, hz'⟩, hat i a y _ p h2 hy w1 hp⟩

end Controller
end JaxAct
