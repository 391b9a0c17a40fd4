import Verif.Lemmas.Iterate
import Verif.Spec.Reset

/-! # The refinement theorem for `reset_batches` -/

namespace JaxAct
variable {α : Type} [Arith α]

/-- One reset leaf. -/
structure LeafReset (s : ACTStates α) (ta td ta' : Tensor α) : Prop where
  shape : ta'.shape = ta.shape
  dtype : ta'.dtype = ta.dtype
  entry : ∀ i a x p, ta.at? i = some a → td.at? i = some x →
    s.probabilities.at? (i.take s.probabilities.shape.length) = some p →
    ta'.at? i = some (Spec.resetEntry s.probabilities.dtype s.epsilon p a x)

/-- The relation between the state before and after a successful `reset_batches`. -/
structure ResetStep (s s' : ACTStates α) : Prop where
  idle : ∀ n u, s.updates.get? n = some u → u.isNone = true
  epsilon : s'.epsilon = s.epsilon
  depression : s'.depression_constant = s.depression_constant
  error_mode : s'.error_mode = s.error_mode
  defaults : s'.defaults = s.defaults
  updates : s'.updates = s.updates
  pshape : s'.probabilities.shape = s.probabilities.shape
  pdtype : s'.probabilities.dtype = s.probabilities.dtype
  rshape : s'.residuals.shape = s.residuals.shape
  rdtype : s'.residuals.dtype = s.residuals.dtype
  ishape : s'.iterations.shape = s.iterations.shape
  idtype : s'.iterations.dtype = s.iterations.dtype
  akeys : s'.accumulators.keys = s.accumulators.keys
  cell : ∀ b p r n, s.probabilities.at? b = some p → s.residuals.at? b = some r →
    s.iterations.at? b = some n →
    let c := Spec.resetCell s.probabilities.dtype s.iterations.dtype s.epsilon ⟨p, r, n⟩
    s'.probabilities.at? b = some c.prob ∧ s'.residuals.at? b = some c.resid ∧
    s'.iterations.at? b = some c.iter
  tree : ∀ n a, s.accumulators.get? n = some a → ∃ d a', s.defaults.get? n = some d ∧
    s'.accumulators.get? n = some a' ∧ a'.treeStructure = a.treeStructure ∧ a'.canon = a' ∧
    ∀ (k : Nat) l, a.treeLeaves[k]? = some l → ∃ ta td ta', l = .tensor ta ∧
      d.treeLeaves[k]? = some (.tensor td) ∧ a'.treeLeaves[k]? = some (.tensor ta') ∧
      LeafReset s ta td ta'

namespace Controller
open Utils

theorem any_pending {V : Type} {p : V → Bool} {d : Dict V} (hd : d.WF) :
    (d.any fun kv => !p kv.2) = false ↔ ∀ n u, d.get? n = some u → p u = true := by
  constructor
  · intro h n u hu
    by_contra hp
    have : (d.any fun kv => !p kv.2) = true :=
      List.any_eq_true.2 ⟨(n, u), Dict.mem_of_get? hu, by simpa using hp⟩
    rw [this] at h; cases h
  · intro h
    rw [Bool.eq_false_iff]
    intro h'
    obtain ⟨⟨n, u⟩, hm, hu⟩ := List.any_eq_true.1 h'
    have := h n u (Dict.get?_of_mem hd hm)
    simp [this] at hu

/-- Multiplication by a mask of the same shape. -/
theorem mul_mask {t : Tensor α} {m : Arr Bool} (hs : m.shape = t.shape) :
    ∃ r, Tensor.binop Arith.mul t (Tensor.ofMask m) = .ok r ∧ r.shape = t.shape ∧
      r.dtype = t.dtype ∧
      ∀ b x c, t.at? b = some x → m.at? b = some c → r.at? b = some (Spec.keepIf t.dtype c x) := by
  obtain ⟨r, h1, h2, h3, h4⟩ := Tensor.binop_same (op := Arith.mul) (a := t)
    (b := Tensor.ofMask m) (by rw [Tensor.ofMask_shape, hs])
  have h2' : r.dtype = t.dtype := by rw [h2]; simp
  refine ⟨r, h1, h3, h2', fun b x c hx hc => ?_⟩
  rw [h4 b, hx, Tensor.at?_ofMask, hc, h2']
  simp [Spec.keepIf]

omit [Arith α] in
/-- `update_func` of `reset_batches` when the selector has no axes or is set up against a shape
starting with its own. -/
theorem resetLeaf_spec {m : Arr Bool} {tree : PyTree (Leaf α)} {ta td : Tensor α}
    (htree : tree = .leaf (.tensor ta) ∨ m.shape = [])
    (hb : m.shape <+: ta.shape) (hs : td.shape = ta.shape) (hd : td.dtype = ta.dtype) :
    ∃ r, resetLeaf m tree (.tensor ta) (.tensor td) = .ok (.tensor r) ∧ r.shape = ta.shape ∧
      r.dtype = ta.dtype ∧
      ∀ i a x c, ta.at? i = some a → td.at? i = some x → m.at? (i.take m.shape.length) = some c →
        r.at? i = some (if c then a else x) := by
  obtain ⟨rest, hr⟩ := hb
  have key : ∃ m1, setupLeftBroadcast m (treeShape tree) = .ok m1 ∧
      Arr.BTo m1.shape ta.shape ∧
      ∀ i, InB ta.shape i → m1.at? (Arr.bIdx m1.shape i) = m.at? (i.take m.shape.length) := by
    rcases htree with rfl | h0
    · obtain ⟨m1, h1, h2, h3⟩ := setupLeftBroadcast_prefix m rest
      rw [hr] at h1 h2 h3
      exact ⟨m1, h1, h2, h3⟩
    · refine ⟨m, ?_, ?_, fun i hi => ?_⟩
      · unfold setupLeftBroadcast
        rw [if_pos (by simp [Arr.ndim, h0])]
      · rw [h0]; exact Arr.bTo_nil _
      · rw [h0, Arr.bIdx_nil]; simp
  obtain ⟨m1, h1, h2, h3⟩ := key
  obtain ⟨m2, h4⟩ := Arr.broadcastTo_of h2
  obtain ⟨-, h5, h6⟩ := Arr.broadcastTo_ok h4
  obtain ⟨r, h7⟩ := Tensor.select_of (p := m2) (a := ta) (b := td) hs.symm hd.symm h5
  obtain ⟨-, -, h8, h9, -, h10⟩ := Tensor.select_ok h7
  refine ⟨r, ?_, h9, h8, ?_⟩
  · unfold resetLeaf
    simp only [Leaf.asTensor]
    rw [h1, ok_bind, ok_bind, h4, ok_bind, ok_bind, h7, ok_bind]
    rfl
  · intro i a x c ha hx hc
    have hi : InB ta.shape i := (Arr.at?_isSome (a := ta.arr)).1 (by rw [← Tensor.at?, ha]; rfl)
    have := h10 h5 i
    rw [h6 i hi, h3 i hi, hc, ha, hx] at this
    rw [this]
    simp only [Option.bind_eq_bind, Option.bind_some]
    split <;> rfl

omit [Arith α] in
theorem resetLeaf_error_container {m : Arr Bool} {tree : PyTree (Leaf α)} {a d : Leaf α}
    (hm : m.shape ≠ []) (ht : treeShape tree = none) :
    resetLeaf m tree a d = .error .attributeError := by
  unfold resetLeaf setupLeftBroadcast
  rw [if_neg (by simpa [Arr.ndim] using hm), ht]
  rfl

/-! ### The loop -/

omit [Arith α] in
theorem resetLoop_ok (m : Arr Bool) (defs : Dict (PyTree (Leaf α))) :
    ∀ (l out r : Dict (PyTree (Leaf α))), (out.keys ++ Dict.keys l).Nodup →
      resetLoop m defs l out = .ok r →
      r.keys = out.keys ++ Dict.keys l ∧
      (∀ n, n ∉ Dict.keys l → r.get? n = out.get? n) ∧
      ∀ n a, (n, a) ∈ l → ∃ d t, defs.get? n = some d ∧
        mergePytrees (resetLeaf m a) a d = .ok t ∧ r.get? n = some t
  | [], out, r, _, h => by
    simp only [resetLoop] at h; cases h
    simp [Dict.keys]
  | (n, a) :: l, out, r, hnd, h => by
    simp only [resetLoop, bind_ok, Dict.getItem_ok] at h
    obtain ⟨d, hd, t, ht, h⟩ := h
    have hk : Dict.keys ((n, a) :: l) = n :: Dict.keys l := rfl
    rw [hk] at hnd ⊢
    have hno : n ∉ out.keys := fun hm => (List.disjoint_of_nodup_append hnd) hm (by simp)
    have hnl : n ∉ Dict.keys l := (List.nodup_cons.1 (List.nodup_append.1 hnd).2.1).1
    have hks := Dict.keys_set_of_not_mem hno t
    obtain ⟨h1, h2, h3⟩ := resetLoop_ok m defs l (Dict.set out n t) r
      (by rw [hks, List.append_assoc]; exact hnd) h
    refine ⟨by rw [h1, hks, List.append_assoc]; rfl, ?_, ?_⟩
    · intro n' hn'
      simp only [List.mem_cons, not_or] at hn'
      rw [h2 n' hn'.2, Dict.get?_set_ne _ (Ne.symm hn'.1)]
    · intro n' a' hm
      rcases List.mem_cons.1 hm with e | hm
      · cases e
        exact ⟨d, t, hd, ht, by rw [h2 n hnl]; simp⟩
      · exact h3 n' a' hm

omit [Arith α] in
theorem resetLoop_of (m : Arr Bool) (defs : Dict (PyTree (Leaf α))) :
    ∀ (l out : Dict (PyTree (Leaf α))),
      (∀ n a, (n, a) ∈ l → ∃ d t, defs.get? n = some d ∧ mergePytrees (resetLeaf m a) a d = .ok t) →
      ∃ r, resetLoop m defs l out = .ok r
  | [], out, _ => ⟨out, rfl⟩
  | (n, a) :: l, out, h => by
    obtain ⟨d, t, hd, ht⟩ := h n a (by simp)
    obtain ⟨r, hr⟩ := resetLoop_of m defs l (Dict.set out n t) fun n' a' hm => h n' a' (by simp [hm])
    exact ⟨r, by simp only [resetLoop, Dict.getItem_ok.2 hd, ok_bind, ht, hr]⟩

omit [Arith α] in
theorem resetLoop_error (m : Arr Bool) (defs : Dict (PyTree (Leaf α))) {e : Err} :
    ∀ (l out : Dict (PyTree (Leaf α))), (∀ n, n ∈ Dict.keys l → n ∈ defs.keys) →
      resetLoop m defs l out = .error e →
      ∃ n a d, (n, a) ∈ l ∧ defs.get? n = some d ∧ mergePytrees (resetLeaf m a) a d = .error e
  | [], out, _, h => by cases h
  | (n, a) :: l, out, hk, h => by
    obtain ⟨d, hd⟩ := Dict.mem_keys_iff.1 (hk n (by simp [Dict.keys]))
    simp only [resetLoop, Dict.getItem_ok.2 hd, ok_bind, bind_error] at h
    rcases h with h | ⟨t, ht, h⟩
    · exact ⟨n, a, d, by simp, hd, h⟩
    · obtain ⟨n', a', d', h1, h2⟩ := resetLoop_error m defs l _
        (fun n' hn' => hk n' (by simp only [Dict.keys, List.map_cons, List.mem_cons] at *; exact .inr hn')) h
      exact ⟨n', a', d', by simp [h1], h2⟩

/-- What `reset_batches` can handle: bare tensors, trees without leaves, or any tree when the batch
shape is `()`. -/
def Resettable (batch : List Nat) (t : PyTree (Leaf α)) : Prop :=
  batch = [] ∨ t.treeLeaves = [] ∨ ∃ l, t = .leaf l

omit [Arith α] in
theorem treeShape_none_of {t : PyTree (Leaf α)} (h : ∀ l, t ≠ .leaf l) : treeShape t = none := by
  cases t with
  | leaf l => exact absurd rfl (h l)
  | none => rfl
  | node k cs => rfl

omit [Arith α] in
/-- Merging one accumulator with its default. -/
theorem resetMerge_of {s : ACTStates α} (hwf : s.WF) {m : Arr Bool}
    (hm : m.shape = s.probabilities.shape) {n : String} {a d : PyTree (Leaf α)}
    (ha : s.accumulators.get? n = some a) (hd : s.defaults.get? n = some d)
    (hr : Resettable s.probabilities.shape a) :
    ∃ t, mergePytrees (resetLeaf m a) a d = .ok t := by
  obtain ⟨h1, h2⟩ := hwf.same n a d ha hd
  refine mergePytrees_of h2.length_eq fun k x y hx hy => ?_
  obtain ⟨hkx, hx'⟩ := List.getElem?_eq_some_iff.1 hx
  obtain ⟨hky, hy'⟩ := List.getElem?_eq_some_iff.1 hy
  obtain ⟨ta, td, e1, e2, e3, e4⟩ := (List.forall₂_iff_get.1 h2).2 k hkx hky
  simp only [List.get_eq_getElem] at e1 e2
  rw [hx'] at e1
  rw [hy'] at e2
  subst e1; subst e2
  obtain ⟨ta2, f1, f2, f3⟩ := hwf.batched n a ha _ (List.mem_of_getElem? hx)
  cases f1
  have htree : a = .leaf (.tensor ta) ∨ m.shape = [] := by
    rcases hr with h | h | ⟨l, rfl⟩
    · exact .inr (hm.trans h)
    · rw [h] at hx; simp at hx
    · left
      have : (PyTree.leaf l).treeLeaves = [l] := rfl
      rw [this] at hx
      have : k = 0 := by
        cases k with
        | zero => rfl
        | succ k => simp at hx
      subst this
      simp only [List.getElem?_cons_zero, Option.some.injEq] at hx
      rw [hx]
  obtain ⟨r, h, -⟩ := resetLeaf_spec (td := td) htree (by rw [hm]; exact f3) e3.symm e4.symm
  exact ⟨_, h⟩

omit [Arith α] in
/-- Merging fails with `AttributeError` outside the resettable cases. -/
theorem resetMerge_error {s : ACTStates α} (hwf : s.WF) {m : Arr Bool}
    (hm : m.shape = s.probabilities.shape) {n : String} {a d : PyTree (Leaf α)}
    (ha : s.accumulators.get? n = some a) (hd : s.defaults.get? n = some d)
    (hr : ¬ Resettable s.probabilities.shape a) :
    mergePytrees (resetLeaf m a) a d = .error .attributeError := by
  obtain ⟨h1, h2⟩ := hwf.same n a d ha hd
  simp only [Resettable, not_or, not_exists] at hr
  have hts := treeShape_none_of hr.2.2
  have hm' : m.shape ≠ [] := by rw [hm]; exact hr.1
  unfold mergePytrees
  simp only
  rw [if_neg (by simpa using h2.length_eq)]
  cases hla : a.treeLeaves with
  | nil => exact absurd hla hr.2.1
  | cons x xs =>
    cases hld : d.treeLeaves with
    | nil => have := h2.length_eq; rw [hla, hld] at this; simp at this
    | cons y ys =>
      simp only [mergeLoop, resetLeaf_error_container hm' hts, error_bind]

theorem resetBatches_ok {s : ACTStates α} (hwf : s.WF) {c' : Controller α}
    (ok : resetBatches ⟨s⟩ = .ok c') : ResetStep s c'.state := by
  unfold resetBatches at ok
  split at ok
  · cases ok
  rename_i hidle
  have hidle' : (s.updates.any fun kv => !kv.2.isNone) = false := by simpa using hidle
  rw [any_pending hwf.upd_keys] at hidle'
  set m := (haltedBatches ⟨s⟩).map (!·) with hmdef
  have hm : m.shape = s.probabilities.shape := haltedBatches_shape (⟨s⟩ : Controller α)
  have hma : ∀ b p, s.probabilities.at? b = some p →
      m.at? b = some (!Spec.isHalted s.probabilities.dtype s.epsilon p) := by
    intro b p hp
    rw [hmdef, Arr.at?_map, at?_haltedBatches _ hwf.floating]
    simp only [probabilities, hp]
    rfl
  obtain ⟨it, i1, i2, i3, i4⟩ := mul_mask (t := s.iterations) (m := m) (hm.trans hwf.it_shape.symm)
  obtain ⟨pr, p1, p2, p3, p4⟩ := mul_mask (t := s.probabilities) (m := m) hm
  obtain ⟨re, r1, r2, r3, r4⟩ := mul_mask (t := s.residuals) (m := m) (hm.trans hwf.res_shape.symm)
  simp only [iterations, probabilities, residuals, accumulators, i1, p1, r1, ok_bind, bind_ok,
    ACTStates.replace_core, Option.getD_some, Option.getD_none] at ok
  obtain ⟨acc, hacc, hc⟩ := ok
  cases hc
  obtain ⟨k1, -, k3⟩ := resetLoop_ok m s.defaults s.accumulators [] _ hwf.acc_keys hacc
  refine { idle := hidle', epsilon := rfl, depression := rfl, error_mode := rfl, defaults := rfl,
           updates := rfl, pshape := p2, pdtype := p3, rshape := r2, rdtype := r3,
           ishape := i2, idtype := i3, akeys := by simpa [Dict.keys] using k1,
           cell := ?_, tree := ?_ }
  · intro b p r n hp hr hn
    have := hma b p hp
    refine ⟨p4 _ _ _ hp this, ?_, i4 _ _ _ hn this⟩
    have h := r4 _ _ _ hr this
    rw [hwf.res_dtype] at h
    exact h
  · intro n a ha
    obtain ⟨d, t, hd, ht, hget⟩ := k3 n a (Dict.mem_of_get? ha)
    obtain ⟨m1, m2, m3, m4, m5⟩ := mergePytrees_ok ht
    refine ⟨d, t, hd, hget, m2, m3, fun k l hl => ?_⟩
    by_cases hr : Resettable s.probabilities.shape a
    swap
    · rw [resetMerge_error hwf hm ha hd hr] at ht; cases ht
    obtain ⟨h1, h2⟩ := hwf.same n a d ha hd
    obtain ⟨hkx, hx'⟩ := List.getElem?_eq_some_iff.1 hl
    have hky : k < d.treeLeaves.length := m1 ▸ hkx
    obtain ⟨ta, td, e1, e2, e3, e4⟩ := (List.forall₂_iff_get.1 h2).2 k hkx hky
    simp only [List.get_eq_getElem] at e1 e2
    rw [hx'] at e1
    subst e1
    obtain ⟨ta2, f1, f2, f3⟩ := hwf.batched n a ha _ (List.mem_of_getElem? hl)
    cases f1
    have hky' : d.treeLeaves[k]? = some (.tensor td) := by rw [List.getElem?_eq_getElem hky, e2]
    have htree : a = .leaf (.tensor ta) ∨ m.shape = [] := by
      rcases hr with h | h | ⟨l, rfl⟩
      · exact .inr (hm.trans h)
      · rw [h] at hl; simp at hl
      · left
        have : (PyTree.leaf l).treeLeaves = [l] := rfl
        rw [this] at hl
        have : k = 0 := by
          cases k with
          | zero => rfl
          | succ k => simp at hl
        subst this
        simp only [List.getElem?_cons_zero, Option.some.injEq] at hl
        rw [hl]
    obtain ⟨r, g1, g2, g3, g4⟩ := resetLeaf_spec (td := td) htree (by rw [hm]; exact f3) e3.symm
      e4.symm
    obtain ⟨z, hz, hz'⟩ := m5 k _ _ hl hky'
    rw [g1] at hz
    cases hz
    refine ⟨ta, td, r, rfl, hky', hz', g2, g3, ?_⟩
    intro i a x p hia hix hip
    rw [g4 i a x _ hia hix (by rw [hm]; exact hma _ _ hip)]
    unfold Spec.resetEntry
    cases Spec.isHalted s.probabilities.dtype s.epsilon p <;> rfl

/-- Exactly when `reset_batches` succeeds, and with what it fails. -/
theorem resetBatches_result {s : ACTStates α} (hwf : s.WF) :
    (∃ n u, s.updates.get? n = some u ∧ u.isNone = false) ∧
      resetBatches ⟨s⟩ = .error .runtimeError ∨
    (∀ n u, s.updates.get? n = some u → u.isNone = true) ∧
      ((∀ n a, s.accumulators.get? n = some a → Resettable s.probabilities.shape a) ∧
          (∃ c', resetBatches ⟨s⟩ = .ok c') ∨
       (∃ n a, s.accumulators.get? n = some a ∧ ¬ Resettable s.probabilities.shape a) ∧
          resetBatches ⟨s⟩ = .error .attributeError) := by
  by_cases hidle : (s.updates.any fun kv => !kv.2.isNone) = false
  · right
    refine ⟨(any_pending hwf.upd_keys).1 hidle, ?_⟩
    unfold resetBatches
    simp only
    rw [if_neg (by simpa using hidle)]
    set m := (haltedBatches ⟨s⟩).map (!·) with hmdef
    have hm : m.shape = s.probabilities.shape := haltedBatches_shape (⟨s⟩ : Controller α)
    obtain ⟨it, i1, -⟩ := mul_mask (t := s.iterations) (m := m) (hm.trans hwf.it_shape.symm)
    obtain ⟨pr, p1, -⟩ := mul_mask (t := s.probabilities) (m := m) hm
    obtain ⟨re, r1, -⟩ := mul_mask (t := s.residuals) (m := m) (hm.trans hwf.res_shape.symm)
    simp only [iterations, probabilities, residuals, accumulators, i1, p1, r1, ok_bind,
      ACTStates.replace_core]
    by_cases hall : ∀ n a, s.accumulators.get? n = some a → Resettable s.probabilities.shape a
    · left
      refine ⟨hall, ?_⟩
      obtain ⟨r, hr⟩ := resetLoop_of m s.defaults s.accumulators [] fun n a hna => by
        have ha := Dict.get?_of_mem hwf.acc_keys hna
        obtain ⟨d, hd⟩ := Dict.mem_keys_iff.1 ((hwf.def_iff n).2 (Dict.mem_keys_iff.2 ⟨a, ha⟩))
        obtain ⟨t, ht⟩ := resetMerge_of hwf hm ha hd (hall n a ha)
        exact ⟨d, t, hd, ht⟩
      rw [hr]
      exact ⟨_, rfl⟩
    · right
      simp only [not_forall] at hall
      obtain ⟨n, a, ha, hna⟩ := hall
      refine ⟨⟨n, a, ha, hna⟩, ?_⟩
      cases hloop : resetLoop m s.defaults s.accumulators [] with
      | ok r =>
        exfalso
        obtain ⟨-, -, k3⟩ := resetLoop_ok m s.defaults s.accumulators [] _ hwf.acc_keys hloop
        obtain ⟨d, t, hd, ht, -⟩ := k3 n a (Dict.mem_of_get? ha)
        rw [resetMerge_error hwf hm ha hd hna] at ht
        cases ht
      | error e =>
        obtain ⟨n', a', d', h1, h2, h3⟩ := resetLoop_error m _ _ _
          (fun n hn => (hwf.def_iff n).2 hn) hloop
        have ha' := Dict.get?_of_mem hwf.acc_keys h1
        by_cases hr : Resettable s.probabilities.shape a'
        · obtain ⟨t, ht⟩ := resetMerge_of hwf hm ha' h2 hr
          rw [ht] at h3; cases h3
        · rw [resetMerge_error hwf hm ha' h2 hr] at h3
          cases h3
          rfl
  · left
    have h := hidle
    rw [any_pending hwf.upd_keys] at h
    simp only [not_forall, Bool.not_eq_true] at h
    obtain ⟨n, u, hu, hn⟩ := h
    refine ⟨⟨n, u, hu, hn⟩, ?_⟩
    unfold resetBatches
    rw [if_pos (by simpa using hidle)]

theorem ResetStep.wf {s s' : ACTStates α} (hwf : s.WF) (st : ResetStep s s') : s'.WF where
  floating := by rw [st.pdtype]; exact hwf.floating
  res_shape := by rw [st.rshape, st.pshape]; exact hwf.res_shape
  res_dtype := by rw [st.rdtype, st.pdtype]; exact hwf.res_dtype
  it_shape := by rw [st.ishape, st.pshape]; exact hwf.it_shape
  it_dtype := by rw [st.idtype]; exact hwf.it_dtype
  acc_keys := by have := hwf.acc_keys; unfold Dict.WF at *; rw [st.akeys]; exact this
  def_keys := by rw [st.defaults]; exact hwf.def_keys
  upd_keys := by rw [st.updates]; exact hwf.upd_keys
  def_iff := by rw [st.defaults, st.akeys]; exact hwf.def_iff
  upd_iff := by rw [st.updates, st.akeys]; exact hwf.upd_iff
  batched := by
    intro n t' ht' l hl
    have hn : n ∈ s.accumulators.keys := by rw [← st.akeys]; exact Dict.mem_keys_iff.2 ⟨_, ht'⟩
    obtain ⟨a, ha⟩ := Dict.mem_keys_iff.1 hn
    obtain ⟨u, a', -, h2, h3, -, h4⟩ := st.tree n a ha
    rw [ht'] at h2
    cases h2
    obtain ⟨k, hk⟩ := List.mem_iff_getElem?.1 hl
    have hlen : t'.treeLeaves.length = a.treeLeaves.length := by
      rw [← PyTree.treeStructure_leaves_length, h3, PyTree.treeStructure_leaves_length]
    have hka : k < a.treeLeaves.length := by
      rw [← hlen]; exact (List.getElem?_eq_some_iff.1 hk).1
    obtain ⟨ta, tu, ta', e1, e2, e3, e4⟩ := h4 k _ (List.getElem?_eq_getElem hka)
    rw [hk] at e3
    cases e3
    obtain ⟨ta2, e5, e6, e7⟩ := hwf.batched n a ha _ (List.getElem_mem hka)
    rw [e1] at e5
    cases e5
    refine ⟨ta', rfl, by rw [e4.dtype]; exact e6, by rw [st.pshape, e4.shape]; exact e7⟩
  same := by
    intro n t' u ht' hu
    have hn : n ∈ s.accumulators.keys := by rw [← st.akeys]; exact Dict.mem_keys_iff.2 ⟨_, ht'⟩
    obtain ⟨a, ha⟩ := Dict.mem_keys_iff.1 hn
    obtain ⟨v, a', -, h2, h3, -, h6⟩ := st.tree n a ha
    rw [ht'] at h2
    cases h2
    rw [st.defaults] at hu
    obtain ⟨h4, h5⟩ := hwf.same n a u ha hu
    refine ⟨h3.trans h4, ?_⟩
    have hlen : t'.treeLeaves.length = a.treeLeaves.length := by
      rw [← PyTree.treeStructure_leaves_length, h3, PyTree.treeStructure_leaves_length]
    rw [List.forall₂_iff_get] at h5 ⊢
    refine ⟨hlen.trans h5.1, fun k hk1 hk2 => ?_⟩
    have hka : k < a.treeLeaves.length := hlen ▸ hk1
    obtain ⟨x, y, e1, e2, e3, e4⟩ := h5.2 k hka hk2
    obtain ⟨ta, tu, ta', f1, f2, f3, f4⟩ := h6 k _ (List.getElem?_eq_getElem hka)
    simp only [List.get_eq_getElem] at *
    rw [f1] at e1
    cases e1
    refine ⟨ta', y, ?_, e2, by rw [f4.shape]; exact e3, by rw [f4.dtype]; exact e4⟩
    rw [List.getElem?_eq_getElem hk1] at f3
    exact Option.some.inj f3

end Controller
end JaxAct
