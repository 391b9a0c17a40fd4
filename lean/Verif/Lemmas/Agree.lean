import Verif.Lemmas.Entry

/-!
# Two runs that agree at a batch element

The batch elements compared may have different indices, in controllers with different batch shapes.
-/

namespace JaxAct
open ACTStates
variable {α : Type}

/-- Two leaves are tensors of the same dtype, and the entries of the first under batch index `b` are
those of the second under `b'`. -/
def LeafAgree (b b' : List Nat) (l m : Leaf α) : Prop :=
  ∃ t u, l = .tensor t ∧ m = .tensor u ∧ t.dtype = u.dtype ∧ ∀ i, t.at? (b ++ i) = u.at? (b' ++ i)

/-- Two trees agree leaf by leaf, the first under `b`, the second under `b'`. -/
def TreeAgree (b b' : List Nat) (x y : PyTree (Leaf α)) : Prop :=
  List.Forall₂ (LeafAgree b b') x.treeLeaves y.treeLeaves

/-- Two dictionaries have the same names, with trees that agree under `b` and `b'`. -/
def DictAgree (b b' : List Nat) (d e : Dict (PyTree (Leaf α))) : Prop :=
  ∀ n, Option.Rel (TreeAgree b b') (d.get? n) (e.get? n)

/-- Everything observable about batch element `b` of the first state is the same for batch element
`b'` of the second. -/
structure AgreeAt (b b' : List Nat) (s t : ACTStates α) : Prop where
  epsilon : s.epsilon = t.epsilon
  depression : s.depression_constant = t.depression_constant
  pdtype : s.probabilities.dtype = t.probabilities.dtype
  idtype : s.iterations.dtype = t.iterations.dtype
  prob : s.probabilities.at? b = t.probabilities.at? b'
  resid : s.residuals.at? b = t.residuals.at? b'
  iter : s.iterations.at? b = t.iterations.at? b'
  acc : DictAgree b b' s.accumulators t.accumulators
  default : DictAgree b b' s.defaults t.defaults
  upd : DictAgree b b' s.updates t.updates

/-- Two calls pass the same things, the first for `b`, the second for `b'`. -/
inductive OpAgree (b b' : List Nat) : Op α → Op α → Prop
  | cache {n x y} (h : TreeAgree b b' x y) : OpAgree b b' (.cache n x) (.cache n y)
  | iterate {h g : Tensor α} (hd : h.dtype = g.dtype) (hv : h.at? b = g.at? b') :
      OpAgree b b' (.iterate h) (.iterate g)
  | reset : OpAgree b b' .reset .reset

theorem DictAgree.keys_iff {b b' : List Nat} {d e : Dict (PyTree (Leaf α))} (h : DictAgree b b' d e)
    (n : String) : n ∈ d.keys ↔ n ∈ e.keys := by
  rw [Dict.mem_keys_iff, Dict.mem_keys_iff]
  have := h n
  cases hd : d.get? n <;> cases he : e.get? n <;> simp_all

theorem length_of_at? {t : Tensor α} {b : List Nat} {p : α} (h : t.at? b = some p) :
    b.length = t.shape.length :=
  (Arr.at?_isSome.1 (by simp only [Tensor.at?] at h; rw [h]; rfl)).length

theorem at?_none_of_shape {t u : Tensor α} {i : List Nat} (hs : t.shape = u.shape)
    (h : u.at? i = none) : t.at? i = none := by
  by_contra hne
  obtain ⟨x, hx⟩ := Option.ne_none_iff_exists'.1 hne
  obtain ⟨y, hy⟩ := Controller.at?_some_of_shape (b := u) hs.symm hx
  rw [h] at hy; cases hy

variable [Arith α]

/-- `iterate_act` keeps the agreement. -/
theorem AgreeAt.iterateAct {s t : ACTStates α} (hs : s.WF) (ht : t.WF) {b b' : List Nat}
    {p : α} (hb : s.probabilities.at? b = some p) {h g : Tensor α} (hd : h.dtype = g.dtype)
    (hv : h.at? b = g.at? b') (hag : AgreeAt b b' s t) {c d : Controller α}
    (h1 : Controller.iterateAct ⟨s⟩ h = .ok c) (h2 : Controller.iterateAct ⟨t⟩ g = .ok d) :
    AgreeAt b b' c.state d.state := by
  have st := Controller.iterateAct_ok hs h1
  have st' := Controller.iterateAct_ok ht h2
  have hb' : t.probabilities.at? b' = some p := hag.prob ▸ hb
  obtain ⟨r, n, x, hr, hn, hx, c1, c2, c3⟩ := st.cellAt hs hb
  obtain ⟨r', n', x', hr', hn', hx', d1, d2, d3⟩ := st'.cellAt ht hb'
  have er : r = r' := Option.some.inj (hr.symm.trans (hag.resid.trans hr'))
  have en : n = n' := Option.some.inj (hn.symm.trans (hag.iter.trans hn'))
  have ex : x = x' := Option.some.inj (hx.symm.trans (hv.trans hx'))
  subst er; subst en; subst ex
  have hlen := length_of_at? hb
  have hlen' := length_of_at? hb'
  rw [← hag.pdtype, ← hag.idtype, ← hag.epsilon, ← hag.depression, ← hd] at d1 d2 d3
  refine ⟨by rw [st.epsilon, st'.epsilon, hag.epsilon], by rw [st.depression, st'.depression,
    hag.depression], by rw [st.pdtype, st'.pdtype, hag.pdtype], by rw [st.idtype, st'.idtype,
    hag.idtype], c1.trans d1.symm, c2.trans d2.symm, c3.trans d3.symm, ?_,
    by rw [st.defaults, st'.defaults]; exact hag.default, ?_⟩
  · intro name
    by_cases hname : name ∈ s.accumulators.keys
    · obtain ⟨a, ha⟩ := Dict.mem_keys_iff.1 hname
      obtain ⟨a2, ha2⟩ := Dict.mem_keys_iff.1 ((hag.acc.keys_iff name).1 hname)
      obtain ⟨u, a', u1, u2, u3⟩ := st.tree name a ha
      obtain ⟨v, y', v1, v2, v3⟩ := st'.tree name a2 ha2
      rw [u2, v2]
      have hA := hag.acc name
      rw [ha, ha2] at hA
      have hU := hag.upd name
      rw [u1, v1] at hU
      cases hA with
      | some hA =>
      cases hU with
      | some hU =>
      refine Option.Rel.some ?_
      have l1 : a'.treeLeaves.length = a.treeLeaves.length := by
        rw [← PyTree.treeStructure_leaves_length, u3.struct, PyTree.treeStructure_leaves_length]
      have l2 : y'.treeLeaves.length = a2.treeLeaves.length := by
        rw [← PyTree.treeStructure_leaves_length, v3.struct, PyTree.treeStructure_leaves_length]
      rw [TreeAgree, List.forall₂_iff_get]
      refine ⟨by rw [l1, l2]; exact hA.length_eq, fun k hk1 hk2 => ?_⟩
      have hka : k < a.treeLeaves.length := l1 ▸ hk1
      have hka2 : k < a2.treeLeaves.length := l2 ▸ hk2
      obtain ⟨ta, tu, ta', e1, e2, e3, e4⟩ := u3.leaf k _ (List.getElem?_eq_getElem hka)
      obtain ⟨tb, tv, tb', f1, f2, f3, f4⟩ := v3.leaf k _ (List.getElem?_eq_getElem hka2)
      obtain ⟨x1, x2, g1, g2, g3, g4⟩ := (List.forall₂_iff_get.1 hA).2 k hka hka2
      simp only [List.get_eq_getElem] at g1 g2
      rw [e1] at g1; rw [f1] at g2
      cases g1; cases g2
      obtain ⟨hku, hku'⟩ := List.getElem?_eq_some_iff.1 e2
      obtain ⟨hkv, hkv'⟩ := List.getElem?_eq_some_iff.1 f2
      obtain ⟨y1, y2, w1, w2, w3, w4⟩ := (List.forall₂_iff_get.1 hU).2 k hku hkv
      simp only [List.get_eq_getElem, hku', hkv'] at w1 w2
      cases w1; cases w2
      rw [List.getElem?_eq_getElem hk1] at e3
      rw [List.getElem?_eq_getElem hk2] at f3
      refine ⟨ta', tb', Option.some.inj e3, Option.some.inj f3,
        by rw [e4.dtype, f4.dtype, g3], fun i => ?_⟩
      cases hta : ta.at? (b ++ i) with
      | none =>
        rw [at?_none_of_shape e4.shape hta]
        rw [g4 i] at hta
        rw [at?_none_of_shape f4.shape hta]
      | some av =>
        have htb : tb.at? (b' ++ i) = some av := (g4 i).symm.trans hta
        obtain ⟨uv, huv⟩ := Controller.at?_some_of_shape (b := tu) e4.ushape hta
        have hvv : tv.at? (b' ++ i) = some uv := (w4 i).symm.trans huv
        have t1 : (b ++ i).take s.probabilities.shape.length = b := by rw [← hlen, List.take_left]
        have t2 : (b' ++ i).take t.probabilities.shape.length = b' := by rw [← hlen', List.take_left]
        rw [e4.entry _ av uv p x hta huv (by rw [t1]; exact hb) (by rw [t1]; exact hx),
          f4.entry _ av uv p x htb hvv (by rw [t2]; exact hb') (by rw [t2]; exact hx'),
          ← hag.pdtype, ← hag.epsilon, ← hag.depression, ← hd, g3, w3]
    · have h3 : c.state.accumulators.get? name = none := by
        rw [Dict.get?_eq_none_iff, st.akeys]; exact hname
      have h4 : d.state.accumulators.get? name = none := by
        rw [Dict.get?_eq_none_iff, st'.akeys]
        exact fun h => hname ((hag.acc.keys_iff name).2 h)
      rw [h3, h4]
      exact Option.Rel.none
  · intro name
    by_cases hname : name ∈ s.accumulators.keys
    · rw [st.cleared name hname, st'.cleared name ((hag.acc.keys_iff name).1 hname)]
      exact Option.Rel.some List.Forall₂.nil
    · have h3 : c.state.updates.get? name = none := by
        rw [Dict.get?_eq_none_iff, st.ukeys, hs.upd_iff]; exact hname
      have h4 : d.state.updates.get? name = none := by
        rw [Dict.get?_eq_none_iff, st'.ukeys, ht.upd_iff]
        exact fun h => hname ((hag.acc.keys_iff name).2 h)
      rw [h3, h4]
      exact Option.Rel.none

/-- `reset_batches` keeps the agreement. -/
theorem AgreeAt.resetBatches {s t : ACTStates α} (hs : s.WF) (ht : t.WF) {b b' : List Nat}
    {p : α} (hb : s.probabilities.at? b = some p) (hag : AgreeAt b b' s t) {c d : Controller α}
    (h1 : Controller.resetBatches ⟨s⟩ = .ok c) (h2 : Controller.resetBatches ⟨t⟩ = .ok d) :
    AgreeAt b b' c.state d.state := by
  have st := Controller.resetBatches_ok hs h1
  have st' := Controller.resetBatches_ok ht h2
  have hb' : t.probabilities.at? b' = some p := hag.prob ▸ hb
  obtain ⟨r, n, hr, hn⟩ := hs.cell hb
  obtain ⟨r', n', hr', hn'⟩ := ht.cell hb'
  obtain ⟨c1, c2, c3⟩ := st.cell b p r n hb hr hn
  obtain ⟨d1, d2, d3⟩ := st'.cell b' p r' n' hb' hr' hn'
  have er : r = r' := Option.some.inj (hr.symm.trans (hag.resid.trans hr'))
  have en : n = n' := Option.some.inj (hn.symm.trans (hag.iter.trans hn'))
  subst er; subst en
  have hlen := length_of_at? hb
  have hlen' := length_of_at? hb'
  rw [← hag.pdtype, ← hag.idtype, ← hag.epsilon] at d1 d2 d3
  refine ⟨by rw [st.epsilon, st'.epsilon, hag.epsilon], by rw [st.depression, st'.depression,
    hag.depression], by rw [st.pdtype, st'.pdtype, hag.pdtype], by rw [st.idtype, st'.idtype,
    hag.idtype], c1.trans d1.symm, c2.trans d2.symm, c3.trans d3.symm, ?_,
    by rw [st.defaults, st'.defaults]; exact hag.default,
    by rw [st.updates, st'.updates]; exact hag.upd⟩
  intro name
  by_cases hname : name ∈ s.accumulators.keys
  · obtain ⟨a, ha⟩ := Dict.mem_keys_iff.1 hname
    obtain ⟨a2, ha2⟩ := Dict.mem_keys_iff.1 ((hag.acc.keys_iff name).1 hname)
    obtain ⟨u, a', u1, u2, u4, -, u3⟩ := st.tree name a ha
    obtain ⟨v, y', v1, v2, v4, -, v3⟩ := st'.tree name a2 ha2
    rw [u2, v2]
    have hA := hag.acc name
    rw [ha, ha2] at hA
    have hU := hag.default name
    rw [u1, v1] at hU
    cases hA with
    | some hA =>
    cases hU with
    | some hU =>
    refine Option.Rel.some ?_
    have l1 : a'.treeLeaves.length = a.treeLeaves.length := by
      rw [← PyTree.treeStructure_leaves_length, u4, PyTree.treeStructure_leaves_length]
    have l2 : y'.treeLeaves.length = a2.treeLeaves.length := by
      rw [← PyTree.treeStructure_leaves_length, v4, PyTree.treeStructure_leaves_length]
    rw [TreeAgree, List.forall₂_iff_get]
    refine ⟨by rw [l1, l2]; exact hA.length_eq, fun k hk1 hk2 => ?_⟩
    have hka : k < a.treeLeaves.length := l1 ▸ hk1
    have hka2 : k < a2.treeLeaves.length := l2 ▸ hk2
    obtain ⟨ta, tu, ta', e1, e2, e3, e4⟩ := u3 k _ (List.getElem?_eq_getElem hka)
    obtain ⟨tb, tv, tb', f1, f2, f3, f4⟩ := v3 k _ (List.getElem?_eq_getElem hka2)
    obtain ⟨x1, x2, g1, g2, g3, g4⟩ := (List.forall₂_iff_get.1 hA).2 k hka hka2
    simp only [List.get_eq_getElem] at g1 g2
    rw [e1] at g1; rw [f1] at g2
    cases g1; cases g2
    obtain ⟨hku, hku'⟩ := List.getElem?_eq_some_iff.1 e2
    obtain ⟨hkv, hkv'⟩ := List.getElem?_eq_some_iff.1 f2
    obtain ⟨y1, y2, w1, w2, w3, w4⟩ := (List.forall₂_iff_get.1 hU).2 k hku hkv
    simp only [List.get_eq_getElem, hku', hkv'] at w1 w2
    cases w1; cases w2
    rw [List.getElem?_eq_getElem hk1] at e3
    rw [List.getElem?_eq_getElem hk2] at f3
    obtain ⟨-, hsame⟩ := hs.same name a u ha u1
    obtain ⟨z1, z2, q1, q2, q3, -⟩ := (List.forall₂_iff_get.1 hsame).2 k hka hku
    simp only [List.get_eq_getElem, e1, hku'] at q1 q2
    cases q1; cases q2
    refine ⟨ta', tb', Option.some.inj e3, Option.some.inj f3,
      by rw [e4.dtype, f4.dtype, g3], fun i => ?_⟩
    cases hta : ta.at? (b ++ i) with
    | none =>
      rw [at?_none_of_shape e4.shape hta]
      rw [g4 i] at hta
      rw [at?_none_of_shape f4.shape hta]
    | some av =>
      have htb : tb.at? (b' ++ i) = some av := (g4 i).symm.trans hta
      obtain ⟨uv, huv⟩ := Controller.at?_some_of_shape (b := tu) q3.symm hta
      have hvv : tv.at? (b' ++ i) = some uv := (w4 i).symm.trans huv
      have t1 : (b ++ i).take s.probabilities.shape.length = b := by rw [← hlen, List.take_left]
      have t2 : (b' ++ i).take t.probabilities.shape.length = b' := by rw [← hlen', List.take_left]
      rw [e4.entry _ av uv p hta huv (by rw [t1]; exact hb),
        f4.entry _ av uv p htb hvv (by rw [t2]; exact hb'), ← hag.pdtype, ← hag.epsilon]
  · have h3 : c.state.accumulators.get? name = none := by
      rw [Dict.get?_eq_none_iff, st.akeys]; exact hname
    have h4 : d.state.accumulators.get? name = none := by
      rw [Dict.get?_eq_none_iff, st'.akeys]
      exact fun h => hname ((hag.acc.keys_iff name).2 h)
    rw [h3, h4]
    exact Option.Rel.none

/-- Whole histories keep the agreement. -/
theorem AgreeAt.run {s t : ACTStates α} (hs : s.WF) (ht : t.WF) {b b' : List Nat}
    {p : α} (hb : s.probabilities.at? b = some p) (hag : AgreeAt b b' s t)
    {ops ops' : List (Op α)} (hops : List.Forall₂ (OpAgree b b') ops ops') {c d : Controller α}
    (h1 : JaxAct.run ⟨s⟩ ops = .ok c) (h2 : JaxAct.run ⟨t⟩ ops' = .ok d) : AgreeAt b b' c.state d.state := by
  induction hops generalizing s t p with
  | nil => cases h1; cases h2; exact hag
  | @cons o o' os os' ho _ ih =>
    simp only [JaxAct.run, bind_ok] at h1 h2
    obtain ⟨⟨s1⟩, e1, e2⟩ := h1
    obtain ⟨⟨t1⟩, f1, f2⟩ := h2
    cases ho with
    | cache hx =>
      have ks := Controller.cacheUpdate_ok_iff.1 e1
      have kt := Controller.cacheUpdate_ok_iff.1 f1
      have w1 := Controller.CacheStep.wf hs ks
      have w2 := Controller.CacheStep.wf ht kt
      obtain ⟨-, q1⟩ := ks
      obtain ⟨-, q2⟩ := kt
      simp only at q1 q2
      subst q1; subst q2
      refine ih w1 w2 hb { hag with upd := ?_ } e2 f2
      intro m
      simp only [Dict.get?_set]
      split
      · exact Option.Rel.some hx
      · exact hag.upd m
    | iterate hd hv =>
      have st := Controller.iterateAct_ok hs e1
      have st' := Controller.iterateAct_ok ht f1
      obtain ⟨r, n, x, -, -, -, c1, -, -⟩ := st.cellAt hs hb
      exact ih (Controller.IterStep.wf hs st) (Controller.IterStep.wf ht st') c1
        (hag.iterateAct hs ht hb hd hv e1 f1) e2 f2
    | reset =>
      have st := Controller.resetBatches_ok hs e1
      have st' := Controller.resetBatches_ok ht f1
      obtain ⟨r, n, hr, hn⟩ := hs.cell hb
      obtain ⟨c1, -, -⟩ := st.cell b p r n hb hr hn
      exact ih (Controller.ResetStep.wf hs st) (Controller.ResetStep.wf ht st') c1
        (hag.resetBatches hs ht hb e1 f1) e2 f2

end JaxAct
