import Verif.Props.C56
import Verif.Props.C15

/-!
# C100 A batch dimension is what `vmap` would do

C56 takes single elements out of a batch.  Here any number of leading batch axes is taken off, as `jax.vmap`
does when it maps a function over these axes: the states are compared as a whole.
-/

namespace JaxAct
open ACTStates
variable {α : Type}

/-- The part of a well-formed state at index `b` of the leading axes `P` is well-formed. -/
theorem ACTStates.WF.slice {s : ACTStates α} (hs : s.WF) {P Q b : List Nat}
    (hP : s.probabilities.shape = P ++ Q) (hb : InB P b) : (s.slice b).WF := by
  obtain ⟨p1, -⟩ := Tensor.slice_spec hP hb
  obtain ⟨r1, -⟩ := Tensor.slice_spec (t := s.residuals) (hs.res_shape.trans hP) hb
  obtain ⟨n1, -⟩ := Tensor.slice_spec (t := s.iterations) (hs.it_shape.trans hP) hb
  refine ⟨hs.floating, by show (s.residuals.slice b).shape = _; rw [r1]; exact p1.symm,
    hs.res_dtype, by show (s.iterations.slice b).shape = _; rw [n1]; exact p1.symm,
    hs.it_dtype, ?_, ?_, ?_, ?_, ?_, ?_, ?_⟩
  · show (Dict.slice b s.accumulators).WF
    rw [Dict.WF, Dict.keys_slice]; exact hs.acc_keys
  · show (Dict.slice b s.defaults).WF
    rw [Dict.WF, Dict.keys_slice]; exact hs.def_keys
  · show (Dict.slice b s.updates).WF
    rw [Dict.WF, Dict.keys_slice]; exact hs.upd_keys
  · intro n
    show n ∈ (Dict.slice b s.defaults).keys ↔ n ∈ (Dict.slice b s.accumulators).keys
    rw [Dict.keys_slice, Dict.keys_slice]; exact hs.def_iff n
  · intro n
    show n ∈ (Dict.slice b s.updates).keys ↔ n ∈ (Dict.slice b s.accumulators).keys
    rw [Dict.keys_slice, Dict.keys_slice]; exact hs.upd_iff n
  · intro n t ht l hl
    have ht : (Dict.slice b s.accumulators).get? n = some t := ht
    rw [Dict.get?_slice, Option.map_eq_some_iff] at ht
    obtain ⟨x, hx, rfl⟩ := ht
    rw [PyTree.treeLeaves_map, List.mem_map] at hl
    obtain ⟨l, hl, rfl⟩ := hl
    obtain ⟨t, rfl, h2, r, h3⟩ := hs.batched n x hx l hl
    refine ⟨t.slice b, rfl, h2, ?_⟩
    show (s.probabilities.slice b).shape <+: _
    rw [p1, (Tensor.slice_spec (t := t) (r := Q ++ r) (by rw [← h3, hP, List.append_assoc]) hb).1]
    exact ⟨r, rfl⟩
  · intro n t u ht hu
    have ht : (Dict.slice b s.accumulators).get? n = some t := ht
    have hu : (Dict.slice b s.defaults).get? n = some u := hu
    rw [Dict.get?_slice, Option.map_eq_some_iff] at ht hu
    obtain ⟨x, hx, rfl⟩ := ht
    obtain ⟨y, hy, rfl⟩ := hu
    obtain ⟨e1, e2⟩ := hs.same n x y hx hy
    refine ⟨by simpa using e1, ?_⟩
    rw [PyTree.treeLeaves_map, PyTree.treeLeaves_map, List.forall₂_map_left_iff,
      List.forall₂_map_right_iff]
    refine e2.imp ?_
    rintro l m ⟨c, d, rfl, rfl, e3, e4⟩
    refine ⟨c.slice b, d.slice b, rfl, rfl, ?_, e4⟩
    show (c.arr.slice b).shape = (d.arr.slice b).shape
    have e3 : c.arr.shape = d.arr.shape := e3
    rw [Arr.slice_shape, Arr.slice_shape, e3]

theorem Sliceable.mono {P Q : List Nat} {x : PyTree (Leaf α)} (h : Sliceable (P ++ Q) x) :
    Sliceable P x := by
  intro l hl
  obtain ⟨t, h1, r, h2⟩ := h l hl
  exact ⟨t, h1, Q ++ r, by rw [← h2, List.append_assoc]⟩

theorem inB_of_at? {t : Tensor α} {i : List Nat} {x : α} (h : t.at? i = some x) : InB t.shape i :=
  Arr.at?_isSome.1 (by simp only [Tensor.at?] at h; rw [h]; rfl)

theorem exists_at? {t : Tensor α} {i : List Nat} (h : InB t.shape i) : ∃ x, t.at? i = some x :=
  Option.isSome_iff_exists.1 (Arr.at?_isSome.2 h)

/-- Trees that agree have the same entries. -/
theorem DictAgree.entry_slice {b : List Nat} {e f : Dict (PyTree (Leaf α))} (h : DictAgree b [] e f)
    (n : String) (k : Nat) (i : List Nat) : entry? e n k (b ++ i) = entry? f n k i := by
  have hn := h n
  simp only [entry?, leaf?]
  cases he : e.get? n with
  | none =>
    rw [he] at hn
    cases hf : f.get? n with
    | none => rfl
    | some y => rw [hf] at hn; cases hn
  | some x =>
    cases hf : f.get? n with
    | none => rw [he, hf] at hn; cases hn
    | some y =>
      rw [he, hf] at hn
      cases hn with
      | some hn =>
      simp only
      cases hk : x.treeLeaves[k]? with
      | none =>
        rw [List.getElem?_eq_none_iff] at hk
        rw [List.getElem?_eq_none (by rw [← hn.length_eq]; exact hk)]
      | some l =>
        obtain ⟨k1, e1⟩ := List.getElem?_eq_some_iff.1 hk
        have k2 : k < y.treeLeaves.length := by rw [← hn.length_eq]; exact k1
        obtain ⟨t, u, w1, w2, -, w3⟩ := (List.forall₂_iff_get.1 hn).2 k k1 k2
        simp only [List.get_eq_getElem] at w1 w2
        rw [← e1, w1, List.getElem?_eq_getElem k2, w2]
        exact w3 i

variable [Arith α]

omit [Arith α] in
/-- Two trees in key order with the same structure and the same leaves are the same. -/
theorem PyTree.eq_of_canon {x y : PyTree (Leaf α)} (hx : x.canon = x) (hy : y.canon = y)
    (hs : x.treeStructure = y.treeStructure) (hl : x.treeLeaves = y.treeLeaves) : x = y := by
  refine PyTree.eq_of_struct_leaves ?_ ?_
  · rw [← hx, ← hy]; exact hs
  · rw [← hx, ← hy]; exact hl

omit [Arith α] in
theorem PyTree.canon_slice {x : PyTree (Leaf α)} (b : List Nat) (h : x.canon = x) :
    (x.map (Leaf.slice b)).canon = x.map (Leaf.slice b) := by
  rw [PyTree.canon_map, h]

/-- `iterate_act` succeeds on a part of the stack if it succeeds on the stack. -/
theorem slice_iterateAct_succeeds {s : ACTStates α} (hs : s.WF) {P Q b : List Nat}
    (hP : s.probabilities.shape = P ++ Q) (hb : InB P b) {h : Tensor α} {c : Controller α}
    (h1 : Controller.iterateAct ⟨s⟩ h = .ok c) :
    ∃ d, Controller.iterateAct ⟨s.slice b⟩ (h.slice b) = .ok d := by
  obtain ⟨g1, g2, g3⟩ := (C13_iterate_succeeds_iff hs h).1 ⟨c, h1⟩
  refine (C13_iterate_succeeds_iff (hs.slice hP hb) (h.slice b)).2 ⟨?_, g2, ?_⟩
  · show (h.arr.slice b).shape = (s.probabilities.arr.slice b).shape
    have g1 : h.arr.shape = s.probabilities.arr.shape := g1
    rw [Arr.slice_shape, Arr.slice_shape, g1]
  · intro n y hy
    have hy : (Dict.slice b s.accumulators).get? n = some y := hy
    rw [Dict.get?_slice, Option.map_eq_some_iff] at hy
    obtain ⟨x, hx, rfl⟩ := hy
    obtain ⟨u, hu, hne, hf⟩ := g3 n x hx
    refine ⟨u.map (Leaf.slice b), ?_, fun e => hne ((PyTree.map_eq_none_iff _ u).2 e), ?_⟩
    · show (Dict.slice b s.updates).get? n = _
      rw [Dict.get?_slice, hu]; rfl
    · rw [PyTree.treeLeaves_map, PyTree.treeLeaves_map, List.forall₂_map_left_iff,
        List.forall₂_map_right_iff]
      refine hf.imp ?_
      rintro l m ⟨ta, tu, rfl, rfl, e1, e2⟩
      refine ⟨ta.slice b, tu.slice b, rfl, rfl, ?_, e2⟩
      show (tu.arr.slice b).shape = (ta.arr.slice b).shape
      have e1 : tu.arr.shape = ta.arr.shape := e1
      rw [Arr.slice_shape, Arr.slice_shape, e1]

/-- `iterate_act` on the stack, and on one of its parts. -/
theorem slice_iterateAct {s : ACTStates α} (hs : s.WF) {P Q b : List Nat}
    (hP : s.probabilities.shape = P ++ Q) (hb : InB P b) {h : Tensor α} {c : Controller α}
    (h1 : Controller.iterateAct ⟨s⟩ h = .ok c) :
    Controller.iterateAct ⟨s.slice b⟩ (h.slice b) = .ok ⟨c.state.slice b⟩ := by
  obtain ⟨d, hd⟩ := slice_iterateAct_succeeds hs hP hb h1
  rw [hd]
  have hw := hs.slice hP hb
  have st := Controller.iterateAct_ok hs h1
  have st' := Controller.iterateAct_ok hw hd
  have hlen : b.length = P.length := hb.length
  obtain ⟨p1, p2⟩ := Tensor.slice_spec hP hb
  obtain ⟨r1, r2⟩ := Tensor.slice_spec (t := s.residuals) (hs.res_shape.trans hP) hb
  obtain ⟨n1, n2⟩ := Tensor.slice_spec (t := s.iterations) (hs.it_shape.trans hP) hb
  obtain ⟨x1, x2⟩ := Tensor.slice_spec (t := h) (st.hshape.trans hP) hb
  obtain ⟨p1', p2'⟩ := Tensor.slice_spec (t := c.state.probabilities) (st.pshape.trans hP) hb
  obtain ⟨r1', r2'⟩ := Tensor.slice_spec (t := c.state.residuals)
    (st.rshape.trans (hs.res_shape.trans hP)) hb
  obtain ⟨n1', n2'⟩ := Tensor.slice_spec (t := c.state.iterations)
    (st.ishape.trans (hs.it_shape.trans hP)) hb
  have hcell : ∀ i, InB Q i → d.state.probabilities.at? i = c.state.probabilities.at? (b ++ i) ∧
      d.state.residuals.at? i = c.state.residuals.at? (b ++ i) ∧
      d.state.iterations.at? i = c.state.iterations.at? (b ++ i) := by
    intro i hi
    obtain ⟨p, hp⟩ := exists_at? (t := s.probabilities) (i := b ++ i)
      (by rw [hP]; exact (inB_append hlen).2 ⟨hb, hi⟩)
    obtain ⟨r, n, x, k1, k2, k3, k4, k5, k6⟩ := st.cellAt hs hp
    obtain ⟨q1, q2, q3⟩ := st'.cell i p r n x ((p2 i).trans hp) ((r2 i).trans k1) ((n2 i).trans k2)
      ((x2 i).trans k3)
    exact ⟨q1.trans k4.symm, q2.trans k5.symm, q3.trans k6.symm⟩
  have hout : ∀ (t : Tensor α) (i : List Nat), t.shape = Q → ¬ InB Q i → t.at? i = Option.none := by
    intro t i ht hi
    exact Arr.at?_of_not (a := t.arr) (by
      have : t.arr.shape = Q := ht
      rw [this]; exact hi)
  have eP : d.state.probabilities = c.state.probabilities.slice b := by
    refine Tensor.ext_at (st'.pdtype.trans st.pdtype.symm) ((st'.pshape.trans p1).trans p1'.symm)
      fun i => ?_
    by_cases hi : InB Q i
    · rw [(hcell i hi).1, p2']
    · rw [hout _ i (st'.pshape.trans p1) hi, hout _ i p1' hi]
  have eR : d.state.residuals = c.state.residuals.slice b := by
    refine Tensor.ext_at (st'.rdtype.trans st.rdtype.symm) ((st'.rshape.trans r1).trans r1'.symm)
      fun i => ?_
    by_cases hi : InB Q i
    · rw [(hcell i hi).2.1, r2']
    · rw [hout _ i (st'.rshape.trans r1) hi, hout _ i r1' hi]
  have eI : d.state.iterations = c.state.iterations.slice b := by
    refine Tensor.ext_at (st'.idtype.trans st.idtype.symm) ((st'.ishape.trans n1).trans n1'.symm)
      fun i => ?_
    by_cases hi : InB Q i
    · rw [(hcell i hi).2.2, n2']
    · rw [hout _ i (st'.ishape.trans n1) hi, hout _ i n1' hi]
  have eD : d.state.defaults = Dict.slice b c.state.defaults := by
    rw [st'.defaults, st.defaults]; rfl
  have eU : d.state.updates = Dict.slice b c.state.updates := by
    have hk : d.state.updates.keys = (Dict.slice b c.state.updates).keys := by
      rw [Dict.keys_slice, st.ukeys, st'.ukeys]
      exact Dict.keys_slice b s.updates
    refine Dict.ext_get? (hd := by rw [Dict.WF, Dict.keys_slice, st.ukeys]; exact hs.upd_keys) hk
      fun n => ?_
    by_cases hn : n ∈ s.accumulators.keys
    · rw [Dict.get?_slice, st.cleared n hn, st'.cleared n (by
        show n ∈ (Dict.slice b s.accumulators).keys
        rw [Dict.keys_slice]; exact hn)]
      rfl
    · have h2 : n ∉ c.state.updates.keys := by rw [st.ukeys, hs.upd_iff]; exact hn
      rw [Dict.get?_eq_none_iff.2 (by rw [hk, Dict.keys_slice]; exact h2),
        Dict.get?_eq_none_iff.2 (by rw [Dict.keys_slice]; exact h2)]
  have eA : d.state.accumulators = Dict.slice b c.state.accumulators := by
    have hk : d.state.accumulators.keys = (Dict.slice b c.state.accumulators).keys := by
      rw [Dict.keys_slice, st.akeys, st'.akeys]
      exact Dict.keys_slice b s.accumulators
    refine Dict.ext_get? (hd := by rw [Dict.WF, Dict.keys_slice, st.akeys]; exact hs.acc_keys) hk
      fun n => ?_
    by_cases hn : n ∈ s.accumulators.keys
    · obtain ⟨x, hx⟩ := Dict.mem_keys_iff.1 hn
      have hy : (s.slice b).accumulators.get? n = some (x.map (Leaf.slice b)) := by
        show (Dict.slice b s.accumulators).get? n = _
        rw [Dict.get?_slice, hx]; rfl
      obtain ⟨u, x', u1, u2, u3⟩ := st.tree n x hx
      obtain ⟨v, y', v1, v2, v3⟩ := st'.tree n _ hy
      have v1 : (Dict.slice b s.updates).get? n = some v := v1
      rw [Dict.get?_slice, u1, Option.map_some, Option.some.injEq] at v1
      subst v1
      rw [v2, Dict.get?_slice, u2, Option.map_some]
      congr 1
      refine PyTree.eq_of_canon v3.canon (PyTree.canon_slice b u3.canon) ?_ ?_
      · rw [v3.struct, PyTree.treeStructure_map, PyTree.treeStructure_map, u3.struct]
      · rw [PyTree.treeLeaves_map]
        refine List.ext_getElem? fun k => ?_
        cases hl : x.treeLeaves[k]? with
        | none =>
          have l1 : x'.treeLeaves.length = x.treeLeaves.length := by
            rw [← PyTree.treeStructure_leaves_length, u3.struct, PyTree.treeStructure_leaves_length]
          have l2 : y'.treeLeaves.length = x.treeLeaves.length := by
            rw [← PyTree.treeStructure_leaves_length, v3.struct, PyTree.treeStructure_map,
              PyTree.treeStructure_leaves_length]
          rw [List.getElem?_eq_none_iff] at hl
          rw [List.getElem?_eq_none (by rw [l2]; exact hl),
            List.getElem?_eq_none (by rw [List.length_map, l1]; exact hl)]
        | some l =>
          obtain ⟨ta, tu, ta', rfl, f2, f3, f4⟩ := u3.leaf k l hl
          obtain ⟨tb, tv, tb', g1, g2, g3, g4⟩ := v3.leaf k (.tensor (ta.slice b)) (by
            rw [PyTree.treeLeaves_map, List.getElem?_map, hl]; rfl)
          cases g1
          rw [PyTree.treeLeaves_map, List.getElem?_map, f2] at g2
          cases g2
          rw [g3, List.getElem?_map, f3]
          show some (Leaf.tensor tb') = some (Leaf.tensor (ta'.slice b))
          congr 2
          obtain ⟨ta2, e0, -, r, hr⟩ := hs.batched n x hx _ (List.mem_of_getElem? hl)
          cases e0
          have hr' : ta.shape = P ++ (Q ++ r) := by rw [← hr, hP, List.append_assoc]
          obtain ⟨s1, s2⟩ := Tensor.slice_spec hr' hb
          obtain ⟨s3, s4⟩ := Tensor.slice_spec (t := tu) (f4.ushape.trans hr') hb
          obtain ⟨s5, s6⟩ := Tensor.slice_spec (t := ta') (f4.shape.trans hr') hb
          refine Tensor.ext_at (g4.dtype.trans f4.dtype.symm) ((g4.shape.trans s1).trans s5.symm)
            fun i => ?_
          cases hi : ta.at? (b ++ i) with
          | none =>
            rw [s6, at?_none_of_shape f4.shape hi]
            exact at?_none_of_shape g4.shape ((s2 i).trans hi)
          | some a =>
            have hin := inB_of_at? hi
            rw [hr', inB_append hlen] at hin
            have hq : InB Q (i.take Q.length) := Arr.inB_take hin.2
            obtain ⟨u, hu⟩ := exists_at? (t := tu) (i := b ++ i)
              (by rw [f4.ushape]; exact inB_of_at? hi)
            obtain ⟨p, hp⟩ := exists_at? (t := s.probabilities) (i := b ++ i.take Q.length)
              (by rw [hP]; exact (inB_append hlen).2 ⟨hb, hq⟩)
            obtain ⟨q, hq'⟩ := exists_at? (t := h) (i := b ++ i.take Q.length)
              (by rw [st.hshape, hP]; exact (inB_append hlen).2 ⟨hb, hq⟩)
            have t1 : (b ++ i).take s.probabilities.shape.length = b ++ i.take Q.length := by
              rw [hP, List.length_append, ← hlen, List.take_length_add_append]
            have t2 : i.take (s.slice b).probabilities.shape.length = i.take Q.length := by
              rw [show (s.slice b).probabilities.shape = Q from p1]
            rw [s6, f4.entry _ a u p q hi hu (by rw [t1]; exact hp) (by rw [t1]; exact hq')]
            exact g4.entry i a u p q ((s2 i).trans hi) ((s4 i).trans hu)
              (by rw [t2]; exact (p2 _).trans hp) (by rw [t2]; exact (x2 _).trans hq')
    · have h2 : n ∉ c.state.accumulators.keys := by rw [st.akeys]; exact hn
      rw [Dict.get?_eq_none_iff.2 (by rw [hk, Dict.keys_slice]; exact h2),
        Dict.get?_eq_none_iff.2 (by rw [Dict.keys_slice]; exact h2)]
  obtain ⟨d⟩ := d
  congr 2
  have h1 := st'.epsilon.trans (show (s.slice b).epsilon = (c.state.slice b).epsilon from
    st.epsilon.symm)
  have h2 := st'.depression.trans (show (s.slice b).depression_constant =
    (c.state.slice b).depression_constant from st.depression.symm)
  have h3 := st'.error_mode.trans (show (s.slice b).error_mode = (c.state.slice b).error_mode from
    st.error_mode.symm)
  cases d
  simp only [ACTStates.slice] at *
  subst eP eR eI eD eU eA h1 h2 h3
  rfl

/-- `reset_batches` on the stack, and on one of its parts. -/
theorem slice_resetBatches {s : ACTStates α} (hs : s.WF) {P Q b : List Nat}
    (hP : s.probabilities.shape = P ++ Q) (hb : InB P b) {c : Controller α}
    (h1 : Controller.resetBatches ⟨s⟩ = .ok c) :
    Controller.resetBatches ⟨s.slice b⟩ = .ok ⟨c.state.slice b⟩ := by
  have hw := hs.slice hP hb
  have st := Controller.resetBatches_ok hs h1
  have hidle : ∀ n u, s.updates.get? n = some u → u = .none :=
    fun n u hu => PyTree.isNone_iff.1 (st.idle n u hu)
  have hidle' : ∀ n u, (s.slice b).updates.get? n = some u → u = .none := by
    intro n u hu
    have hu : (Dict.slice b s.updates).get? n = some u := hu
    rw [Dict.get?_slice, Option.map_eq_some_iff] at hu
    obtain ⟨v, hv, rfl⟩ := hu
    rw [hidle n v hv]; rfl
  obtain ⟨p1, p2⟩ := Tensor.slice_spec hP hb
  have hlen : b.length = P.length := hb.length
  obtain ⟨d, hd⟩ : ∃ d, Controller.resetBatches ⟨s.slice b⟩ = .ok d := by
    refine (C16_reset_succeeds_iff_partial hw hidle').2 ?_
    rcases (C16_reset_succeeds_iff_partial hs hidle).1 ⟨c, h1⟩ with h | h
    · left
      rw [hP, List.append_eq_nil_iff] at h
      exact p1.trans h.2
    · right
      intro n y hy
      have hy : (Dict.slice b s.accumulators).get? n = some y := hy
      rw [Dict.get?_slice, Option.map_eq_some_iff] at hy
      obtain ⟨x, hx, rfl⟩ := hy
      rcases h n x hx with h | ⟨t, rfl⟩
      · left; rw [PyTree.treeLeaves_map, h]; rfl
      · right; exact ⟨t.slice b, rfl⟩
  rw [hd]
  have st' := Controller.resetBatches_ok hw hd
  obtain ⟨r1, r2⟩ := Tensor.slice_spec (t := s.residuals) (hs.res_shape.trans hP) hb
  obtain ⟨n1, n2⟩ := Tensor.slice_spec (t := s.iterations) (hs.it_shape.trans hP) hb
  obtain ⟨p1', p2'⟩ := Tensor.slice_spec (t := c.state.probabilities) (st.pshape.trans hP) hb
  obtain ⟨r1', r2'⟩ := Tensor.slice_spec (t := c.state.residuals)
    (st.rshape.trans (hs.res_shape.trans hP)) hb
  obtain ⟨n1', n2'⟩ := Tensor.slice_spec (t := c.state.iterations)
    (st.ishape.trans (hs.it_shape.trans hP)) hb
  have hcell : ∀ i, InB Q i → d.state.probabilities.at? i = c.state.probabilities.at? (b ++ i) ∧
      d.state.residuals.at? i = c.state.residuals.at? (b ++ i) ∧
      d.state.iterations.at? i = c.state.iterations.at? (b ++ i) := by
    intro i hi
    obtain ⟨p, hp⟩ := exists_at? (t := s.probabilities) (i := b ++ i)
      (by rw [hP]; exact (inB_append hlen).2 ⟨hb, hi⟩)
    obtain ⟨r, n, hr, hn⟩ := hs.cell hp
    obtain ⟨k4, k5, k6⟩ := st.cell (b ++ i) p r n hp hr hn
    obtain ⟨q1, q2, q3⟩ := st'.cell i p r n ((p2 i).trans hp) ((r2 i).trans hr) ((n2 i).trans hn)
    exact ⟨q1.trans k4.symm, q2.trans k5.symm, q3.trans k6.symm⟩
  have hout : ∀ (t : Tensor α) (i : List Nat), t.shape = Q → ¬ InB Q i → t.at? i = Option.none := by
    intro t i ht hi
    exact Arr.at?_of_not (a := t.arr) (by
      have : t.arr.shape = Q := ht
      rw [this]; exact hi)
  have eP : d.state.probabilities = c.state.probabilities.slice b := by
    refine Tensor.ext_at (st'.pdtype.trans st.pdtype.symm) ((st'.pshape.trans p1).trans p1'.symm)
      fun i => ?_
    by_cases hi : InB Q i
    · rw [(hcell i hi).1, p2']
    · rw [hout _ i (st'.pshape.trans p1) hi, hout _ i p1' hi]
  have eR : d.state.residuals = c.state.residuals.slice b := by
    refine Tensor.ext_at (st'.rdtype.trans st.rdtype.symm) ((st'.rshape.trans r1).trans r1'.symm)
      fun i => ?_
    by_cases hi : InB Q i
    · rw [(hcell i hi).2.1, r2']
    · rw [hout _ i (st'.rshape.trans r1) hi, hout _ i r1' hi]
  have eI : d.state.iterations = c.state.iterations.slice b := by
    refine Tensor.ext_at (st'.idtype.trans st.idtype.symm) ((st'.ishape.trans n1).trans n1'.symm)
      fun i => ?_
    by_cases hi : InB Q i
    · rw [(hcell i hi).2.2, n2']
    · rw [hout _ i (st'.ishape.trans n1) hi, hout _ i n1' hi]
  have eD : d.state.defaults = Dict.slice b c.state.defaults := by
    rw [st'.defaults, st.defaults]; rfl
  have eU : d.state.updates = Dict.slice b c.state.updates := by
    rw [st'.updates, st.updates]; rfl
  have eA : d.state.accumulators = Dict.slice b c.state.accumulators := by
    have hk : d.state.accumulators.keys = (Dict.slice b c.state.accumulators).keys := by
      rw [Dict.keys_slice, st.akeys, st'.akeys]
      exact Dict.keys_slice b s.accumulators
    refine Dict.ext_get? (hd := by rw [Dict.WF, Dict.keys_slice, st.akeys]; exact hs.acc_keys) hk
      fun n => ?_
    by_cases hn : n ∈ s.accumulators.keys
    · obtain ⟨x, hx⟩ := Dict.mem_keys_iff.1 hn
      have hy : (s.slice b).accumulators.get? n = some (x.map (Leaf.slice b)) := by
        show (Dict.slice b s.accumulators).get? n = _
        rw [Dict.get?_slice, hx]; rfl
      obtain ⟨u, x', u1, u2, u3, u4, u5⟩ := st.tree n x hx
      obtain ⟨v, y', v1, v2, v3, v4, v5⟩ := st'.tree n _ hy
      have v1 : (Dict.slice b s.defaults).get? n = some v := v1
      rw [Dict.get?_slice, u1, Option.map_some, Option.some.injEq] at v1
      subst v1
      rw [v2, Dict.get?_slice, u2, Option.map_some]
      congr 1
      refine PyTree.eq_of_canon v4 (PyTree.canon_slice b u4) ?_ ?_
      · rw [v3, PyTree.treeStructure_map, PyTree.treeStructure_map, u3]
      · rw [PyTree.treeLeaves_map]
        refine List.ext_getElem? fun k => ?_
        cases hl : x.treeLeaves[k]? with
        | none =>
          have l1 : x'.treeLeaves.length = x.treeLeaves.length := by
            rw [← PyTree.treeStructure_leaves_length, u3, PyTree.treeStructure_leaves_length]
          have l2 : y'.treeLeaves.length = x.treeLeaves.length := by
            rw [← PyTree.treeStructure_leaves_length, v3, PyTree.treeStructure_map,
              PyTree.treeStructure_leaves_length]
          rw [List.getElem?_eq_none_iff] at hl
          rw [List.getElem?_eq_none (by rw [l2]; exact hl),
            List.getElem?_eq_none (by rw [List.length_map, l1]; exact hl)]
        | some l =>
          obtain ⟨ta, tu, ta', rfl, f2, f3, f4⟩ := u5 k l hl
          obtain ⟨tb, tv, tb', g1, g2, g3, g4⟩ := v5 k (.tensor (ta.slice b)) (by
            rw [PyTree.treeLeaves_map, List.getElem?_map, hl]; rfl)
          cases g1
          rw [PyTree.treeLeaves_map, List.getElem?_map, f2] at g2
          cases g2
          rw [g3, List.getElem?_map, f3]
          show some (Leaf.tensor tb') = some (Leaf.tensor (ta'.slice b))
          congr 2
          obtain ⟨ta2, e0, -, r, hr⟩ := hs.batched n x hx _ (List.mem_of_getElem? hl)
          cases e0
          have hr' : ta.shape = P ++ (Q ++ r) := by rw [← hr, hP, List.append_assoc]
          obtain ⟨-, hsame⟩ := hs.same n x u hx u1
          have htu : tu.shape = ta.shape := by
            obtain ⟨k1, e1⟩ := List.getElem?_eq_some_iff.1 hl
            obtain ⟨k2, e2⟩ := List.getElem?_eq_some_iff.1 f2
            obtain ⟨t1, t2, w1, w2, w3, -⟩ := (List.forall₂_iff_get.1 hsame).2 k k1 k2
            simp only [List.get_eq_getElem, e1, e2] at w1 w2
            cases w1; cases w2
            exact w3.symm
          obtain ⟨s1, s2⟩ := Tensor.slice_spec hr' hb
          obtain ⟨s3, s4⟩ := Tensor.slice_spec (t := tu) (htu.trans hr') hb
          obtain ⟨s5, s6⟩ := Tensor.slice_spec (t := ta') (f4.shape.trans hr') hb
          refine Tensor.ext_at (g4.dtype.trans f4.dtype.symm) ((g4.shape.trans s1).trans s5.symm)
            fun i => ?_
          cases hi : ta.at? (b ++ i) with
          | none =>
            rw [s6, at?_none_of_shape f4.shape hi]
            exact at?_none_of_shape g4.shape ((s2 i).trans hi)
          | some a =>
            have hin := inB_of_at? hi
            rw [hr', inB_append hlen] at hin
            have hq : InB Q (i.take Q.length) := Arr.inB_take hin.2
            obtain ⟨u, hu⟩ := exists_at? (t := tu) (i := b ++ i) (by rw [htu]; exact inB_of_at? hi)
            obtain ⟨p, hp⟩ := exists_at? (t := s.probabilities) (i := b ++ i.take Q.length)
              (by rw [hP]; exact (inB_append hlen).2 ⟨hb, hq⟩)
            have t1 : (b ++ i).take s.probabilities.shape.length = b ++ i.take Q.length := by
              rw [hP, List.length_append, ← hlen, List.take_length_add_append]
            have t2 : i.take (s.slice b).probabilities.shape.length = i.take Q.length := by
              rw [show (s.slice b).probabilities.shape = Q from p1]
            rw [s6, f4.entry _ a u p hi hu (by rw [t1]; exact hp)]
            exact g4.entry i a u p ((s2 i).trans hi) ((s4 i).trans hu)
              (by rw [t2]; exact (p2 _).trans hp)
    · have h2 : n ∉ c.state.accumulators.keys := by rw [st.akeys]; exact hn
      rw [Dict.get?_eq_none_iff.2 (by rw [hk, Dict.keys_slice]; exact h2),
        Dict.get?_eq_none_iff.2 (by rw [Dict.keys_slice]; exact h2)]
  obtain ⟨d⟩ := d
  congr 2
  have h1 := st'.epsilon.trans (show (s.slice b).epsilon = (c.state.slice b).epsilon from
    st.epsilon.symm)
  have h2 := st'.depression.trans (show (s.slice b).depression_constant =
    (c.state.slice b).depression_constant from st.depression.symm)
  have h3 := st'.error_mode.trans (show (s.slice b).error_mode = (c.state.slice b).error_mode from
    st.error_mode.symm)
  cases d
  simp only [ACTStates.slice] at *
  subst eP eR eI eD eU eA h1 h2 h3
  rfl

omit [Arith α] in
theorem Dict.slice_set (b : List Nat) (d : Dict (PyTree (Leaf α))) (n : String)
    (x : PyTree (Leaf α)) :
    Dict.slice b (d.set n x) = (Dict.slice b d).set n (x.map (Leaf.slice b)) := by
  induction d with
  | nil => rfl
  | cons kv d ih =>
    obtain ⟨k, v⟩ := kv
    simp only [Dict.slice, Dict.set, List.map_cons] at ih ⊢
    split
    · simp
    · simp only [List.map_cons, List.cons.injEq, true_and]
      exact ih

omit [Arith α] in
/-- `cache_update` on the stack, and on one of its parts. -/
theorem slice_cacheUpdate {s : ACTStates α} (b : List Nat) {n : String} {x : PyTree (Leaf α)}
    {c : Controller α} : Controller.cacheUpdate ⟨s⟩ n x = .ok c →
    Controller.cacheUpdate ⟨s.slice b⟩ n (x.map (Leaf.slice b)) = .ok ⟨c.state.slice b⟩ := by
  rw [Controller.cacheUpdate_ok_iff, Controller.cacheUpdate_ok_iff]
  rintro ⟨h1, h2⟩
  refine ⟨?_, ?_⟩
  · show (Dict.slice b s.updates).get? n = _
    rw [Dict.get?_slice, h1]; rfl
  · show c.state.slice b = _
    rw [h2]
    simp only [ACTStates.slice, Dict.slice_set]

/-- C100: let the batch shape begin with the axes `P`.  A history that succeeds on the whole stack succeeds on
the part of the stack at each index `b` of `P`, with the parts of the arguments, and the result is the part of
the result: this is what `jax.vmap` over the axes `P` computes.  Any arithmetic. -/
theorem C100_vmap {s : ACTStates α} (hs : s.WF) {P Q b : List Nat}
    (hP : s.probabilities.shape = P ++ Q) (hb : InB P b) :
    ∀ {ops : List (Op α)} {c : Controller α}, run ⟨s⟩ ops = .ok c →
      run ⟨s.slice b⟩ (ops.map (Op.slice b)) = .ok ⟨c.state.slice b⟩ := by
  intro ops
  induction ops generalizing s with
  | nil => intro c h; cases h; rfl
  | cons op ops ih =>
    intro c h
    simp only [run, bind_ok] at h
    obtain ⟨⟨s1⟩, e1, e2⟩ := h
    simp only [List.map_cons, run, bind_ok]
    cases op with
    | cache n x =>
      have ks := Controller.cacheUpdate_ok_iff.1 e1
      refine ⟨_, slice_cacheUpdate b e1, ih (Controller.CacheStep.wf hs ks) ?_ e2⟩
      have q := ks.eq
      simp only at q
      rw [q]; exact hP
    | iterate h =>
      have st := Controller.iterateAct_ok hs e1
      exact ⟨_, slice_iterateAct hs hP hb e1, ih (Controller.IterStep.wf hs st)
        (st.pshape.trans hP) e2⟩
    | reset =>
      have st := Controller.resetBatches_ok hs e1
      exact ⟨_, slice_resetBatches hs hP hb e1, ih (Controller.ResetStep.wf hs st)
        (st.pshape.trans hP) e2⟩

/-- The tensors of a call have the leading axes `P`. -/
def Op.Stacked (P : List Nat) : Op α → Prop
  | .cache _ x => Sliceable P x
  | .iterate h => P <+: h.shape
  | .reset => True

/-- `iterate_act` succeeds on the stack if it succeeds on one part. -/
theorem stack_iterateAct {s : ACTStates α} (hs : s.WF) {P Q b : List Nat}
    (hP : s.probabilities.shape = P ++ Q) (hb : InB P b)
    (hupd : ∀ n x, s.updates.get? n = some x → Sliceable P x) {h : Tensor α} (hh : P <+: h.shape)
    {d : Controller α} (h1 : Controller.iterateAct ⟨s.slice b⟩ (h.slice b) = .ok d) :
    ∃ c, Controller.iterateAct ⟨s⟩ h = .ok c := by
  obtain ⟨g1, g2, g3⟩ := (C13_iterate_succeeds_iff (hs.slice hP hb) (h.slice b)).1 ⟨d, h1⟩
  obtain ⟨R, hR⟩ := hh
  obtain ⟨p1, -⟩ := Tensor.slice_spec hP hb
  obtain ⟨x1, -⟩ := Tensor.slice_spec hR.symm hb
  have hRQ : R = Q := x1.symm.trans (g1.trans p1)
  refine (C13_iterate_succeeds_iff hs h).2 ⟨by rw [← hR, hP, hRQ], g2, fun n x hx => ?_⟩
  obtain ⟨v, hv, hne, hf⟩ := g3 n (x.map (Leaf.slice b)) (by
    show (Dict.slice b s.accumulators).get? n = _
    rw [Dict.get?_slice, hx]; rfl)
  have hv : (Dict.slice b s.updates).get? n = some v := hv
  rw [Dict.get?_slice, Option.map_eq_some_iff] at hv
  obtain ⟨u, hu, rfl⟩ := hv
  refine ⟨u, hu, fun e => hne ((PyTree.map_eq_none_iff _ u).1 e), ?_⟩
  rw [PyTree.treeLeaves_map, PyTree.treeLeaves_map, List.forall₂_map_left_iff,
    List.forall₂_map_right_iff] at hf
  rw [List.forall₂_iff_get] at hf ⊢
  refine ⟨hf.1, fun k k1 k2 => ?_⟩
  obtain ⟨ta', tu', e1, e2, e3, e4⟩ := hf.2 k k1 k2
  obtain ⟨ta, f1, -, r, f2⟩ := hs.batched n x hx _ (List.getElem_mem k1)
  obtain ⟨tu, f3, r', f4⟩ := hupd n u hu _ (List.getElem_mem k2)
  simp only [List.get_eq_getElem] at e1 e2 ⊢
  rw [f1] at e1
  rw [f3] at e2
  cases e1; cases e2
  refine ⟨ta, tu, f1, f3, ?_, e4⟩
  have f2 : ta.shape = P ++ (Q ++ r) := by rw [← f2, hP, List.append_assoc]
  rw [(Tensor.slice_spec f4.symm hb).1, (Tensor.slice_spec f2 hb).1] at e3
  rw [← f4, f2, e3]

omit [Arith α] in
/-- A tree of tensors with the structure of a bare tensor is one. -/
theorem bare_of_same {batch : List Nat} {a a' : PyTree (Leaf α)}
    (hs : a'.treeStructure = a.treeStructure)
    (h : a.treeLeaves = [] ∨ ∃ t, a = .leaf (.tensor t)) (hb : Batched batch a') :
    a'.treeLeaves = [] ∨ ∃ t, a' = .leaf (.tensor t) := by
  rcases h with h | ⟨t, rfl⟩
  · left
    rw [← List.length_eq_zero_iff, ← PyTree.treeStructure_leaves_length, hs,
      PyTree.treeStructure_leaves_length, h]; rfl
  · right
    cases a' with
    | leaf l =>
      obtain ⟨t', rfl, -⟩ := hb l (by show l ∈ [l]; simp)
      exact ⟨t', rfl⟩
    | none => cases hs
    | node k cs => cases k <;> cases hs

/-- C100, the other direction: if the history succeeds on one part of the stack, and all tensors have the axes
`P`, it succeeds on the whole.  Only resets need more, because of C16: after taking off `P` there are batch axes
left, or the accumulators are bare tensors. -/
theorem C100_stack {s : ACTStates α} (hs : s.WF) {P Q b : List Nat}
    (hP : s.probabilities.shape = P ++ Q) (hb : InB P b) :
    ∀ {ops : List (Op α)} {d : Controller α},
      (∀ n x, s.updates.get? n = some x → Sliceable P x) → (∀ op ∈ ops, op.Stacked P) →
      (Op.reset ∈ ops → Q ≠ [] ∨ ∀ n a, s.accumulators.get? n = some a →
        a.treeLeaves = [] ∨ ∃ t, a = .leaf (.tensor t)) →
      run ⟨s.slice b⟩ (ops.map (Op.slice b)) = .ok d →
      ∃ c, run ⟨s⟩ ops = .ok c ∧ d = ⟨c.state.slice b⟩ := by
  intro ops d h1 h2 h3 h4
  suffices hk : ∃ c, run ⟨s⟩ ops = .ok c by
    obtain ⟨c, hc⟩ := hk
    have := C100_vmap hs hP hb hc
    rw [h4] at this
    cases this
    exact ⟨c, hc, rfl⟩
  induction ops generalizing s d with
  | nil => exact ⟨_, rfl⟩
  | cons op ops ih =>
    simp only [List.map_cons, run, bind_ok] at h4
    obtain ⟨d1, e1, e2⟩ := h4
    simp only [run, bind_ok]
    cases op with
    | cache n x =>
      have e1 : Controller.cacheUpdate ⟨s.slice b⟩ n (x.map (Leaf.slice b)) = .ok d1 := e1
      have k1 := (Controller.cacheUpdate_ok_iff.1 e1).empty
      have k1 : (Dict.slice b s.updates).get? n = some .none := k1
      rw [Dict.get?_slice, Option.map_eq_some_iff] at k1
      obtain ⟨u, hu, hu'⟩ := k1
      rw [(PyTree.map_eq_none_iff _ u).2 hu'] at hu
      have hc : Controller.cacheUpdate ⟨s⟩ n x =
          .ok ⟨{ s with updates := s.updates.set n x }⟩ :=
        Controller.cacheUpdate_ok_iff.2 ⟨hu, rfl⟩
      have ks := Controller.cacheUpdate_ok_iff.1 hc
      have hd : d1 = ⟨ACTStates.slice b { s with updates := s.updates.set n x }⟩ := by
        have := slice_cacheUpdate b hc
        rw [e1] at this
        cases this
        rfl
      subst hd
      obtain ⟨c, hc'⟩ := ih (s := { s with updates := s.updates.set n x })
        (Controller.CacheStep.wf hs ks) hP (by
          intro m y hy
          simp only [Dict.get?_set] at hy
          split at hy
          · cases hy; exact h2 _ List.mem_cons_self
          · exact h1 m y hy)
        (fun op ho => h2 op (List.mem_cons_of_mem _ ho))
        (fun hr => h3 (List.mem_cons_of_mem _ hr)) e2
      exact ⟨c, _, hc, hc'⟩
    | iterate h =>
      have e1 : Controller.iterateAct ⟨s.slice b⟩ (h.slice b) = .ok d1 := e1
      obtain ⟨c1, hc1⟩ := stack_iterateAct hs hP hb h1 (h2 _ List.mem_cons_self) e1
      have st := Controller.iterateAct_ok hs hc1
      have hd := slice_iterateAct hs hP hb hc1
      rw [e1] at hd
      cases hd
      obtain ⟨c, hc'⟩ := ih (s := c1.state) (Controller.IterStep.wf hs st) (st.pshape.trans hP) (by
          intro m y hy
          have hm : m ∈ s.accumulators.keys := by
            rw [← hs.upd_iff, ← st.ukeys]; exact Dict.mem_keys_iff.2 ⟨y, hy⟩
          rw [st.cleared m hm] at hy
          cases hy
          intro l hl
          cases hl)
        (fun op ho => h2 op (List.mem_cons_of_mem _ ho))
        (fun hr => by
          rcases h3 (List.mem_cons_of_mem _ hr) with h | h
          · exact .inl h
          · right
            intro m a' ha'
            obtain ⟨a, ha⟩ := Dict.mem_keys_iff.1 (st.akeys ▸ Dict.mem_keys_iff.2 ⟨a', ha'⟩)
            obtain ⟨u, a2, -, q2, q3⟩ := st.tree m a ha
            rw [ha'] at q2; cases q2
            exact bare_of_same q3.struct (h m a ha)
              (Controller.IterStep.wf hs st |>.batched m a' ha')) e2
      exact ⟨c, _, hc1, hc'⟩
    | reset =>
      have e1 : Controller.resetBatches ⟨s.slice b⟩ = .ok d1 := e1
      have st1 := Controller.resetBatches_ok (hs.slice hP hb) e1
      have hidle : ∀ n u, s.updates.get? n = some u → u = .none := by
        intro n u hu
        have := st1.idle n (u.map (Leaf.slice b)) (by
          show (Dict.slice b s.updates).get? n = _
          rw [Dict.get?_slice, hu]; rfl)
        exact (PyTree.map_eq_none_iff _ u).2 (PyTree.isNone_iff.1 this)
      have hidle' : ∀ n u, (s.slice b).updates.get? n = some u → u = .none :=
        fun n u hu => PyTree.isNone_iff.1 (st1.idle n u hu)
      obtain ⟨c1, hc1⟩ := (C16_reset_succeeds_iff_partial hs hidle).2 (by
        right
        rcases h3 List.mem_cons_self with h | h
        · rcases (C16_reset_succeeds_iff_partial (hs.slice hP hb) hidle').1 ⟨d1, e1⟩ with h' | h'
          · exact absurd ((Tensor.slice_spec hP hb).1.symm.trans h') h
          · intro n a ha
            have := h' n (a.map (Leaf.slice b)) (by
              show (Dict.slice b s.accumulators).get? n = _
              rw [Dict.get?_slice, ha]; rfl)
            rcases this with q | ⟨t, q⟩
            · left
              rw [PyTree.treeLeaves_map, List.map_eq_nil_iff] at q
              exact q
            · right
              cases a with
              | leaf l =>
                cases l with
                | tensor t => exact ⟨t, rfl⟩
                | obj o => cases q
              | none => cases q
              | node k cs => cases q
        · exact h)
      have st := Controller.resetBatches_ok hs hc1
      have hd := slice_resetBatches hs hP hb hc1
      rw [e1] at hd
      cases hd
      obtain ⟨c, hc'⟩ := ih (s := c1.state) (Controller.ResetStep.wf hs st) (st.pshape.trans hP) (by
          intro m y hy
          rw [st.updates] at hy
          exact h1 m y hy)
        (fun op ho => h2 op (List.mem_cons_of_mem _ ho))
        (fun hr => by
          rcases h3 (List.mem_cons_of_mem _ hr) with h | h
          · exact .inl h
          · right
            intro m a' ha'
            obtain ⟨a, ha⟩ := Dict.mem_keys_iff.1 (st.akeys ▸ Dict.mem_keys_iff.2 ⟨a', ha'⟩)
            obtain ⟨u, a2, -, q2, q3, -, -⟩ := st.tree m a ha
            rw [ha'] at q2; cases q2
            exact bare_of_same q3 (h m a ha)
              (Controller.ResetStep.wf hs st |>.batched m a' ha')) e2
      exact ⟨c, _, hc1, hc'⟩

/-- C100, a consequence: `reset_batches` mapped over all batch axes succeeds for every kind of accumulator,
also for containers where the call on the whole batch raises (C16), and does what C15 asks of it. -/
theorem C100_vmap_resets_containers {s : ACTStates α} (hs : s.WF)
    (hidle : ∀ n u, s.updates.get? n = some u → u = .none) {b : List Nat}
    (hb : InB s.probabilities.shape b) :
    ∃ d, Controller.resetBatches ⟨s.slice b⟩ = .ok d ∧
      ∀ (name : String) (k : Nat) (i : List Nat) (a : α),
        entry? s.accumulators name k (b ++ i) = some a →
        ((Controller.haltedBatches ⟨s⟩).at? b = some true →
          entry? d.accumulators name k i = entry? s.defaults name k (b ++ i) ∧
          entry? s.defaults name k (b ++ i) ≠ Option.none) ∧
        ((Controller.haltedBatches ⟨s⟩).at? b = some false →
          entry? d.accumulators name k i = some a) := by
  have hP : s.probabilities.shape = s.probabilities.shape ++ [] := by simp
  have hw := hs.slice hP hb
  obtain ⟨d, hd⟩ := (C16_reset_succeeds_iff_partial hw (by
    intro n u hu
    have hu : (Dict.slice b s.updates).get? n = some u := hu
    rw [Dict.get?_slice, Option.map_eq_some_iff] at hu
    obtain ⟨v, hv, rfl⟩ := hu
    rw [hidle n v hv]; rfl)).2 (.inl (Tensor.slice_spec hP hb).1)
  refine ⟨d, hd, fun name k i a ha => ?_⟩
  have hsub : ∀ u n, (∃ v, s.updates.get? n = some v ∧ v = u) → Sliceable s.probabilities.shape u := by
    rintro u n ⟨v, hv, rfl⟩
    rw [hidle n v hv]
    intro l hl
    cases hl
  obtain ⟨p, hp⟩ := exists_at? hb
  have sl := SliceOf.slice hs hp (fun n x hx => hsub x n ⟨x, hx, rfl⟩)
  have hh := sl.agree.halted hs hw
  have hA : entry? (s.slice b).accumulators name k i = some a :=
    (sl.agree.acc.entry_slice name k i).symm.trans ha
  have hD := sl.agree.default.entry_slice name k i
  obtain ⟨-, -, h3⟩ := C15_reset_accumulators hw hd name k i
  have hsh : (s.slice b).probabilities.shape = [] := (Tensor.slice_spec hP hb).1
  have h3 := h3 a hA
  rw [hsh, List.length_nil, List.take_zero] at h3
  simp only at h3
  rw [← hh] at h3
  rcases h3 with ⟨q1, q2, q3⟩ | ⟨q1, q2⟩
  · rw [hD]
    exact ⟨fun _ => ⟨q2, q3⟩, fun q => absurd (q1.symm.trans q) (by simp)⟩
  · exact ⟨fun q => absurd (q1.symm.trans q) (by simp), fun _ => q2⟩

section Example
open Fixtures
attribute [local instance] Arith.exact

/-- A controller with batch shape `(2, 2)` and one tensor accumulator. -/
def grid : ACTStates ℚ :=
  { fresh with
    iterations := ⟨.f32, ⟨[2, 2], fun _ _ => 0⟩⟩
    residuals := ⟨.f32, ⟨[2, 2], fun _ _ => 0⟩⟩
    probabilities := ⟨.f32, ⟨[2, 2], fun _ _ => 0⟩⟩
    defaults := [("out", bare ⟨.f32, ⟨[2, 2, 1], fun _ _ => 0⟩⟩)]
    accumulators := [("out", bare ⟨.f32, ⟨[2, 2, 1], fun _ _ => 0⟩⟩)]
    updates := [("out", .none)] }

theorem grid_wf : grid.WF where
  floating := rfl
  res_shape := rfl
  res_dtype := rfl
  it_shape := rfl
  it_dtype := by decide
  acc_keys := by unfold Dict.WF; decide
  def_keys := by unfold Dict.WF; decide
  upd_keys := by unfold Dict.WF; decide
  def_iff := by intro n; exact Iff.rfl
  upd_iff := by intro n; exact Iff.rfl
  batched := by
    intro n t h
    obtain ⟨-, rfl⟩ := get?_one h
    exact batched_bare _ _ rfl ⟨[1], rfl⟩
  same := by
    intro n t u h1 h2
    have : some t = some u := h1.symm.trans h2
    cases this
    obtain ⟨-, rfl⟩ := get?_one h1
    exact sameType_refl (b := [2, 2]) (batched_bare _ _ rfl ⟨[1], rfl⟩)

/-- Two rounds and a reset; the halting probability of element `(i, j)` is `1/2 + i/4 + j/8`. -/
def gridOps : List (Op ℚ) :=
  [.cache "out" (bare ⟨.f32, ⟨[2, 2, 1], fun i _ => 1 + i.headD 0⟩⟩),
   .iterate ⟨.f32, ⟨[2, 2], fun i _ => 1/2 + i.headD 0 / 4 + i.getLastD 0 / 8⟩⟩,
   .cache "out" (bare ⟨.f32, ⟨[2, 2, 1], fun i _ => 5 + i.headD 0⟩⟩),
   .iterate ⟨.f32, ⟨[2, 2], fun _ _ => 3/8⟩⟩,
   .reset,
   .cache "out" (bare ⟨.f32, ⟨[2, 2, 1], fun _ _ => 7⟩⟩)]

/-- The stack, and its second row with batch shape `(2,)`. -/
example : obs (run ⟨grid⟩ gridOps) (fun c => some (c.probabilities.at? [1, 0],
      c.probabilities.at? [0, 0], entry? c.accumulators "out" 0 [0, 0, 0])) =
      some (some 0, some (7/8), some (1/2 * 1 + 3/8 * 5)) ∧
    obs (run ⟨grid.slice [0]⟩ (gridOps.map (Op.slice [0]))) (fun c => some (c.probabilities.at? [0],
      c.probabilities.at? [1], entry? c.accumulators "out" 0 [0, 0])) =
      some (some (7/8), some 0, some (1/2 * 1 + 3/8 * 5)) ∧
    obs (run ⟨grid.slice [1]⟩ (gridOps.map (Op.slice [1]))) (fun c => some (c.probabilities.at? [0],
      c.probabilities.shape)) = some (some 0, [2]) := by
  decide +kernel

/-- The hypotheses hold: `(2, 2)` is `(2,)` and `(2,)`, and the calls succeed. -/
example : grid.WF ∧ grid.probabilities.shape = [2] ++ [2] ∧ InB [2] [1] ∧
    succeeds (run ⟨grid⟩ gridOps) = true ∧ (∀ op ∈ gridOps, op.Stacked [2]) := by
  refine ⟨grid_wf, rfl, by simp [InB], by decide +kernel, ?_⟩
  have hb (t : Tensor ℚ) (h : [2] <+: t.shape) : Sliceable [2] (bare t) := by
    intro l hl
    have : (bare t).treeLeaves = [.tensor t] := rfl
    rw [this, List.mem_singleton] at hl
    exact ⟨t, hl, h⟩
  intro op h
  simp only [gridOps, List.mem_cons, List.not_mem_nil, or_false] at h
  rcases h with rfl | rfl | rfl | rfl | rfl | rfl
  · exact hb _ ⟨[2, 1], rfl⟩
  · exact ⟨[2], rfl⟩
  · exact hb _ ⟨[2, 1], rfl⟩
  · exact ⟨[2], rfl⟩
  · trivial
  · exact hb _ ⟨[2, 1], rfl⟩

/-- On `fresh`, which has a list accumulator, a reset raises, but not element by element. -/
example : raised (Controller.resetBatches ⟨fresh⟩) = some .attributeError ∧
    succeeds (Controller.resetBatches ⟨fresh.slice [0]⟩) = true ∧
    succeeds (Controller.resetBatches ⟨fresh.slice [1]⟩) = true ∧ fresh.WF ∧
    InB fresh.probabilities.shape [1] :=
  ⟨by decide +kernel, by decide +kernel, by decide +kernel, fresh_wf, by
    show InB [2] [1]; simp [InB]⟩

end Example

end JaxAct
