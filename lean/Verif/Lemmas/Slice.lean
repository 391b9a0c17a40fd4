import Verif.Spec.Slice
import Verif.Lemmas.Agree
import Verif.Props.C13
import Verif.Props.C16

/-! # Lemmas about slices -/

namespace JaxAct
open ACTStates
variable {α : Type}

theorem Arr.slice_spec {β : Type} {a : Arr β} {s r b : List Nat} (hs : a.shape = s ++ r)
    (hb : InB s b) : (a.slice b).shape = r ∧ ∀ i, (a.slice b).at? i = a.at? (b ++ i) := by
  have hl : b.length = s.length := hb.length
  have h : InB (a.shape.take b.length) b := by rw [hs, hl, List.take_left]; exact hb
  have hd : a.shape.drop b.length = r := by rw [hs, hl, List.drop_left]
  unfold Arr.slice
  rw [dif_pos h]
  refine ⟨hd, fun i => ?_⟩
  by_cases hi : InB (a.shape.drop b.length) i
  · rw [Arr.at?_of_inB (a := ⟨a.shape.drop b.length, _⟩) hi, Arr.at?_of_inB (inB_take_drop h hi)]
  · rw [Arr.at?_of_not (a := ⟨a.shape.drop b.length, _⟩) hi, Arr.at?_of_not]
    intro hh
    rw [hs, inB_append hl] at hh
    exact hi (hd ▸ hh.2)

theorem Arr.slice_shape {β : Type} (a : Arr β) (b : List Nat) : (a.slice b).shape =
    if InB (a.shape.take b.length) b then a.shape.drop b.length else a.shape := by
  unfold Arr.slice; split <;> rfl

theorem Tensor.slice_spec {t : Tensor α} {s r b : List Nat} (hs : t.shape = s ++ r)
    (hb : InB s b) : (t.slice b).shape = r ∧ ∀ i, (t.slice b).at? i = t.at? (b ++ i) :=
  Arr.slice_spec hs hb

/-- Slicing a tensor of the batch shape gives a scalar. -/
theorem Tensor.slice_scalar {t : Tensor α} {b : List Nat} (hb : InB t.shape b) :
    (t.slice b).shape = [] ∧ (t.slice b).at? [] = t.at? b := by
  obtain ⟨h1, h2⟩ := Tensor.slice_spec (t := t) (r := []) (by simp) hb
  exact ⟨h1, by simpa using h2 []⟩

/-- Leaf by leaf, the second tree has the shapes of the first without the batch axes. -/
def Shapes (batch : List Nat) (x y : PyTree (Leaf α)) : Prop :=
  List.Forall₂ (fun l m => ∃ t u : Tensor α, l = .tensor t ∧ m = .tensor u ∧
    t.shape = batch ++ u.shape) x.treeLeaves y.treeLeaves

theorem Sliceable.spec {batch b : List Nat} {x : PyTree (Leaf α)} (h : Sliceable batch x)
    (hb : InB batch b) : Shapes batch x (x.map (Leaf.slice b)) ∧
      TreeAgree b [] x (x.map (Leaf.slice b)) := by
  unfold Shapes TreeAgree
  rw [PyTree.treeLeaves_map]
  simp only [List.forall₂_map_right_iff]
  constructor <;>
  · rw [List.forall₂_same]
    intro l hl
    obtain ⟨t, rfl, r, hr⟩ := h l hl
    obtain ⟨h1, h2⟩ := Tensor.slice_spec hr.symm hb
    first
    | exact ⟨t, _, rfl, rfl, by rw [h1]; exact hr.symm⟩
    | exact ⟨t, _, rfl, rfl, rfl, fun i => by rw [List.nil_append]; exact (h2 i).symm⟩

theorem Dict.get?_slice (b : List Nat) (d : Dict (PyTree (Leaf α))) (n : String) :
    (Dict.slice b d).get? n = (d.get? n).map (PyTree.map (Leaf.slice b)) := by
  induction d with
  | nil => rfl
  | cons kv d ih =>
    simp only [Dict.slice, List.map_cons] at ih ⊢
    rw [Dict.get?_cons, Dict.get?_cons]
    split
    · rfl
    · exact ih

theorem Dict.keys_slice (b : List Nat) (d : Dict (PyTree (Leaf α))) :
    (Dict.slice b d).keys = d.keys := by
  simp only [Dict.slice, Dict.keys, List.map_map]; rfl

theorem Batched.sliceable {batch : List Nat} {x : PyTree (Leaf α)} (h : Batched batch x) :
    Sliceable batch x := fun l hl => by
  obtain ⟨t, h1, -, h3⟩ := h l hl
  exact ⟨t, h1, h3⟩

/-- `t` is the part of `s` at batch index `b`. -/
structure SliceOf (b : List Nat) (s t : ACTStates α) : Prop where
  agree : AgreeAt b [] s t
  wf : t.WF
  scalar : t.probabilities.shape = []
  acc : ∀ n x y, s.accumulators.get? n = some x → t.accumulators.get? n = some y →
    Shapes s.probabilities.shape x y
  upd : ∀ n x y, s.updates.get? n = some x → t.updates.get? n = some y →
    Shapes s.probabilities.shape x y ∧ (x = .none ↔ y = .none)

theorem PyTree.map_eq_none_iff {β γ : Type} (f : β → γ) (x : PyTree β) :
    x = .none ↔ x.map f = .none := by
  cases x <;> simp [PyTree.map]

theorem dictAgree_slice {batch b : List Nat} {d : Dict (PyTree (Leaf α))} (hb : InB batch b)
    (h : ∀ n x, d.get? n = some x → Sliceable batch x) : DictAgree b [] d (Dict.slice b d) := by
  intro n
  rw [Dict.get?_slice]
  cases hn : d.get? n with
  | none => exact Option.Rel.none
  | some x => exact Option.Rel.some ((h n x hn).spec hb).2

/-- The slice of a well-formed state. -/
theorem SliceOf.slice {s : ACTStates α} (hs : s.WF) {b : List Nat} {p : α}
    (hb : s.probabilities.at? b = some p)
    (hupd : ∀ n x, s.updates.get? n = some x → Sliceable s.probabilities.shape x) :
    SliceOf b s (s.slice b) := by
  have hin : InB s.probabilities.shape b := Arr.at?_isSome.1 (by
    simp only [Tensor.at?] at hb; rw [hb]; rfl)
  obtain ⟨p1, p2⟩ := Tensor.slice_scalar hin
  obtain ⟨r1, r2⟩ := Tensor.slice_scalar (t := s.residuals) (hs.res_shape.symm ▸ hin)
  obtain ⟨n1, n2⟩ := Tensor.slice_scalar (t := s.iterations) (hs.it_shape.symm ▸ hin)
  have hacc : ∀ n x, s.accumulators.get? n = some x → Sliceable s.probabilities.shape x :=
    fun n x h => (hs.batched n x h).sliceable
  have hdef : ∀ n x, s.defaults.get? n = some x → Sliceable s.probabilities.shape x := by
    intro n x h
    obtain ⟨a, ha⟩ := Dict.mem_keys_iff.1 ((hs.def_iff n).1 (Dict.mem_keys_iff.2 ⟨x, h⟩))
    obtain ⟨-, hf⟩ := hs.same n a x ha h
    intro l hl
    obtain ⟨k, hk, rfl⟩ := List.getElem_of_mem hl
    have hk' : k < a.treeLeaves.length := by rw [hf.length_eq]; exact hk
    obtain ⟨t, u, e1, e2, e3, -⟩ := (List.forall₂_iff_get.1 hf).2 k hk' hk
    obtain ⟨t', f1, f2⟩ := hacc n a ha _ (List.getElem_mem hk')
    simp only [List.get_eq_getElem] at e1 e2
    rw [e1] at f1; cases f1
    exact ⟨u, e2, e3 ▸ f2⟩
  refine ⟨⟨rfl, rfl, rfl, rfl, p2.symm, r2.symm, n2.symm, dictAgree_slice hin hacc,
    dictAgree_slice hin hdef, dictAgree_slice hin hupd⟩, ?_, p1, ?_, ?_⟩
  · refine ⟨hs.floating, by show (s.residuals.slice b).shape = _; rw [r1]; exact p1.symm,
      hs.res_dtype, by show (s.iterations.slice b).shape = _; rw [n1]; exact p1.symm,
      hs.it_dtype, ?_, ?_, ?_, ?_, ?_, ?_, ?_⟩
    · show (Dict.slice b s.accumulators).WF
      rw [Dict.WF, Dict.keys_slice]; exact hs.acc_keys
    · show (Dict.slice b s.defaults).WF
      rw [Dict.WF, Dict.keys_slice]; exact hs.def_keys
    · show (Dict.slice b s.updates).WF
      rw [Dict.WF, Dict.keys_slice]; exact hs.upd_keys
    · intro n
      show n ∈ (Dict.slice b s.defaults).keys ↔ n ∈ (Dict.slice b s.accumulators).keys
      rw [Dict.keys_slice, Dict.keys_slice]; exact hs.def_iff n
    · intro n
      show n ∈ (Dict.slice b s.updates).keys ↔ n ∈ (Dict.slice b s.accumulators).keys
      rw [Dict.keys_slice, Dict.keys_slice]; exact hs.upd_iff n
    · intro n t ht l hl
      have ht : (Dict.slice b s.accumulators).get? n = some t := ht
      rw [Dict.get?_slice, Option.map_eq_some_iff] at ht
      obtain ⟨x, hx, rfl⟩ := ht
      rw [PyTree.treeLeaves_map, List.mem_map] at hl
      obtain ⟨l, hl, rfl⟩ := hl
      obtain ⟨t, rfl, h2, -⟩ := hs.batched n x hx l hl
      exact ⟨t.slice b, rfl, h2, by
        show (s.probabilities.slice b).shape <+: _
        rw [p1]; exact List.nil_prefix⟩
    · intro n t u ht hu
      have ht : (Dict.slice b s.accumulators).get? n = some t := ht
      have hu : (Dict.slice b s.defaults).get? n = some u := hu
      rw [Dict.get?_slice, Option.map_eq_some_iff] at ht hu
      obtain ⟨x, hx, rfl⟩ := ht
      obtain ⟨y, hy, rfl⟩ := hu
      obtain ⟨e1, e2⟩ := hs.same n x y hx hy
      refine ⟨by simpa using e1, ?_⟩
      rw [PyTree.treeLeaves_map, PyTree.treeLeaves_map, List.forall₂_map_left_iff,
        List.forall₂_map_right_iff]
      refine e2.imp ?_
      rintro l m ⟨c, d, rfl, rfl, e3, e4⟩
      refine ⟨c.slice b, d.slice b, rfl, rfl, ?_, e4⟩
      show (c.arr.slice b).shape = (d.arr.slice b).shape
      have e3 : c.arr.shape = d.arr.shape := e3
      rw [Arr.slice_shape, Arr.slice_shape, e3]
  · intro n x y hx hy
    have hy : (Dict.slice b s.accumulators).get? n = some y := hy
    rw [Dict.get?_slice, hx, Option.map_some, Option.some.injEq] at hy
    subst hy
    exact ((hacc n x hx).spec hin).1
  · intro n x y hx hy
    have hy : (Dict.slice b s.updates).get? n = some y := hy
    rw [Dict.get?_slice, hx, Option.map_some, Option.some.injEq] at hy
    subst hy
    exact ⟨((hupd n x hx).spec hin).1, PyTree.map_eq_none_iff _ _⟩

variable [Arith α]

/-- If `iterate_act` succeeds on the batch, it succeeds on the slice, with the slice of the
result. -/
theorem SliceOf.iterateAct {s t : ACTStates α} (hs : s.WF) {b : List Nat} {p : α}
    (hb : s.probabilities.at? b = some p) (sl : SliceOf b s t) {h : Tensor α} {c : Controller α}
    (h1 : Controller.iterateAct ⟨s⟩ h = .ok c) :
    ∃ d, Controller.iterateAct ⟨t⟩ (h.slice b) = .ok d ∧ SliceOf b c.state d.state := by
  have hin : InB s.probabilities.shape b := Arr.at?_isSome.1 (by
    simp only [Tensor.at?] at hb; rw [hb]; rfl)
  obtain ⟨g1, g2, g3⟩ := (C13_iterate_succeeds_iff hs h).1 ⟨c, h1⟩
  obtain ⟨s1, s2⟩ := Tensor.slice_scalar (t := h) (g1.symm ▸ hin)
  obtain ⟨d, hd⟩ := (C13_iterate_succeeds_iff sl.wf (h.slice b)).2 ⟨by rw [s1, sl.scalar],
    by rw [← sl.agree.pdtype]; exact g2, by
    intro n y hy
    obtain ⟨x, hx⟩ := Dict.mem_keys_iff.1
      ((sl.agree.acc.keys_iff n).2 (Dict.mem_keys_iff.2 ⟨y, hy⟩))
    obtain ⟨u, hu, hne, hf⟩ := g3 n x hx
    obtain ⟨v, hv⟩ := Dict.mem_keys_iff.1
      ((sl.agree.upd.keys_iff n).1 (Dict.mem_keys_iff.2 ⟨u, hu⟩))
    obtain ⟨hS, hN⟩ := sl.upd n u v hu hv
    refine ⟨v, hv, fun e => hne (hN.2 e), ?_⟩
    have hA := sl.agree.acc n
    have hU := sl.agree.upd n
    rw [hx, hy] at hA
    rw [hu, hv] at hU
    cases hA with
    | some hA =>
    cases hU with
    | some hU =>
    have hSa := sl.acc n x y hx hy
    rw [List.forall₂_iff_get]
    refine ⟨by rw [← hA.length_eq, ← hU.length_eq]; exact hf.length_eq, fun k k1 k2 => ?_⟩
    have k1' : k < x.treeLeaves.length := by rw [hA.length_eq]; exact k1
    have k2' : k < u.treeLeaves.length := by rw [hU.length_eq]; exact k2
    obtain ⟨a1, a2, i1, i2, i3, -⟩ := (List.forall₂_iff_get.1 hA).2 k k1' k1
    obtain ⟨u1, u2, j1, j2, j3, -⟩ := (List.forall₂_iff_get.1 hU).2 k k2' k2
    obtain ⟨a3, a4, l1, l2, l3⟩ := (List.forall₂_iff_get.1 hSa).2 k k1' k1
    obtain ⟨u3, u4, m1, m2, m3⟩ := (List.forall₂_iff_get.1 hS).2 k k2' k2
    obtain ⟨a5, u5, n1, n2, n3, n4⟩ := (List.forall₂_iff_get.1 hf).2 k k1' k2'
    rw [i1] at l1 n1; rw [i2] at l2; rw [j1] at m1 n2; rw [j2] at m2
    cases l1; cases l2; cases m1; cases m2; cases n1; cases n2
    refine ⟨a2, u2, i2, j2, ?_, by rw [← i3, ← j3, ← sl.agree.pdtype]; exact n4⟩
    rw [l3, m3] at n3
    exact List.append_cancel_left n3⟩
  refine ⟨d, hd, ?_⟩
  have st := Controller.iterateAct_ok hs h1
  have st' := Controller.iterateAct_ok sl.wf hd
  refine ⟨sl.agree.iterateAct hs sl.wf hb (h := h) (g := h.slice b) rfl s2.symm h1 hd, Controller.IterStep.wf sl.wf st',
    st'.pshape.trans sl.scalar, ?_, ?_⟩
  · intro n x' y' hx' hy'
    obtain ⟨x, hx⟩ := Dict.mem_keys_iff.1 (st.akeys ▸ Dict.mem_keys_iff.2 ⟨x', hx'⟩)
    obtain ⟨y, hy⟩ := Dict.mem_keys_iff.1 (st'.akeys ▸ Dict.mem_keys_iff.2 ⟨y', hy'⟩)
    obtain ⟨u, a', u1, u2, u3⟩ := st.tree n x hx
    obtain ⟨v, b', v1, v2, v3⟩ := st'.tree n y hy
    rw [hx'] at u2; cases u2
    rw [hy'] at v2; cases v2
    have hS := sl.acc n x y hx hy
    have l1 : x'.treeLeaves.length = x.treeLeaves.length := by
      rw [← PyTree.treeStructure_leaves_length, u3.struct, PyTree.treeStructure_leaves_length]
    have l2 : y'.treeLeaves.length = y.treeLeaves.length := by
      rw [← PyTree.treeStructure_leaves_length, v3.struct, PyTree.treeStructure_leaves_length]
    unfold Shapes
    rw [List.forall₂_iff_get]
    refine ⟨by rw [l1, l2]; exact hS.length_eq, fun k k1 k2 => ?_⟩
    obtain ⟨t1, t2, e1, e2, e3⟩ := (List.forall₂_iff_get.1 hS).2 k (l1 ▸ k1) (l2 ▸ k2)
    obtain ⟨ta, tu, ta', f1, f2, f3, f4⟩ := u3.leaf k _ (List.getElem?_eq_getElem (l1 ▸ k1))
    obtain ⟨tb, tv, tb', g1, g2, g3, g4⟩ := v3.leaf k _ (List.getElem?_eq_getElem (l2 ▸ k2))
    simp only [List.get_eq_getElem] at e1 e2
    rw [e1] at f1; rw [e2] at g1
    cases f1; cases g1
    rw [List.getElem?_eq_getElem k1] at f3
    rw [List.getElem?_eq_getElem k2] at g3
    refine ⟨ta', tb', Option.some.inj f3, Option.some.inj g3, ?_⟩
    rw [f4.shape, g4.shape, st.pshape, e3]
  · intro n x y hx hy
    have k1 : n ∈ s.accumulators.keys := by
      rw [← hs.upd_iff, ← st.ukeys]; exact Dict.mem_keys_iff.2 ⟨x, hx⟩
    have k2 : n ∈ t.accumulators.keys := by
      rw [← sl.wf.upd_iff, ← st'.ukeys]; exact Dict.mem_keys_iff.2 ⟨y, hy⟩
    rw [st.cleared n k1] at hx
    rw [st'.cleared n k2] at hy
    cases hx; cases hy
    exact ⟨List.Forall₂.nil, Iff.rfl⟩

/-- If `reset_batches` succeeds on the batch, it succeeds on the slice, with the slice of the
result. -/
theorem SliceOf.resetBatches {s t : ACTStates α} (hs : s.WF) {b : List Nat} {p : α}
    (hb : s.probabilities.at? b = some p) (sl : SliceOf b s t) {c : Controller α}
    (h1 : Controller.resetBatches ⟨s⟩ = .ok c) :
    ∃ d, Controller.resetBatches ⟨t⟩ = .ok d ∧ SliceOf b c.state d.state := by
  have hidle : ∀ n u, s.updates.get? n = some u → u = .none := by
    rcases Controller.resetBatches_result hs with ⟨-, h⟩ | ⟨h, -⟩
    · rw [h1] at h; cases h
    · intro n u hu
      have := h n u hu
      cases u <;> simp_all [PyTree.isNone]
  obtain ⟨d, hd⟩ := (C16_reset_succeeds_iff_partial sl.wf (by
    intro n v hv
    obtain ⟨u, hu⟩ := Dict.mem_keys_iff.1
      ((sl.agree.upd.keys_iff n).2 (Dict.mem_keys_iff.2 ⟨v, hv⟩))
    exact (sl.upd n u v hu hv).2.1 (hidle n u hu))).2 (.inl sl.scalar)
  refine ⟨d, hd, ?_⟩
  have st := Controller.resetBatches_ok hs h1
  have st' := Controller.resetBatches_ok sl.wf hd
  refine ⟨sl.agree.resetBatches hs sl.wf hb h1 hd, Controller.ResetStep.wf sl.wf st',
    st'.pshape.trans sl.scalar, ?_, ?_⟩
  · intro n x' y' hx' hy'
    obtain ⟨x, hx⟩ := Dict.mem_keys_iff.1 (st.akeys ▸ Dict.mem_keys_iff.2 ⟨x', hx'⟩)
    obtain ⟨y, hy⟩ := Dict.mem_keys_iff.1 (st'.akeys ▸ Dict.mem_keys_iff.2 ⟨y', hy'⟩)
    obtain ⟨u, a', u1, u2, u4, -, u3⟩ := st.tree n x hx
    obtain ⟨v, b', v1, v2, v4, -, v3⟩ := st'.tree n y hy
    rw [hx'] at u2; cases u2
    rw [hy'] at v2; cases v2
    have hS := sl.acc n x y hx hy
    have l1 : x'.treeLeaves.length = x.treeLeaves.length := by
      rw [← PyTree.treeStructure_leaves_length, u4, PyTree.treeStructure_leaves_length]
    have l2 : y'.treeLeaves.length = y.treeLeaves.length := by
      rw [← PyTree.treeStructure_leaves_length, v4, PyTree.treeStructure_leaves_length]
    unfold Shapes
    rw [List.forall₂_iff_get]
    refine ⟨by rw [l1, l2]; exact hS.length_eq, fun k k1 k2 => ?_⟩
    obtain ⟨t1, t2, e1, e2, e3⟩ := (List.forall₂_iff_get.1 hS).2 k (l1 ▸ k1) (l2 ▸ k2)
    obtain ⟨ta, tu, ta', f1, f2, f3, f4⟩ := u3 k _ (List.getElem?_eq_getElem (l1 ▸ k1))
    obtain ⟨tb, tv, tb', g1, g2, g3, g4⟩ := v3 k _ (List.getElem?_eq_getElem (l2 ▸ k2))
    simp only [List.get_eq_getElem] at e1 e2
    rw [e1] at f1; rw [e2] at g1
    cases f1; cases g1
    rw [List.getElem?_eq_getElem k1] at f3
    rw [List.getElem?_eq_getElem k2] at g3
    refine ⟨ta', tb', Option.some.inj f3, Option.some.inj g3, ?_⟩
    rw [f4.shape, g4.shape, st.pshape, e3]
  · intro n x y hx hy
    rw [st.updates] at hx
    rw [st'.updates] at hy
    rw [st.pshape]
    exact sl.upd n x y hx hy

end JaxAct
