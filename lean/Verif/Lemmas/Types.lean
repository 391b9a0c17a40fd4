import Verif.Spec.Types
import Verif.Props.C10
import Verif.Props.C13
import Verif.Props.C14
import Verif.Lemmas.Reset

/-! # Lemmas about values of the same types -/

namespace JaxAct
open PyTree
variable {α β γ : Type}

theorem Leaf.type_some {l : Leaf α} {v : List Nat × DType} :
    l.type = some v ↔ ∃ t : Tensor α, l = .tensor t ∧ t.shape = v.1 ∧ t.dtype = v.2 := by
  cases l with
  | tensor t => simp [Leaf.type, Prod.ext_iff]
  | obj o => simp [Leaf.type]

theorem TreesAlike.refl (t : PyTree (Leaf α)) : TreesAlike t t := ⟨rfl, rfl⟩

theorem TreesAlike.symm {s : PyTree (Leaf α)} {t : PyTree (Leaf β)} (h : TreesAlike s t) :
    TreesAlike t s := ⟨h.1.symm, h.2.symm⟩

theorem TreesAlike.trans {s : PyTree (Leaf α)} {t : PyTree (Leaf β)} {u : PyTree (Leaf γ)}
    (h : TreesAlike s t) (h' : TreesAlike t u) : TreesAlike s u := ⟨h.1.trans h'.1, h.2.trans h'.2⟩

theorem treeStructure_none {β : Type} {t : PyTree β} : t.treeStructure = .none ↔ t = .none := by
  cases t with
  | leaf x => simp [treeStructure, canon, struct, PyTree.map]
  | none => simp [treeStructure, canon, struct, PyTree.map]
  | node k cs => cases k <;> simp [treeStructure, canon, struct, PyTree.map, sortNode]

theorem treeStructure_leaf {β : Type} {t : PyTree β} :
    t.treeStructure = .leaf () ↔ ∃ l, t = .leaf l := by
  cases t with
  | leaf x => simp [treeStructure, canon, struct, PyTree.map]
  | none => simp [treeStructure, canon, struct, PyTree.map]
  | node k cs => cases k <;> simp [treeStructure, canon, struct, PyTree.map, sortNode]

theorem TreesAlike.none_iff {s : PyTree (Leaf α)} {t : PyTree (Leaf β)} (h : TreesAlike s t) :
    s = .none ↔ t = .none := by
  rw [← treeStructure_none (t := s), h.1, treeStructure_none]

theorem TreesAlike.leaf_iff {s : PyTree (Leaf α)} {t : PyTree (Leaf β)} (h : TreesAlike s t) :
    (∃ l, s = .leaf l) ↔ ∃ l, t = .leaf l := by
  rw [← treeStructure_leaf (t := s), h.1, treeStructure_leaf]

theorem TreesAlike.none : TreesAlike (α := α) (β := β) .none .none := ⟨rfl, rfl⟩

theorem TreesAlike.of_sameType {s t : PyTree (Leaf α)} (h : SameType s t) : TreesAlike s t := by
  refine ⟨h.1, ?_⟩
  rw [← List.forall₂_eq_eq_eq, List.forall₂_map_left_iff, List.forall₂_map_right_iff]
  refine h.2.imp fun x y ⟨a, b, h1, h2, h3, h4⟩ => ?_
  rw [h1, h2, Leaf.type, Leaf.type, h3, h4]

/-- All leaves of a tree are tensors. -/
theorem TreesAlike.sameType {s t : PyTree (Leaf α)} (h : TreesAlike s t)
    (ht : ∀ l ∈ s.treeLeaves, ∃ a, l = .tensor a) : SameType s t := by
  refine ⟨h.1, ?_⟩
  have h2 := h.2
  rw [← List.forall₂_eq_eq_eq, List.forall₂_map_left_iff, List.forall₂_map_right_iff] at h2
  refine ((List.forall₂_and_left _ _).2 ⟨ht, h2⟩).imp fun x y h => ?_
  obtain ⟨⟨a, rfl⟩, h⟩ := h
  obtain ⟨b, rfl, h3, h4⟩ := Leaf.type_some.1 h.symm
  exact ⟨a, b, rfl, rfl, h3.symm, h4.symm⟩

theorem forall₂_type_iff {R : (List Nat × DType) → (List Nat × DType) → Prop}
    {as us : List (Leaf α)} :
    List.Forall₂ (fun la lu => ∃ ta tu : Tensor α, la = .tensor ta ∧ lu = .tensor tu ∧
      R (ta.shape, ta.dtype) (tu.shape, tu.dtype)) as us ↔
    List.Forall₂ (fun x y => ∃ v w, x = some v ∧ y = some w ∧ R v w) (as.map Leaf.type)
      (us.map Leaf.type) := by
  rw [List.forall₂_map_left_iff, List.forall₂_map_right_iff]
  refine ⟨fun h => h.imp ?_, fun h => h.imp ?_⟩
  · rintro x y ⟨a, u, rfl, rfl, h⟩
    exact ⟨_, _, rfl, rfl, h⟩
  · rintro x y ⟨⟨v1, v2⟩, ⟨w1, w2⟩, h1, h2, h⟩
    obtain ⟨a, rfl, e1, e2⟩ := Leaf.type_some.1 h1
    obtain ⟨u, rfl, f1, f2⟩ := Leaf.type_some.1 h2
    simp only at e1 e2 f1 f2
    subst e1 e2 f1 f2
    exact ⟨a, u, rfl, rfl, h⟩

theorem updateFits_iff {d : DType} {a u : PyTree (Leaf α)} {a' u' : PyTree (Leaf β)}
    (ha : TreesAlike a a') (hu : TreesAlike u u') : UpdateFits d a u ↔ UpdateFits d a' u' := by
  have key : ∀ {γ : Type} (a u : PyTree (Leaf γ)), UpdateFits d a u ↔ u ≠ .none ∧
      List.Forall₂ (fun x y => ∃ v w : List Nat × DType, x = some v ∧ y = some w ∧ (w.1 = v.1 ∧
        DType.promote v.2 (DType.promote d w.2) = v.2))
        (a.treeLeaves.map Leaf.type) (u.treeLeaves.map Leaf.type) := by
    intro γ a u
    unfold UpdateFits
    rw [← forall₂_type_iff (R := fun v w => w.1 = v.1 ∧
        DType.promote v.2 (DType.promote d w.2) = v.2)]
  rw [key, key, ha.2, hu.2, Ne, Ne, hu.none_iff]

theorem optionRel_some_left {A B : Type} {R : A → B → Prop} {x : A} {o : Option B}
    (h : Option.Rel R (some x) o) : ∃ y, o = some y ∧ R x y := by
  cases h with
  | some h => exact ⟨_, rfl, h⟩

theorem optionRel_some_right {A B : Type} {R : A → B → Prop} {y : B} {o : Option A}
    (h : Option.Rel R o (some y)) : ∃ x, o = some x ∧ R x y := by
  cases h with
  | some h => exact ⟨_, rfl, h⟩

theorem optionRel_none_iff {A B : Type} {R : A → B → Prop} {o : Option A} {o' : Option B}
    (h : Option.Rel R o o') : o = Option.none ↔ o' = Option.none := by
  cases h <;> simp

theorem Dict.get?_map_none (d : Dict (PyTree (Leaf α))) (n : String) :
    Dict.get? (d.map fun kv => (kv.1, (.none : PyTree (Leaf α)))) n =
      (d.get? n).map fun _ => .none := by
  induction d with
  | nil => rfl
  | cons kv d ih => simp only [List.map_cons, Dict.get?_cons, ih]; split <;> rfl

theorem DictsAlike.keys_iff {d : Dict (PyTree (Leaf α))} {e : Dict (PyTree (Leaf β))}
    (h : DictsAlike d e) (n : String) : n ∈ d.keys ↔ n ∈ e.keys := by
  rw [Dict.mem_keys_iff, Dict.mem_keys_iff]
  constructor
  · rintro ⟨t, ht⟩
    obtain ⟨u, hu, -⟩ := optionRel_some_left (ht ▸ h n)
    exact ⟨u, hu⟩
  · rintro ⟨t, ht⟩
    obtain ⟨u, hu, -⟩ := optionRel_some_right (ht ▸ h n)
    exact ⟨u, hu⟩

theorem DictsAlike.symm {d : Dict (PyTree (Leaf α))} {e : Dict (PyTree (Leaf β))}
    (h : DictsAlike d e) : DictsAlike e d := by
  intro n
  have := h n
  revert this
  generalize d.get? n = x
  generalize e.get? n = y
  intro h
  cases h with
  | some h => exact .some h.symm
  | none => exact .none

theorem DictsAlike.trans {d : Dict (PyTree (Leaf α))} {e : Dict (PyTree (Leaf β))}
    {f : Dict (PyTree (Leaf γ))} (h : DictsAlike d e) (h' : DictsAlike e f) : DictsAlike d f := by
  intro n
  have h1 := h n
  have h2 := h' n
  revert h1 h2
  generalize d.get? n = x
  generalize e.get? n = y
  generalize f.get? n = z
  intro h1 h2
  cases h1 with
  | some h1 => cases h2 with
    | some h2 => exact .some (h1.trans h2)
  | none => cases h2; exact .none

theorem DictsAlike.refl (d : Dict (PyTree (Leaf α))) : DictsAlike d d := by
  intro n
  cases d.get? n with
  | none => exact .none
  | some t => exact .some (TreesAlike.refl t)

theorem StatesAlike.refl (s : ACTStates α) : StatesAlike s s :=
  ⟨⟨rfl, rfl⟩, ⟨rfl, rfl⟩, ⟨rfl, rfl⟩, .refl _, .refl _, .refl _, rfl⟩

theorem TensorsAlike.symm {t : Tensor α} {u : Tensor β} (h : TensorsAlike t u) :
    TensorsAlike u t := ⟨h.1.symm, h.2.symm⟩

theorem TensorsAlike.trans {t : Tensor α} {u : Tensor β} {v : Tensor γ} (h : TensorsAlike t u)
    (h' : TensorsAlike u v) : TensorsAlike t v := ⟨h.1.trans h'.1, h.2.trans h'.2⟩

theorem StatesAlike.symm {s : ACTStates α} {s' : ACTStates β} (h : StatesAlike s s') :
    StatesAlike s' s :=
  ⟨h.iterations.symm, h.residuals.symm, h.probabilities.symm, h.defaults.symm, h.accumulators.symm,
    h.updates.symm, h.error_mode.symm⟩

theorem StatesAlike.trans {s : ACTStates α} {s' : ACTStates β} {s'' : ACTStates γ}
    (h : StatesAlike s s') (h' : StatesAlike s' s'') : StatesAlike s s'' :=
  ⟨h.iterations.trans h'.iterations, h.residuals.trans h'.residuals,
    h.probabilities.trans h'.probabilities, h.defaults.trans h'.defaults,
    h.accumulators.trans h'.accumulators, h.updates.trans h'.updates,
    h.error_mode.trans h'.error_mode⟩

/-- Well-formedness depends on types only (and on the keys of each dict being distinct). -/
theorem StatesAlike.wf {s : ACTStates α} {s' : ACTStates β} (h : StatesAlike s s') (hwf : s.WF)
    (ha : s'.accumulators.WF) (hd : s'.defaults.WF) (hu : s'.updates.WF) : s'.WF where
  floating := by rw [← h.probabilities.2]; exact hwf.floating
  res_shape := by rw [← h.residuals.1, ← h.probabilities.1]; exact hwf.res_shape
  res_dtype := by rw [← h.residuals.2, ← h.probabilities.2]; exact hwf.res_dtype
  it_shape := by rw [← h.iterations.1, ← h.probabilities.1]; exact hwf.it_shape
  it_dtype := by rw [← h.iterations.2]; exact hwf.it_dtype
  acc_keys := ha
  def_keys := hd
  upd_keys := hu
  def_iff n := by rw [← h.defaults.keys_iff, ← h.accumulators.keys_iff]; exact hwf.def_iff n
  upd_iff n := by rw [← h.updates.keys_iff, ← h.accumulators.keys_iff]; exact hwf.upd_iff n
  batched := by
    intro n t' ht'
    obtain ⟨t, ht, htt⟩ := optionRel_some_right (ht' ▸ h.accumulators n)
    have hb := hwf.batched n t ht
    intro l' hl'
    obtain ⟨k, hk, he⟩ := List.mem_iff_getElem.1 hl'
    have hm : (t'.treeLeaves.map Leaf.type)[k]? = some l'.type := by
      rw [List.getElem?_map, List.getElem?_eq_getElem hk, he]; rfl
    rw [← htt.2, List.getElem?_map] at hm
    cases hl : t.treeLeaves[k]? with
    | none => rw [hl] at hm; cases hm
    | some l =>
      rw [hl] at hm
      obtain ⟨a, rfl, h1, h2⟩ := hb l (List.mem_of_getElem? hl)
      obtain ⟨b, rfl, h3, h4⟩ := Leaf.type_some.1 (Option.some.inj hm).symm
      exact ⟨b, rfl, by rw [h4]; exact h1, by rw [← h.probabilities.1, h3]; exact h2⟩
  same := by
    intro n t' u' ht' hu'
    obtain ⟨t, ht, htt⟩ := optionRel_some_right (ht' ▸ h.accumulators n)
    obtain ⟨u, hu, huu⟩ := optionRel_some_right (hu' ▸ h.defaults n)
    have hs := hwf.same n t u ht hu
    have h3 := htt.symm.trans ((TreesAlike.of_sameType hs).trans huu)
    refine h3.sameType fun l' hl' => ?_
    obtain ⟨k, hk, he⟩ := List.mem_iff_getElem.1 hl'
    have hm : (t'.treeLeaves.map Leaf.type)[k]? = some l'.type := by
      rw [List.getElem?_map, List.getElem?_eq_getElem hk, he]; rfl
    rw [← htt.2, List.getElem?_map] at hm
    cases hl : t.treeLeaves[k]? with
    | none => rw [hl] at hm; cases hm
    | some l =>
      rw [hl] at hm
      obtain ⟨a, rfl, -⟩ := hwf.batched n t ht l (List.mem_of_getElem? hl)
      obtain ⟨b, rfl, -⟩ := Leaf.type_some.1 (Option.some.inj hm).symm
      exact ⟨b, rfl⟩

/-! ### Calls -/

variable [Arith α] [Arith β]

omit [Arith α] [Arith β] in
theorem cacheUpdate_alike {s : ACTStates α} {s' : ACTStates β} (h : StatesAlike s s') (n : String)
    {t : PyTree (Leaf α)} {t' : PyTree (Leaf β)} (ht : TreesAlike t t') :
    OutcomesAlike (Controller.cacheUpdate ⟨s⟩ n t) (Controller.cacheUpdate ⟨s'⟩ n t') := by
  have hn := h.updates n
  obtain ⟨a1, a2, a3⟩ := C10_cache_errors (⟨s⟩ : Controller α) n t
  obtain ⟨b1, b2, b3⟩ := C10_cache_errors (⟨s'⟩ : Controller β) n t'
  cases hs : s.updates.get? n with
  | none =>
    have hs' := (optionRel_none_iff hn).1 hs
    rw [a1.2 (by rw [Dict.mem_keys_iff]; rintro ⟨u, hu⟩; rw [hs] at hu; cases hu),
      b1.2 (by rw [Dict.mem_keys_iff]; rintro ⟨u, hu⟩; rw [hs'] at hu; cases hu)]
    exact .error _
  | some u =>
    obtain ⟨u', hs', huu⟩ := optionRel_some_left (hs ▸ hn)
    by_cases hu : u = .none
    · have hu' := huu.none_iff.1 hu
      subst hu hu'
      obtain ⟨c, hc⟩ := (C10_cache_success (⟨s⟩ : Controller α) n t).1.2 hs
      obtain ⟨c', hc'⟩ := (C10_cache_success (⟨s'⟩ : Controller β) n t').1.2 hs'
      rw [hc, hc']
      refine .ok ?_
      obtain ⟨-, e1⟩ := Controller.cacheUpdate_ok_iff.1 hc
      obtain ⟨-, e2⟩ := Controller.cacheUpdate_ok_iff.1 hc'
      rw [e1, e2]
      refine ⟨h.iterations, h.residuals, h.probabilities, h.defaults, h.accumulators, fun m => ?_,
        h.error_mode⟩
      simp only [Dict.get?_set]
      split
      · exact .some ht
      · exact h.updates m
    · have hu' := fun e => hu (huu.none_iff.2 e)
      rw [a2.2 ⟨u, hs, hu⟩, b2.2 ⟨u', hs', hu'⟩]
      exact .error _

/-- `iterate_act` leaves all types as they are, and empties the update slots. -/
theorem iterate_types {s : ACTStates α} (hwf : s.WF) {h : Tensor α} {c' : Controller α}
    (hc : Controller.iterateAct ⟨s⟩ h = .ok c') :
    StatesAlike { s with updates := s.updates.map fun kv => (kv.1, .none) } c'.state := by
  have st := Controller.iterateAct_ok hwf hc
  refine ⟨⟨st.ishape.symm, st.idtype.symm⟩, ⟨st.rshape.symm, st.rdtype.symm⟩,
    ⟨st.pshape.symm, st.pdtype.symm⟩, by rw [st.defaults]; exact .refl _, fun n => ?_, fun n => ?_,
    st.error_mode.symm⟩
  · simp only
    cases ha : s.accumulators.get? n with
    | none =>
      have : c'.state.accumulators.get? n = Option.none := by
        rw [Dict.get?_eq_none_iff, st.akeys, ← Dict.get?_eq_none_iff]; exact ha
      rw [this]
      exact .none
    | some a =>
      obtain ⟨u, a', -, h2, h3⟩ := st.tree n a ha
      rw [h2]
      refine .some (TreesAlike.of_sameType (SameType.of_leaves h3.struct fun k l hl => ?_))
      obtain ⟨ta, tu, ta', e1, -, e3, e4⟩ := h3.leaf k l hl
      exact ⟨ta, ta', e1, e3, e4.shape, e4.dtype⟩
  · simp only [Dict.get?_map_none]
    cases hu : s.updates.get? n with
    | none =>
      have : c'.state.updates.get? n = Option.none := by
        rw [Dict.get?_eq_none_iff, st.ukeys, ← Dict.get?_eq_none_iff]; exact hu
      rw [this]
      exact .none
    | some u =>
      rw [st.cleared n ((hwf.upd_iff n).1 (Dict.mem_keys_iff.2 ⟨u, hu⟩))]
      exact .some .none

theorem iterateAct_alike {s : ACTStates α} {s' : ACTStates β} (h : StatesAlike s s') (hwf : s.WF)
    (hwf' : s'.WF) {t : Tensor α} {t' : Tensor β} (ht : TensorsAlike t t') :
    OutcomesAlike (Controller.iterateAct ⟨s⟩ t) (Controller.iterateAct ⟨s'⟩ t') := by
  have hfit : (∀ name acc, s.accumulators.get? name = some acc →
        ∃ upd, s.updates.get? name = some upd ∧ UpdateFits s.probabilities.dtype acc upd) ↔
      (∀ name acc, s'.accumulators.get? name = some acc →
        ∃ upd, s'.updates.get? name = some upd ∧ UpdateFits s'.probabilities.dtype acc upd) := by
    constructor
    · intro hf n a' ha'
      obtain ⟨a, ha, haa⟩ := optionRel_some_right (ha' ▸ h.accumulators n)
      obtain ⟨u, hu, hfu⟩ := hf n a ha
      obtain ⟨u', hu', huu⟩ := optionRel_some_left (hu ▸ h.updates n)
      exact ⟨u', hu', by rw [← h.probabilities.2]; exact (updateFits_iff haa huu).1 hfu⟩
    · intro hf n a ha
      obtain ⟨a', ha', haa⟩ := optionRel_some_left (ha ▸ h.accumulators n)
      obtain ⟨u', hu', hfu⟩ := hf n a' ha'
      obtain ⟨u, hu, huu⟩ := optionRel_some_right (hu' ▸ h.updates n)
      exact ⟨u, hu, by rw [h.probabilities.2]; exact (updateFits_iff haa huu).2 hfu⟩
  obtain ⟨a1, a2, a3, a4⟩ := C13_iterate_errors hwf t
  obtain ⟨b1, b2, b3, b4⟩ := C13_iterate_errors hwf' t'
  have hs : t.shape = s.probabilities.shape ↔ t'.shape = s'.probabilities.shape := by
    rw [ht.1, h.probabilities.1]
  have hd : t.dtype.withFloat = s.probabilities.dtype ↔
      t'.dtype.withFloat = s'.probabilities.dtype := by
    rw [ht.2, h.probabilities.2]
  by_cases h1 : t.shape = s.probabilities.shape
  · by_cases h2 : t.dtype.withFloat = s.probabilities.dtype
    · by_cases h3 : ∀ name acc, s.accumulators.get? name = some acc →
        ∃ upd, s.updates.get? name = some upd ∧ UpdateFits s.probabilities.dtype acc upd
      · obtain ⟨c, hc⟩ := (C13_iterate_succeeds_iff hwf t).2 ⟨h1, h2, h3⟩
        obtain ⟨c', hc'⟩ :=
          (C13_iterate_succeeds_iff hwf' t').2 ⟨hs.1 h1, hd.1 h2, hfit.1 h3⟩
        rw [hc, hc']
        refine .ok ((iterate_types hwf hc).symm.trans (StatesAlike.trans ?_ (iterate_types hwf' hc')))
        refine ⟨h.iterations, h.residuals, h.probabilities, h.defaults, h.accumulators, fun n => ?_,
          h.error_mode⟩
        simp only [Dict.get?_map_none]
        have := h.updates n
        revert this
        generalize s.updates.get? n = x
        generalize s'.updates.get? n = y
        intro hxy
        cases hxy with
        | some => exact .some .none
        | none => exact .none
      · rw [a3.2 ⟨h1, h2, h3⟩, b3.2 ⟨hs.1 h1, hd.1 h2, fun h => h3 (hfit.2 h)⟩]
        exact .error _
    · rw [a2.2 ⟨h1, h2⟩, b2.2 ⟨hs.1 h1, fun h => h2 (hd.2 h)⟩]
      exact .error _
  · rw [a1.2 h1, b1.2 fun h => h1 (hs.2 h)]
    exact .error _

theorem reset_types {s : ACTStates α} (hwf : s.WF) {c' : Controller α}
    (hc : Controller.resetBatches ⟨s⟩ = .ok c') : StatesAlike s c'.state := by
  have st := Controller.resetBatches_ok hwf hc
  refine ⟨⟨st.ishape.symm, st.idtype.symm⟩, ⟨st.rshape.symm, st.rdtype.symm⟩,
    ⟨st.pshape.symm, st.pdtype.symm⟩, by rw [st.defaults]; exact .refl _, fun n => ?_,
    by rw [st.updates]; exact .refl _, st.error_mode.symm⟩
  cases ha : s.accumulators.get? n with
  | none =>
    have : c'.state.accumulators.get? n = Option.none := by
      rw [Dict.get?_eq_none_iff, st.akeys, ← Dict.get?_eq_none_iff]; exact ha
    rw [this]
    exact .none
  | some a =>
    obtain ⟨d, a', -, h2, h3, -, h4⟩ := st.tree n a ha
    rw [h2]
    refine .some (TreesAlike.of_sameType (SameType.of_leaves h3 fun k l hl => ?_))
    obtain ⟨ta, td, ta', e1, -, e3, e4⟩ := h4 k l hl
    exact ⟨ta, ta', e1, e3, e4.shape, e4.dtype⟩

omit [Arith α] [Arith β] in
theorem resettable_alike {b : List Nat} {a : PyTree (Leaf α)} {a' : PyTree (Leaf β)}
    (h : TreesAlike a a') : Controller.Resettable b a → Controller.Resettable b a' := by
  rintro (h1 | h1 | h1)
  · exact .inl h1
  · right; left
    have := h.2
    rw [h1] at this
    exact List.map_eq_nil_iff.1 this.symm
  · exact .inr (.inr (h.leaf_iff.1 h1))

theorem resetBatches_alike {s : ACTStates α} {s' : ACTStates β} (h : StatesAlike s s') (hwf : s.WF)
    (hwf' : s'.WF) :
    OutcomesAlike (Controller.resetBatches ⟨s⟩) (Controller.resetBatches ⟨s'⟩) := by
  have hnone : ∀ {γ : Type} {u : PyTree (Leaf γ)}, u.isNone = true ↔ u = .none :=
    fun {γ} {u} => by cases u <;> simp [PyTree.isNone]
  rcases Controller.resetBatches_result hwf with ⟨⟨n, u, hu, hu1⟩, e1⟩ | ⟨hidle, hcase⟩
  · obtain ⟨u', hu', huu⟩ := optionRel_some_left (hu ▸ h.updates n)
    have hu2 : u'.isNone = false := by
      rw [isNone_false_iff] at hu1 ⊢
      exact fun e => hu1 (huu.none_iff.2 e)
    rcases Controller.resetBatches_result hwf' with ⟨-, e2⟩ | ⟨hidle', -⟩
    · rw [e1, e2]; exact .error _
    · rw [hidle' n u' hu'] at hu2; cases hu2
  · rcases Controller.resetBatches_result hwf' with ⟨⟨n, u', hu', hu1⟩, e2⟩ | ⟨-, hcase'⟩
    · obtain ⟨u, hu, huu⟩ := optionRel_some_right (hu' ▸ h.updates n)
      have := huu.none_iff.1 (hnone.1 (hidle n u hu))
      subst this
      cases hu1
    · rcases hcase with ⟨hr, c, hc⟩ | ⟨⟨n, a, ha, hr⟩, e1⟩
      · rcases hcase' with ⟨-, c', hc'⟩ | ⟨⟨n, a', ha', hr'⟩, -⟩
        · rw [hc, hc']
          exact .ok ((reset_types hwf hc).symm.trans (h.trans (reset_types hwf' hc')))
        · obtain ⟨a, ha, haa⟩ := optionRel_some_right (ha' ▸ h.accumulators n)
          exact absurd (h.probabilities.1 ▸ resettable_alike haa (hr n a ha)) hr'
      · rcases hcase' with ⟨hr', -⟩ | ⟨-, e2⟩
        · obtain ⟨a', ha', haa⟩ := optionRel_some_left (ha ▸ h.accumulators n)
          exact absurd (resettable_alike haa.symm (h.probabilities.1 ▸ hr' n a' ha')) hr
        · rw [e1, e2]; exact .error _

end JaxAct
