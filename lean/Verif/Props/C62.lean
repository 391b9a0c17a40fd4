import Verif.Spec.Session
import Verif.Lemmas.Types
import Verif.Lemmas.Viewer
import Verif.Props.C26
import Verif.Props.C28
import Verif.Props.C29
import Verif.Props.C31
import Verif.Lemmas.Exact

/-! # C62 Every session keeps the state sane -/

namespace JaxAct
open PyTree

section Trees
variable {β γ : Type}

mutual
theorem noNone_struct : ∀ t : PyTree β, t.struct.NoNone ↔ t.NoNone
  | .leaf _ => by simp [struct, PyTree.map, NoNone]
  | .none => by simp [struct, PyTree.map, NoNone]
  | .node k cs => by
    simp only [struct, PyTree.map, NoNone]
    exact noNoneL_struct cs
theorem noNoneL_struct : ∀ cs : List (PyTree β), NoNoneL (mapL (fun _ => ()) cs) ↔ NoNoneL cs
  | [] => by simp [mapL, NoNoneL]
  | c :: cs => by
    simp only [mapL, NoNoneL]
    rw [noNoneL_struct cs]
    exact and_congr_left' (noNone_struct c)
end

mutual
theorem noNone_collapse : ∀ t : PyTree ShapeItem, t.NoNone → (Builder.collapseShapes t).NoNone
  | .leaf _, _ => by simp [Builder.collapseShapes, NoNone]
  | .none, h => absurd h (by simp [NoNone])
  | .node k cs, h => by
    have ih := noNoneL_collapse cs h
    cases k with
    | list =>
      simp only [Builder.collapseShapes]
      split
      · simp [NoNone]
      · exact ih
    | tuple => exact ih
    | user _ => exact ih
    | dict ks => exact ih
theorem noNoneL_collapse : ∀ cs : List (PyTree ShapeItem), NoNoneL cs →
    NoNoneL (Builder.collapseShapesL cs)
  | [], _ => by simp [Builder.collapseShapesL, NoNoneL]
  | c :: cs, h => ⟨noNone_collapse c h.1, noNoneL_collapse cs h.2⟩
end

theorem structureEqual_structure {s : PyTree β} {t : PyTree γ} (hs : s.treeStructure.NoNone)
    (ht : t.treeStructure.NoNone) :
    Utils.arePytreeStructureEqual s t = true ↔ s.treeStructure = t.treeStructure := by
  rw [Utils.structureEqual_iff]
  exact Utils.go_eq_iff _ _ ((noNone_struct _).1 hs) ((noNone_struct _).1 ht)

theorem treeStructure_noNone {t : PyTree β} (h : t.NoNone) : t.treeStructure.NoNone :=
  (noNone_struct _).2 (noNone_canon t h)

end Trees

variable {α : Type}

/-- `set_accumulator` and `set_defaults` accept only trees of the type of the accumulator. -/
theorem compatible_sameType {s t : PyTree (Leaf α)} (hs : s.treeStructure.NoNone)
    (ht : t.treeStructure.NoNone) (h : Editor.compatible s t = .ok true) : SameType s t := by
  rw [Editor.compatible_iff, ← Utils.structureEqual_iff, structureEqual_structure hs ht] at h
  obtain ⟨hst, h⟩ := h
  refine ⟨hst, List.forall₂_iff_zip.2 ⟨?_, fun hp => h _ hp⟩⟩
  rw [← PyTree.treeStructure_leaves_length, ← PyTree.treeStructure_leaves_length, hst]

/-- The invariant of sessions that needs no arithmetic. -/
structure Kept (s : ACTStates α) : Prop where
  wf : s.WF
  noNone : ∀ n t, s.accumulators.get? n = some t → t.treeStructure.NoNone

theorem Kept.alike {s s' : ACTStates α} (h : Kept s) (ha : DictsAlike s.accumulators s'.accumulators)
    (hwf : s'.WF) : Kept s' := by
  refine ⟨hwf, fun n t ht => ?_⟩
  obtain ⟨u, hu, hut⟩ := optionRel_some_right (ht ▸ ha n)
  rw [← hut.1]
  exact h.noNone n u hu

theorem Kept.define {s : ACTStates α} (h : Kept s) {name : String} {t : PyTree (Leaf α)}
    (ht : t.treeStructure.NoNone) {b' : Builder α}
    (hb : Builder.define ⟨s⟩ name t = .ok b') : Kept b'.state := by
  refine ⟨define_wf h.wf hb, ?_⟩
  obtain ⟨-, rfl⟩ := Builder.define_ok_iff.1 hb
  intro n u hu
  simp only [Dict.get?_set] at hu
  split at hu
  · cases hu; exact ht
  · exact h.noNone n u hu

theorem Kept.delete {s : ACTStates α} (h : Kept s) {name : String} {b' : Builder α}
    (hb : Builder.deleteDefinition ⟨s⟩ name = .ok b') : Kept b'.state := by
  refine ⟨delete_wf h.wf hb, ?_⟩
  obtain ⟨-, -, -, rfl⟩ := Builder.delete_ok_iff.1 hb
  intro n u hu
  change (s.accumulators.erase name).get? n = some u at hu
  rw [Dict.get?_erase h.wf.acc_keys] at hu
  split at hu
  · cases hu
  · exact h.noNone n u hu

theorem MappedDict.alike {f : Tensor α → Res (Tensor α)}
    {d d' : Dict (PyTree (Leaf α))}
    (hf : ∀ n t, d.get? n = some t → ∀ a, Leaf.tensor a ∈ t.treeLeaves → ∀ r, f a = .ok r →
      r.shape = a.shape ∧ r.dtype = a.dtype)
    (h : MappedDict f d d') : DictsAlike d d' := by
  intro n
  cases hn : d.get? n with
  | none =>
    have : d'.get? n = Option.none := by
      rw [Dict.get?_eq_none_iff, h.1, ← Dict.get?_eq_none_iff]; exact hn
    rw [this]; exact .none
  | some t =>
    obtain ⟨t', ht', h1, h2⟩ := h.2 n t hn
    rw [ht']
    refine .some ⟨h1.symm, ?_⟩
    refine List.ext_getElem (by simp [h2.length_eq]) fun k hk hk' => ?_
    simp only [List.length_map] at hk hk'
    obtain ⟨a, b, e1, e2, e3⟩ := (List.forall₂_iff_get.1 h2).2 k hk hk'
    simp only [List.get_eq_getElem] at e1 e3
    obtain ⟨g1, g2⟩ := hf n t hn a (e1 ▸ List.getElem_mem hk) b e2
    simp [e1, e3, Leaf.type, g1, g2]

variable [Arith α]

omit [Arith α] in
theorem Kept.transformed {f : Tensor α → Res (Tensor α)} {s s' : ACTStates α} (h : Kept s)
    (tr : Viewer.Transformed f s s')
    (hp : ∀ t r, f t = .ok r → t.shape = s.probabilities.shape →
      r.shape = t.shape ∧ r.dtype = t.dtype)
    (ha : DictsAlike s.accumulators s'.accumulators) (hd : DictsAlike s.defaults s'.defaults) :
    Kept s' := by
  refine h.alike ha ?_
  obtain ⟨p1, p2⟩ := hp _ _ tr.probabilities rfl
  obtain ⟨r1, r2⟩ := hp _ _ tr.residuals h.wf.res_shape
  obtain ⟨i1, i2⟩ := hp _ _ tr.iterations h.wf.it_shape
  have key : ∀ {e : Dict (PyTree (Leaf α))} {e'}, MappedDict f e e' → e.WF → e'.WF := by
    intro e e' hm he
    unfold Dict.WF at he ⊢
    rw [hm.1]; exact he
  have hal : StatesAlike { s with updates := s.defaults } { s' with updates := s'.defaults } :=
    ⟨⟨i1.symm, i2.symm⟩, ⟨r1.symm, r2.symm⟩, ⟨p1.symm, p2.symm⟩, hd, ha, hd, tr.error_mode.symm⟩
  have hw : ACTStates.WF { s with updates := s.defaults } :=
    { h.wf with upd_keys := h.wf.def_keys, upd_iff := h.wf.def_iff }
  have := hal.wf hw (key tr.accumulators h.wf.acc_keys) (key tr.defaults h.wf.def_keys)
    (key tr.defaults h.wf.def_keys)
  have e : { s' with updates := s'.defaults } = s' :=
    congrArg (fun u => { s' with updates := u }) tr.updates.symm
  exact e ▸ this

theorem Kept.iterate {s : ACTStates α} (h : Kept s) {t : Tensor α} {c' : Controller α}
    (hc : Controller.iterateAct ⟨s⟩ t = .ok c') : Kept c'.state :=
  h.alike (iterate_types h.wf hc).accumulators
    (Controller.IterStep.wf h.wf (Controller.iterateAct_ok h.wf hc))

theorem Kept.reset {s : ACTStates α} (h : Kept s) {c' : Controller α}
    (hc : Controller.resetBatches ⟨s⟩ = .ok c') : Kept c'.state :=
  h.alike (reset_types h.wf hc).accumulators
    (Controller.ResetStep.wf h.wf (Controller.resetBatches_ok h.wf hc))

theorem Kept.mask {s : ACTStates α} (h : Kept s) {m : Tensor α} {v' : Viewer α}
    (hv : Viewer.maskData ⟨s⟩ m = .ok v') : Kept v'.state := by
  obtain ⟨h1, h2, tr⟩ := maskData_ok hv
  have key : ∀ t r : Tensor α, Viewer.applyMask m t = .ok r → s.probabilities.shape <+: t.shape →
      r.shape = t.shape ∧ r.dtype = t.dtype := by
    intro t r hr hp
    obtain ⟨r', hr', g1, g2, -⟩ := applyMask_prefix (mask := m) (t := t) h1 (h2 ▸ hp)
    rw [hr] at hr'
    cases hr'
    exact ⟨g1, g2⟩
  refine h.transformed tr (fun t r hr hs => key t r hr (hs ▸ List.prefix_refl _)) ?_ ?_
  · refine tr.accumulators.alike fun n t ht a ha r hr => ?_
    obtain ⟨a', e, -, hp⟩ := h.wf.batched n t ht _ ha
    cases e
    exact key a r hr hp
  · refine tr.defaults.alike fun n t ht a ha r hr => ?_
    obtain ⟨a', e, hp⟩ := WF_defaults_batched h.wf ht _ ha
    cases e
    exact key a r hr hp

/-! ### Editors -/

omit [Arith α] in
theorem checked_ok {r : Res (Editor α)} {P : Prop} {n e' : Editor α} (hc : CheckedOutcome r P n)
    (hr : r = .ok e') : P ∧ e' = n := by
  by_cases hp : P
  · have := hc.1.2 hp
    rw [hr] at this
    exact ⟨hp, by cases this; rfl⟩
  · have := hc.2.2 hp
    rw [hr] at this
    cases this

omit [Arith α] in
/-- Replacing the tree of one accumulator by one of the same type. -/
theorem Kept.setAccumulator {e e' : Editor α} (h : Kept e.state) (hm : e.errorMode = "standard")
    {name : String} {v : PyTree (Leaf α)} (hv : v.NoNone)
    (hs : e.setAccumulator name v = .ok e') : Kept e'.state ∧ e'.errorMode = "standard" := by
  obtain ⟨h1, rfl⟩ := Editor.setAccumulator_ok_iff.1 hs
  rw [Editor.executeValidation_ok_iff hm, Editor.checkAgainst_ok_iff h.wf] at h1
  obtain ⟨acc, hacc, hc⟩ := h1
  have hst := compatible_sameType (h.noNone name acc hacc) (treeStructure_noNone hv) hc
  refine ⟨h.alike ?_ ?_, hm⟩
  · intro n
    simp only [Dict.get?_set]
    split
    · rename_i hn
      subst hn
      rw [hacc]
      exact .some (TreesAlike.of_sameType hst)
    · exact DictsAlike.refl _ n
  · have hk := Dict.keys_set_of_mem (Dict.mem_keys_iff.2 ⟨acc, hacc⟩) v
    have hwf := h.wf
    refine { hwf with
      acc_keys := hwf.acc_keys.set _ _
      def_iff := ?_, upd_iff := ?_, batched := ?_, same := ?_ }
    · intro n; simp only; rw [hk]; exact hwf.def_iff n
    · intro n; simp only; rw [hk]; exact hwf.upd_iff n
    · intro n t ht
      simp only [Dict.get?_set] at ht
      split at ht
      · rename_i hn
        cases ht
        exact (hwf.batched name acc hacc).of_sameType hst
      · exact hwf.batched n t ht
    · intro n t u ht hu
      simp only [Dict.get?_set] at ht
      split at ht
      · rename_i hn
        subst hn
        cases ht
        exact hst.symm.trans (hwf.same name acc u hacc hu)
      · exact hwf.same n t u ht hu

omit [Arith α] in
/-- Replacing the default of one accumulator by a tree of the same type. -/
theorem Kept.setDefaults {e e' : Editor α} (h : Kept e.state) (hm : e.errorMode = "standard")
    {name : String} {v : PyTree (Leaf α)} (hv : v.NoNone)
    (hs : e.setDefaults name v = .ok e') : Kept e'.state ∧ e'.errorMode = "standard" := by
  obtain ⟨h1, rfl⟩ := Editor.setDefaults_ok_iff.1 hs
  rw [Editor.executeValidation_ok_iff hm, Editor.checkAgainst_ok_iff h.wf] at h1
  obtain ⟨acc, hacc, hc⟩ := h1
  have hst := compatible_sameType (h.noNone name acc hacc) (treeStructure_noNone hv) hc
  have hwf := h.wf
  have hk := Dict.keys_set_of_mem ((hwf.def_iff name).2 (Dict.mem_keys_iff.2 ⟨acc, hacc⟩)) v
  refine ⟨h.alike (DictsAlike.refl _) { hwf with
      def_keys := hwf.def_keys.set _ _
      def_iff := ?_, same := ?_ }, hm⟩
  · intro n; simp only; rw [hk]; exact hwf.def_iff n
  · intro n t u ht hu
    simp only [Dict.get?_set] at hu
    split at hu
    · rename_i hn
      subst hn
      cases hu
      rw [hacc] at ht
      cases ht
      exact hst
    · exact hwf.same n t u ht hu

omit [Arith α] in
/-- Filling or clearing an update slot. -/
theorem Kept.setUpdates {e e' : Editor α} (h : Kept e.state) (hm : e.errorMode = "standard")
    {name : String} {v : PyTree (Leaf α)}
    (hs : e.setUpdates name v = .ok e') : Kept e'.state ∧ e'.errorMode = "standard" := by
  obtain ⟨h1, rfl⟩ := Editor.setUpdates_ok_iff.1 hs
  rw [Editor.executeValidation_ok_iff hm, Editor.checkUpdate_ok_iff] at h1
  obtain ⟨d, hd, -⟩ := h1
  have hwf := h.wf
  have hk := Dict.keys_set_of_mem ((hwf.upd_iff name).2 ((hwf.def_iff name).1
    (Dict.mem_keys_iff.2 ⟨d, hd⟩))) v
  refine ⟨h.alike (DictsAlike.refl _) { hwf with
      upd_keys := hwf.upd_keys.set _ _
      upd_iff := ?_ }, hm⟩
  intro n; simp only; rw [hk]; exact hwf.upd_iff n

theorem Kept.setTensor {e e' : Editor α} (h : Kept e.state) (hm : e.errorMode = "standard")
    (hs : (∃ v, e.setProbabilities v = .ok e') ∨ (∃ v, e.setResiduals v = .ok e') ∨
      (∃ v, e.setIterations v = .ok e') ∨ ∃ v, e.setEpsilon v = .ok e') :
    Kept e'.state ∧ e'.errorMode = "standard" := by
  obtain ⟨hw, hm'⟩ := C28_wf_preserved h.wf hm hs
  refine ⟨h.alike ?_ hw, hm'.trans hm⟩
  rcases hs with ⟨v, hs⟩ | ⟨v, hs⟩ | ⟨v, hs⟩ | ⟨v, hs⟩
  · obtain ⟨-, rfl⟩ := checked_ok (C28_set_probabilities h.wf hm v) hs; exact DictsAlike.refl _
  · obtain ⟨-, rfl⟩ := checked_ok (C28_set_residuals h.wf hm v) hs; exact DictsAlike.refl _
  · obtain ⟨-, rfl⟩ := checked_ok (C28_set_iterations h.wf hm v) hs; exact DictsAlike.refl _
  · obtain ⟨-, rfl⟩ := checked_ok (C28_set_epsilon hm v) hs; exact DictsAlike.refl _

/-! ### One call -/

/-- The invariant of a session: an editor is in standard mode. -/
def Session.Kept (x : Session α) : Prop :=
  JaxAct.Kept x.state ∧ ∀ e, x = .editor e → e.errorMode = "standard"

theorem map_ok {β γ : Type} {r : Res β} {f : β → γ} {y : γ} (h : r.map f = .ok y) :
    ∃ x, r = .ok x ∧ f x = y := by
  cases r with
  | error e => cases h
  | ok x => exact ⟨x, rfl, by cases h; rfl⟩

omit [Arith α] in
theorem editSave_ok {s : ACTStates α} {m : String} {e : Editor α}
    (h : Editor.editSave s m = .ok e) : e = ⟨s, m⟩ := by
  unfold Editor.editSave at h
  split at h <;> cases h
  rfl

theorem byShape_kept {s : ACTStates α} (h : Kept s) {name : String} {shapes : PyTree ShapeItem}
    (hs : shapes.NoNone) {d : DType} {f : α} {b' : Builder α}
    (hb : Builder.defineAccumulatorByShape ⟨s⟩ name shapes d f = .ok b') : Kept b'.state := by
  unfold Builder.defineAccumulatorByShape at hb
  rw [bind_ok] at hb
  obtain ⟨t, h1, h2⟩ := hb
  obtain ⟨h1, -⟩ := PyTree.treeMap_ok_iff.1 h1
  refine h.define ?_ h2
  have hc := PyTree.flatten_of_struct h1
  rw [PyTree.treeStructure, hc, h1]
  exact treeStructure_noNone (noNone_collapse _ hs)

/-- One call keeps the invariant. -/
theorem Session.Kept.call {x x' : Session α} (h : x.Kept) {op : ApiCall α} (hp : op.Proper)
    (hc : op.call x = .ok x') : x'.Kept := by
  obtain ⟨hk, hm⟩ := h
  have done : ∀ {s : ACTStates α} {y : Session α}, y.state = s → (∀ e, y ≠ .editor e) →
      JaxAct.Kept s → y.Kept := fun h1 h2 h3 => ⟨h1 ▸ h3, fun e he => absurd he (h2 e)⟩
  cases x with
  | builder b =>
    cases op <;> try (cases hc; done)
    · obtain ⟨b', h1, rfl⟩ := map_ok hc
      exact done rfl (by simp) (hk.define (treeStructure_noNone hp) h1)
    · obtain ⟨b', h1, rfl⟩ := map_ok hc
      exact done rfl (by simp) (byShape_kept hk hp h1)
    · obtain ⟨b', h1, rfl⟩ := map_ok hc
      exact done rfl (by simp) (hk.delete h1)
    · cases hc
      exact done rfl (by simp) hk
  | controller c =>
    cases op <;> try (cases hc; done)
    · obtain ⟨b', h1, rfl⟩ := map_ok hc
      have st := Controller.cacheUpdate_ok_iff.1 h1
      refine done rfl (by simp) (hk.alike ?_ (Controller.CacheStep.wf hk.wf st))
      have e : b'.state.accumulators = c.state.accumulators := by rw [st.eq]
      exact e ▸ DictsAlike.refl _
    · obtain ⟨b', h1, rfl⟩ := map_ok hc
      exact done rfl (by simp) (hk.iterate h1)
    · obtain ⟨b', h1, rfl⟩ := map_ok hc
      exact done rfl (by simp) (hk.reset h1)
    · cases hc
      exact done rfl (by simp) hk
    · obtain ⟨e, h1, rfl⟩ := map_ok hc
      obtain rfl := editSave_ok (s := c.state) h1
      exact ⟨hk, fun e he => by cases he; exact hp⟩
    · cases hc
      exact done rfl (by simp) hk
    · cases hc
      exact done rfl (by simp) hk
    · obtain ⟨e, h1, rfl⟩ := map_ok hc
      obtain rfl := editSave_ok (s := c.state) h1
      exact ⟨hk, fun e he => by cases he; exact hp⟩
  | editor e =>
    have hm := hm e rfl
    have fin : ∀ {e' : Editor α}, JaxAct.Kept e'.state ∧ e'.errorMode = "standard" →
        (Session.editor e').Kept := fun h => ⟨h.1, fun _ he => by cases he; exact h.2⟩
    cases op <;> try (cases hc; done)
    · cases hc
      exact done rfl (by simp) hk
    · obtain ⟨e', h1, rfl⟩ := map_ok hc
      exact fin (hk.setTensor hm (.inl ⟨_, h1⟩))
    · obtain ⟨e', h1, rfl⟩ := map_ok hc
      exact fin (hk.setTensor hm (.inr (.inl ⟨_, h1⟩)))
    · obtain ⟨e', h1, rfl⟩ := map_ok hc
      exact fin (hk.setTensor hm (.inr (.inr (.inl ⟨_, h1⟩))))
    · obtain ⟨e', h1, rfl⟩ := map_ok hc
      exact fin (hk.setTensor hm (.inr (.inr (.inr ⟨_, h1⟩))))
    · obtain ⟨e', h1, rfl⟩ := map_ok hc
      exact fin (hk.setAccumulator hm hp h1)
    · obtain ⟨e', h1, rfl⟩ := map_ok hc
      exact fin (hk.setDefaults hm hp h1)
    · obtain ⟨e', h1, rfl⟩ := map_ok hc
      exact fin (hk.setUpdates hm h1)
    · cases hc
      exact done rfl (by simp) hk
    · cases hc
      exact done rfl (by simp) hk
    · obtain ⟨e', h1, rfl⟩ := map_ok hc
      obtain rfl := editSave_ok (s := e.state) h1
      exact ⟨hk, fun e he => by cases he; exact hp⟩
  | viewer v =>
    cases op <;> try (cases hc; done)
    · obtain ⟨v', h1, rfl⟩ := map_ok hc
      have tr := Viewer.transform_ok h1
      refine done rfl (by simp) (hk.transformed tr (fun t r hr _ => hp t r hr)
        (tr.accumulators.alike fun _ _ _ a _ r hr => hp a r hr)
        (tr.defaults.alike fun _ _ _ a _ r hr => hp a r hr))
    · obtain ⟨v', h1, rfl⟩ := map_ok hc
      exact done rfl (by simp) (hk.mask h1)
    · obtain ⟨v', h1, rfl⟩ := map_ok hc
      exact done rfl (by simp) (hk.mask h1)
    · obtain ⟨v', h1, rfl⟩ := map_ok hc
      exact done rfl (by simp) (hk.mask h1)
    · cases hc
      exact done rfl (by simp) hk
    · cases hc
      exact done rfl (by simp) hk
    · obtain ⟨e', h1, rfl⟩ := map_ok hc
      obtain rfl := editSave_ok (s := v.state) h1
      exact ⟨hk, fun e he => by cases he; exact hp⟩

theorem runApi_induction {Inv : Session α → Prop} {P : ApiCall α → Prop}
    (hstep : ∀ x op x', Inv x → P op → op.call x = .ok x' → Inv x') :
    ∀ (ops : List (ApiCall α)) {x x' : Session α}, (∀ op ∈ ops, P op) → Inv x →
      runApi x ops = .ok x' → Inv x'
  | [], x, x', _, hi, h => by cases h; exact hi
  | op :: ops, x, x', hp, hi, h => by
    simp only [runApi, bind_ok] at h
    obtain ⟨x1, h1, h2⟩ := h
    exact runApi_induction hstep ops (fun o ho => hp o (by simp [ho]))
      (hstep x op x1 hi (hp op (by simp)) h1) h2

theorem base_kept (batch : List Nat) {d : DType} (hd : d.isFloating = true) (eps dep : α)
    (mode : Option String) : (Session.builder ⟨baseState batch d eps dep mode⟩).Kept :=
  ⟨⟨baseState_wf batch hd eps dep mode, by intro n t h; simp [Session.state, baseState] at h⟩,
    fun e he => by cases he⟩

/-- C62, any arithmetic: whatever public methods are called, on builder, controller, editor and
viewer, in any order, with documented arguments (no `None` inside trees, editors in mode
`"standard"`, transforms that keep shapes and dtypes): defaults, accumulators and update slots have
the same names, each accumulator has the type of its default, every leaf is a floating tensor with
the batch shape in front, and the three bookkeeping tensors have the same shape. -/
theorem C62_session_aligned (batch : List Nat) {d : DType} (hd : d.isFloating = true) (eps dep : α)
    (mode : Option String) (ops : List (ApiCall α)) (hops : ∀ op ∈ ops, op.Proper)
    {x : Session α} (hx : runApi (.builder ⟨baseState batch d eps dep mode⟩) ops = .ok x) :
    (∀ n, n ∈ x.state.defaults.keys ↔ n ∈ x.state.accumulators.keys) ∧
    (∀ n, n ∈ x.state.updates.keys ↔ n ∈ x.state.accumulators.keys) ∧
    (∀ n t u, x.state.accumulators.get? n = some t → x.state.defaults.get? n = some u →
      SameType t u ∧ Batched x.state.probabilities.shape t) ∧
    x.state.residuals.shape = x.state.probabilities.shape ∧
    x.state.iterations.shape = x.state.probabilities.shape ∧
    x.state.residuals.dtype = x.state.probabilities.dtype ∧
    x.state.probabilities.dtype.isFloating = true := by
  have h := (runApi_induction (Inv := Session.Kept) (P := ApiCall.Proper)
    (fun _ _ _ h hp hc => h.call hp hc) ops hops (base_kept batch hd eps dep mode) hx).1.wf
  exact ⟨h.def_iff, h.upd_iff, fun n t u h1 h2 => ⟨h.same n t u h1 h2, h.batched n t h1⟩,
    h.res_shape, h.it_shape, h.res_dtype, h.floating⟩

/-! ### Ranges, in exact arithmetic -/

section Exact
variable {K : Type} [Field K] [LinearOrder K] [IsStrictOrderedRing K]
attribute [local instance] Arith.exact

/-- The ranges of the bookkeeping. -/
structure Ranged (s : ACTStates K) : Prop where
  eps : 0 ≤ s.epsilon
  dep : 0 ≤ s.depression_constant
  prob : ∀ b x, s.probabilities.at? b = some x → 0 ≤ x ∧ x ≤ 1
  resid : ∀ b x, s.residuals.at? b = some x → 0 ≤ x ∧ x ≤ 1
  iter : ∀ b x, s.iterations.at? b = some x → 0 ≤ x

theorem Ranged.iterate {s s' : ACTStates K} {h : Tensor K} (hwf : s.WF)
    (st : IterStep s h s') (hr : Ranged s) : Ranged s' := by
  have key : ∀ b p', s'.probabilities.at? b = some p' → 0 ≤ p' ∧ p' ≤ 1 := by
    intro b p' hp'
    obtain ⟨p, hp⟩ := st.index hp'
    obtain ⟨r, n, x, -, -, -, hc, -, -⟩ := st.cellAt hwf hp
    rw [hp'] at hc
    cases hc
    obtain ⟨hp0, hp1⟩ := hr.prob b p hp
    have hd := hr.dep
    by_cases hcr : Spec.crosses s.probabilities.dtype s.epsilon s.depression_constant p
        (convS h.dtype s.probabilities.dtype x) = true
    · rw [Spec.step_prob_of_crosses hcr]; exact ⟨zero_le_one, le_refl 1⟩
    · have hcr' := Bool.eq_false_iff.2 hcr
      have he := hr.eps
      rw [Spec.step_prob, Spec.weight_of_not hcr']
      rw [Spec.crosses_false_iff] at hcr'
      have := mul_nonneg hd (Spec.clamp_nonneg (convS h.dtype s.probabilities.dtype x))
      simp only
      constructor <;> linarith
  have hwf' := Controller.IterStep.wf hwf st
  refine ⟨by rw [st.epsilon]; exact hr.eps, by rw [st.depression]; exact hr.dep, key, ?_, ?_⟩
  · intro b r' hr'
    obtain ⟨p', hp'⟩ := at?_of_shape_eq hwf'.res_shape hr'
    obtain ⟨p, hp⟩ := st.index hp'
    obtain ⟨r, n, x, h1, -, -, -, hc, -⟩ := st.cellAt hwf hp
    rw [hr'] at hc
    cases hc
    simp only [Spec.step]
    split
    · obtain ⟨a1, a2⟩ := hr.prob b p hp
      show 0 ≤ 1 - p ∧ 1 - p ≤ 1
      constructor <;> linarith
    · exact hr.resid b r h1
  · intro b n' hn'
    obtain ⟨p', hp'⟩ := at?_of_shape_eq hwf'.it_shape hn'
    obtain ⟨p, hp⟩ := st.index hp'
    obtain ⟨r, n, x, -, h1, -, -, -, hc⟩ := st.cellAt hwf hp
    rw [hn'] at hc
    cases hc
    have := hr.iter b n h1
    simp only [Spec.step]
    split
    · exact this
    · show 0 ≤ n + 1
      linarith [zero_le_one (α := K)]

theorem Ranged.reset {s s' : ACTStates K} (hwf : s.WF) (st : ResetStep s s') (hr : Ranged s) :
    Ranged s' := by
  have hwf' := Controller.ResetStep.wf hwf st
  have key : ∀ b p', s'.probabilities.at? b = some p' → ∃ p r n, s.probabilities.at? b = some p ∧
      s.residuals.at? b = some r ∧ s.iterations.at? b = some n ∧
      (let c := Spec.resetCell s.probabilities.dtype s.iterations.dtype s.epsilon ⟨p, r, n⟩
      s'.probabilities.at? b = some c.prob ∧ s'.residuals.at? b = some c.resid ∧
      s'.iterations.at? b = some c.iter) := by
    intro b p' hp'
    obtain ⟨p, hp⟩ := st.index hp'
    obtain ⟨r, n, h1, h2⟩ := hwf.cell hp
    exact ⟨p, r, n, hp, h1, h2, st.cell b p r n hp h1 h2⟩
  refine ⟨by rw [st.epsilon]; exact hr.eps, by rw [st.depression]; exact hr.dep, ?_, ?_, ?_⟩
  · intro b x hx
    obtain ⟨p, r, n, h1, -, -, hc, -, -⟩ := key b x hx
    rw [hx] at hc
    cases hc
    simp only [Spec.resetCell, Spec.keepIf_eq]
    split
    · exact hr.prob b p h1
    · exact ⟨le_refl 0, zero_le_one⟩
  · intro b x hx
    obtain ⟨p', hp'⟩ := at?_of_shape_eq hwf'.res_shape hx
    obtain ⟨p, r, n, -, h1, -, -, hc, -⟩ := key b p' hp'
    rw [hx] at hc
    cases hc
    simp only [Spec.resetCell, Spec.keepIf_eq]
    split
    · exact hr.resid b r h1
    · exact ⟨le_refl 0, zero_le_one⟩
  · intro b x hx
    obtain ⟨p', hp'⟩ := at?_of_shape_eq hwf'.it_shape hx
    obtain ⟨p, r, n, -, -, h1, -, -, hc⟩ := key b p' hp'
    rw [hx] at hc
    cases hc
    simp only [Spec.resetCell, Spec.keepIf_eq]
    split
    · exact hr.iter b n h1
    · exact le_refl 0

omit [IsStrictOrderedRing K] in
theorem masked_cases {mask : Tensor K} {d : DType} {old : Option K} {b : List Nat} {x : K}
    (hm : ∀ b x, mask.at? b = some x → x = 0 ∨ x = 1) (h : Masked mask d old (some x) b) :
    x = 0 ∨ old = some x := by
  cases hb : mask.at? b with
  | none => unfold Masked at h; rw [hb] at h; cases h
  | some m =>
    rcases hm b m hb with rfl | rfl
    · have := (masked_exact h).2 hb
      cases old
      · cases this
      · left; simpa using this
    · right; exact ((masked_exact h).1 hb).symm

theorem Ranged.mask {s : ACTStates K} (hwf : s.WF) (hr : Ranged s) {m : Tensor K}
    (hm : ∀ b x, m.at? b = some x → x = 0 ∨ x = 1) {v' : Viewer K}
    (h : Viewer.maskData ⟨s⟩ m = .ok v') : Ranged v'.state := by
  obtain ⟨-, -, h1, h2, h3⟩ := C31_mask_entries hwf h
  obtain ⟨-, -, tr⟩ := maskData_ok h
  refine ⟨by rw [tr.epsilon]; exact hr.eps, by rw [tr.depression]; exact hr.dep, ?_, ?_, ?_⟩
  · intro b x hx
    rcases masked_cases hm (hx ▸ h1 b) with rfl | e
    · exact ⟨le_refl 0, zero_le_one⟩
    · exact hr.prob b x e
  · intro b x hx
    rcases masked_cases hm (hx ▸ h2 b) with rfl | e
    · exact ⟨le_refl 0, zero_le_one⟩
    · exact hr.resid b x e
  · intro b x hx
    rcases masked_cases hm (hx ▸ h3 b) with rfl | e
    · exact le_refl 0
    · exact hr.iter b x e

omit [IsStrictOrderedRing K] in
theorem ofMask_bool (m : Arr Bool) : ∀ b x, (Tensor.ofMask m : Tensor K).at? b = some x →
    x = 0 ∨ x = 1 := by
  intro b x hx
  rw [Tensor.at?_ofMask] at hx
  cases hm : m.at? b with
  | none => rw [hm] at hx; cases hx
  | some v =>
    rw [hm] at hx
    cases hx
    cases v
    · left; rfl
    · right; rfl

theorem Ranged.call {x x' : Session K} (hk : x.Kept) (hr : Ranged x.state) {op : ApiCall K}
    (hi : op.InRange) (hc : op.call x = .ok x') : Ranged x'.state := by
  obtain ⟨hk, hm⟩ := hk
  cases x with
  | builder b =>
    cases op <;> try (cases hc; done)
    · obtain ⟨b', h1, rfl⟩ := map_ok hc
      obtain ⟨-, rfl⟩ := Builder.define_ok_iff.1 h1
      exact ⟨hr.eps, hr.dep, hr.prob, hr.resid, hr.iter⟩
    · obtain ⟨b', h1, rfl⟩ := map_ok hc
      unfold Builder.defineAccumulatorByShape at h1
      rw [bind_ok] at h1
      obtain ⟨t, -, h1⟩ := h1
      obtain ⟨-, rfl⟩ := Builder.define_ok_iff.1 h1
      exact ⟨hr.eps, hr.dep, hr.prob, hr.resid, hr.iter⟩
    · obtain ⟨b', h1, rfl⟩ := map_ok hc
      obtain ⟨-, -, -, rfl⟩ := Builder.delete_ok_iff.1 h1
      exact ⟨hr.eps, hr.dep, hr.prob, hr.resid, hr.iter⟩
    · cases hc
      exact hr
  | controller c =>
    cases op <;> try (cases hc; done)
    · obtain ⟨b', h1, rfl⟩ := map_ok hc
      have e := (Controller.cacheUpdate_ok_iff.1 h1).eq
      show Ranged b'.state
      rw [e]
      exact ⟨hr.eps, hr.dep, hr.prob, hr.resid, hr.iter⟩
    · obtain ⟨b', h1, rfl⟩ := map_ok hc
      exact hr.iterate hk.wf (Controller.iterateAct_ok hk.wf h1)
    · obtain ⟨b', h1, rfl⟩ := map_ok hc
      exact hr.reset hk.wf (Controller.resetBatches_ok hk.wf h1)
    · cases hc; exact hr
    · obtain ⟨e, h1, rfl⟩ := map_ok hc
      obtain rfl := editSave_ok (s := c.state) h1
      exact hr
    · cases hc; exact hr
    · cases hc; exact hr
    · obtain ⟨e, h1, rfl⟩ := map_ok hc
      obtain rfl := editSave_ok (s := c.state) h1
      exact hr
  | editor e =>
    have hm := hm e rfl
    cases op <;> try (cases hc; done)
    · cases hc; exact hr
    · obtain ⟨e', h1, rfl⟩ := map_ok hc
      obtain ⟨⟨-, -, h2⟩, rfl⟩ := checked_ok (C28_set_probabilities hk.wf hm _) h1
      refine ⟨hr.eps, hr.dep, fun b x hx => ?_, hr.resid, hr.iter⟩
      have := h2 b x hx
      simpa [Arith.lt, Arith.zero, Arith.one] using this
    · obtain ⟨e', h1, rfl⟩ := map_ok hc
      obtain ⟨⟨-, -, h2⟩, rfl⟩ := checked_ok (C28_set_residuals hk.wf hm _) h1
      refine ⟨hr.eps, hr.dep, hr.prob, fun b x hx => ?_, hr.iter⟩
      have := h2 b x hx
      simpa [Arith.lt, Arith.zero, Arith.one] using this
    · obtain ⟨e', h1, rfl⟩ := map_ok hc
      obtain ⟨⟨-, -, h2⟩, rfl⟩ := checked_ok (C28_set_iterations hk.wf hm _) h1
      refine ⟨hr.eps, hr.dep, hr.prob, hr.resid, fun b x hx => ?_⟩
      have := h2 b x hx
      simpa [Arith.le, Arith.zero] using this
    · obtain ⟨e', h1, rfl⟩ := map_ok hc
      obtain ⟨⟨h2, -⟩, rfl⟩ := checked_ok (C28_set_epsilon hm _) h1
      refine ⟨?_, hr.dep, hr.prob, hr.resid, hr.iter⟩
      simpa [Arith.le, Arith.zero, Session.state] using h2
    · obtain ⟨e', h1, rfl⟩ := map_ok hc
      obtain ⟨-, rfl⟩ := Editor.setAccumulator_ok_iff.1 h1
      exact ⟨hr.eps, hr.dep, hr.prob, hr.resid, hr.iter⟩
    · obtain ⟨e', h1, rfl⟩ := map_ok hc
      obtain ⟨-, rfl⟩ := Editor.setDefaults_ok_iff.1 h1
      exact ⟨hr.eps, hr.dep, hr.prob, hr.resid, hr.iter⟩
    · obtain ⟨e', h1, rfl⟩ := map_ok hc
      obtain ⟨-, rfl⟩ := Editor.setUpdates_ok_iff.1 h1
      exact ⟨hr.eps, hr.dep, hr.prob, hr.resid, hr.iter⟩
    · cases hc; exact hr
    · cases hc; exact hr
    · obtain ⟨e', h1, rfl⟩ := map_ok hc
      obtain rfl := editSave_ok (s := e.state) h1
      exact hr
  | viewer v =>
    cases op <;> try (cases hc; done)
    · obtain ⟨v', h1, rfl⟩ := map_ok hc
      have tr := Viewer.transform_ok h1
      exact ⟨by rw [Session.state, tr.epsilon]; exact hr.eps,
        by rw [Session.state, tr.depression]; exact hr.dep,
        (hi _ _ tr.probabilities).1 hr.prob, (hi _ _ tr.residuals).1 hr.resid,
        (hi _ _ tr.iterations).2 hr.iter⟩
    · obtain ⟨v', h1, rfl⟩ := map_ok hc
      exact hr.mask hk.wf hi h1
    · obtain ⟨v', h1, rfl⟩ := map_ok hc
      exact hr.mask hk.wf (ofMask_bool _) h1
    · obtain ⟨v', h1, rfl⟩ := map_ok hc
      exact hr.mask hk.wf (ofMask_bool _) h1
    · cases hc; exact hr
    · cases hc; exact hr
    · obtain ⟨e', h1, rfl⟩ := map_ok hc
      obtain rfl := editSave_ok (s := v.state) h1
      exact hr

/-- C62, exact arithmetic: whatever public methods are called, in any order: all probabilities and
residuals are in `[0, 1]`, no iteration count and no epsilon is negative. -/
theorem C62_session_ranges (batch : List Nat) {d : DType} (hd : d.isFloating = true) {eps dep : K}
    (heps : 0 ≤ eps) (hdep : 0 ≤ dep) (mode : Option String) (ops : List (ApiCall K))
    (hops : ∀ op ∈ ops, op.Proper ∧ op.InRange) {x : Session K}
    (hx : runApi (.builder ⟨baseState batch d eps dep mode⟩) ops = .ok x) :
    0 ≤ x.state.epsilon ∧
    (∀ b p, x.state.probabilities.at? b = some p → 0 ≤ p ∧ p ≤ 1) ∧
    (∀ b r, x.state.residuals.at? b = some r → 0 ≤ r ∧ r ≤ 1) ∧
    (∀ b n, x.state.iterations.at? b = some n → 0 ≤ n) := by
  have h := (runApi_induction (Inv := fun x => x.Kept ∧ Ranged x.state)
    (P := fun op => op.Proper ∧ op.InRange)
    (fun _ _ _ h hp hc => ⟨h.1.call hp.1 hc, h.2.call h.1 hp.2 hc⟩) ops hops
    ⟨base_kept batch hd eps dep mode, ?_⟩ hx).2
  · exact ⟨h.eps, h.prob, h.resid, h.iter⟩
  · have hz : ∀ b x, (Tensor.zeros batch d : Tensor K).at? b = some x → x = 0 := by
      intro b x hx
      rw [Tensor.zeros, Tensor.at?, Arr.at?_full] at hx
      split at hx <;> cases hx
      rfl
    refine ⟨heps, hdep, fun b x hx => ?_, fun b x hx => ?_, fun b x hx => ?_⟩
    · rw [hz b x hx]; exact ⟨le_refl 0, zero_le_one⟩
    · rw [hz b x hx]; exact ⟨le_refl 0, zero_le_one⟩
    · rw [hz b x hx]

end Exact

section Example
open Fixtures
attribute [local instance] Arith.exact

/-- What is seen of the object at the end of a session. -/
def seen {β : Type} (r : Res (Session ℚ)) (f : Session ℚ → Option β) : Option β :=
  match r with
  | .ok c => f c
  | .error _ => Option.none

/-- A session through all four classes. -/
def tour : List (ApiCall ℚ) :=
  [.define "out" (bare (vec [0, 0])), .byShape "state" (.node .list [.leaf (.int 2)]) .f32 0,
    .delete "state", .build, .cache "out" (bare (vec [4, 6])), .iterate (vec [1/2, 1]),
    .edit "standard", .setProbabilities (vec [1/3, 1]), .setAccumulator "out" (bare (vec [5, 7])),
    .build, .reset, .cache "out" (bare (vec [1, 1])), .makeViewer, .unhaltedOnly, .loadController,
    .iterate (vec [2, 1/4]), .editSave "standard"]

theorem tour_ok : seen (runApi (.builder ⟨baseState [2] .f32 (1/10) 1 Option.none⟩) tour)
    (fun x => some (x.state.probabilities.at? [0], x.state.probabilities.at? [1],
      x.state.residuals.at? [0], ACTStates.entry? x.state.accumulators "out" 0 [0])) =
    some (some 1, some (1/4), some (2/3), some 5) := by decide +kernel

/-- The tour meets the hypotheses of both theorems. -/
example : ∃ x, runApi (.builder ⟨baseState [2] .f32 (1/10) 1 Option.none⟩) tour = .ok x ∧
    (∀ op ∈ tour, op.Proper ∧ op.InRange) ∧
    (∀ b p, x.state.probabilities.at? b = some p → 0 ≤ p ∧ p ≤ 1) := by
  have hop : ∀ op ∈ tour, op.Proper ∧ op.InRange := by
    simp [tour, ApiCall.Proper, ApiCall.InRange, bare, NoNone, NoNoneL]
  have h1 := tour_ok
  revert h1
  unfold seen
  split
  · rename_i x hx
    intro _
    exact ⟨x, hx, hop, (C62_session_ranges [2] rfl (by norm_num) (by norm_num) Option.none tour hop
      hx).2.1⟩
  · intro h; cases h

/-- An editor in mode `"silence"` breaks the alignment: the residuals get another shape. -/
example : seen (runApi (.builder ⟨baseState [2] .f32 (1/10 : ℚ) 1 Option.none⟩)
    [.build, .edit "silence", .setProbabilities (vec [7]), .build])
    (fun x => some (x.state.probabilities.shape, x.state.residuals.shape,
      x.state.probabilities.at? [0])) = some ([1], [2], some 7) := by decide +kernel

/-- So does a transform that changes shapes. -/
example : seen (runApi (.builder ⟨baseState [2] .f32 (1/10 : ℚ) 1 Option.none⟩)
    [.define "out" (bare (vec [0, 0])), .build, .makeViewer,
      .transform (fun t => .ok (if t.shape = [2] then vec [9] else t)), .loadController])
    (fun x => x.state.probabilities.at? [0]) = some 9 := by decide +kernel

end Example

end JaxAct
