import Verif.Spec.SessionSame
import Verif.Lemmas.Sorted
import Verif.Props.C34
import Verif.Props.C35
import Verif.Props.C74

/-! # C76 Insertion order never matters, whatever the classes used -/

namespace JaxAct
variable {α : Type} [Arith α]
open PyTree Utils

/-! ### Dicts of trees -/

section Dicts
variable {β : Type}

private theorem DictSame.set {d d' : Dict (PyTree β)} (h : DictSame d d') (n : String)
    {t t' : PyTree β} (ht : SameMapping t t') : DictSame (d.set n t) (d'.set n t') := by
  intro m
  rw [Dict.get?_set, Dict.get?_set]
  split
  · exact .some ht
  · exact h m

private theorem DictSame.erase {d d' : Dict (PyTree β)} (hd : d.WF) (hd' : d'.WF)
    (h : DictSame d d') (n : String) : DictSame (d.erase n) (d'.erase n) := by
  intro m
  rw [Dict.get?_erase hd, Dict.get?_erase hd']
  split
  · exact .none
  · exact h m

private theorem DictSame.mem_eq {d d' : Dict (PyTree β)} (h : DictSame d d') (n : String) :
    d.mem n = d'.mem n := by
  have := h n
  unfold Dict.mem
  cases hd : d.get? n <;> cases hd' : d'.get? n <;> rw [hd, hd'] at this <;> first | rfl | cases this

private theorem DictSame.of_get? {d d' : Dict (PyTree β)} (h : ∀ n, d.get? n = d'.get? n) :
    DictSame d d' := by
  intro n
  rw [h n]
  cases d'.get? n
  · exact .none
  · exact .some (sameMapping_refl _)

private theorem DictWF.set {d : Dict (PyTree β)} (h : DictWF d) (n : String) {t : PyTree β}
    (ht : t.WF) : DictWF (d.set n t) := by
  refine ⟨h.1.set _ _, fun m u hu => ?_⟩
  rw [Dict.get?_set] at hu
  split at hu
  · cases hu; exact ht
  · exact h.2 m u hu

private theorem DictWF.erase {d : Dict (PyTree β)} (h : DictWF d) (n : String) :
    DictWF (d.erase n) := by
  refine ⟨h.1.erase _, fun m u hu => ?_⟩
  rw [Dict.get?_erase h.1] at hu
  split at hu
  · cases hu
  · exact h.2 m u hu

private theorem treeMap_canon {γ : Type} {f : β → Res γ} {t t' : PyTree β} (h : t.canon = t'.canon) :
    t.treeMap f = t'.treeMap f := by
  simp only [treeMap, treeLeaves, treeStructure, h]

private theorem treeMap_wf {γ : Type} {f : β → Res γ} {t : PyTree β} {r : PyTree γ} (ht : t.WF)
    (h : t.treeMap f = .ok r) : r.WF := by
  obtain ⟨h1, -⟩ := treeMap_ok_iff.1 h
  have hc := flatten_of_struct h1
  exact wf_of_structure ht (by rw [treeStructure, hc, h1]) hc

private theorem mapM_wf {γ : Type} {f : β → Res γ} {d : Dict (PyTree β)} {r : Dict (PyTree γ)}
    (hd : DictWF d) (h : d.mapM (treeMap f) = .ok r) : DictWF r := by
  obtain ⟨h1, h2⟩ := Dict.mapM_ok h
  refine ⟨by unfold Dict.WF; rw [h1]; exact hd.1, fun n t ht => ?_⟩
  have h3 := h2 n
  cases hg : d.get? n with
  | none => rw [hg] at h3; rw [show r.get? n = Option.none from h3] at ht; cases ht
  | some v =>
    rw [hg] at h3
    obtain ⟨w, h4, h5⟩ := h3
    rw [ht] at h5
    cases h5
    exact treeMap_wf (hd.2 n v hg) h4

private theorem mapM_same {γ : Type} {f : β → Res γ} {d d' : Dict (PyTree β)} (hd : DictWF d)
    (hd' : DictWF d') (h : DictSame d d') {r : Dict (PyTree γ)} (hr : d.mapM (treeMap f) = .ok r) :
    ∃ r', d'.mapM (treeMap f) = .ok r' ∧ DictSame r r' := by
  have hc := (dictSame_iff hd hd').1 h
  have hm := (Dict.mapM_ok hr).2
  have key : ∀ n v', d'.get? n = some v' → ∃ w, treeMap f v' = .ok w ∧ r.get? n = some w := by
    intro n v' hv'
    have h1 := hm n
    have h2 := hc n
    rw [hv'] at h2
    cases hv : d.get? n with
    | none => rw [hv] at h2; cases h2
    | some v =>
      rw [hv] at h1 h2
      obtain ⟨w, h3, h4⟩ := h1
      exact ⟨w, by rw [← treeMap_canon (Option.some.inj h2)]; exact h3, h4⟩
  obtain ⟨r', hr'⟩ := Dict.mapM_of (f := treeMap f) (d := d') fun kv hkv => by
    obtain ⟨w, h1, -⟩ := key kv.1 kv.2 (Dict.get?_of_mem hd'.1 hkv)
    exact ⟨w, h1⟩
  refine ⟨r', hr', DictSame.of_get? fun n => ?_⟩
  have h1 := (Dict.mapM_ok hr').2 n
  cases hv' : d'.get? n with
  | some v' =>
    rw [hv'] at h1
    obtain ⟨w, h2, h3⟩ := h1
    obtain ⟨w', h4, h5⟩ := key n v' hv'
    rw [h4] at h2
    cases h2
    rw [h3, h5]
  | none =>
    rw [hv'] at h1
    rw [show r'.get? n = Option.none from h1]
    have h2 := hm n
    have h3 := hc n
    rw [hv'] at h3
    cases hv : d.get? n with
    | none => rw [hv] at h2; exact h2
    | some v => rw [hv] at h3; cases h3

end Dicts

/-! ### Outcomes -/

/-- Outcomes that are the same; exceptions need only be equal if `p`. -/
private def Out (p : Prop) : Res (Session α) → Res (Session α) → Prop
  | .ok x, .ok x' => x.Same x' ∧ x.state.DictsWF ∧ x'.state.DictsWF
  | .error e, .error e' => p → e = e'
  | _, _ => False

omit [Arith α] in
private theorem out_raise (p : Prop) (e : Err) : Out (α := α) p (raise e) (raise e) := fun _ => rfl

omit [Arith α] in
private theorem out_mono {p q : Prop} (h : q → p) : ∀ {r r' : Res (Session α)}, Out p r r' → Out q r r'
  | .ok _, .ok _, k => k
  | .error _, .error _, k => fun hq => k (h hq)
  | .ok _, .error _, k => k
  | .error _, .ok _, k => k

/-! ### Builder -/

omit [Arith α] in
private theorem out_define {p : Prop} {s s' : ACTStates α} (hs : s.Same s') (hw : s.DictsWF)
    (hw' : s'.DictsWF) (n : String) {t t' : PyTree (Leaf α)} (ht : t.WF) (ht' : t'.WF)
    (h : SameMapping t t') :
    Out p ((Builder.define ⟨s⟩ n t).map .builder) ((Builder.define ⟨s'⟩ n t').map .builder) := by
  unfold Builder.define
  have hc := (canon_eq_iff_sameMapping ht ht').2 h
  rw [show treeLeaves t' = treeLeaves t by simp only [treeLeaves, hc]]
  rw [show (⟨s'⟩ : Builder α).state.probabilities.shape = (⟨s⟩ : Builder α).state.probabilities.shape
    by show s'.probabilities.shape = s.probabilities.shape; rw [hs.probabilities]]
  cases Builder.validateLeaves (⟨s⟩ : Builder α).state.probabilities.shape t.treeLeaves with
  | error e => exact fun _ => rfl
  | ok _ =>
    exact ⟨⟨hs.epsilon, hs.iterations, hs.residuals, hs.probabilities, hs.depression_constant,
      hs.error_mode, hs.accumulators.set n h, hs.defaults.set n h,
      hs.updates.set n (sameMapping_refl _)⟩,
      ⟨hw.accumulators.set n ht, hw.defaults.set n ht, hw.updates.set n trivial⟩,
      ⟨hw'.accumulators.set n ht', hw'.defaults.set n ht', hw'.updates.set n trivial⟩⟩

omit [Arith α] in
private theorem out_delete {p : Prop} {s s' : ACTStates α} (hs : s.Same s') (hw : s.DictsWF)
    (hw' : s'.DictsWF) (n : String) :
    Out p ((Builder.deleteDefinition ⟨s⟩ n).map .builder)
      ((Builder.deleteDefinition ⟨s'⟩ n).map .builder) := by
  unfold Builder.deleteDefinition Dict.pop
  simp only [← hs.defaults.mem_eq n, ← hs.accumulators.mem_eq n, ← hs.updates.mem_eq n]
  by_cases h1 : s.defaults.mem n
  · by_cases h2 : s.accumulators.mem n
    · by_cases h3 : s.updates.mem n
      · simp only [h1, h2, h3, if_true]
        exact ⟨⟨hs.epsilon, hs.iterations, hs.residuals, hs.probabilities, hs.depression_constant,
          hs.error_mode, hs.accumulators.erase hw.accumulators.1 hw'.accumulators.1 n,
          hs.defaults.erase hw.defaults.1 hw'.defaults.1 n,
          hs.updates.erase hw.updates.1 hw'.updates.1 n⟩,
          ⟨hw.accumulators.erase n, hw.defaults.erase n, hw.updates.erase n⟩,
          ⟨hw'.accumulators.erase n, hw'.defaults.erase n, hw'.updates.erase n⟩⟩
      · simp only [h1, h2, h3, if_true]; exact fun _ => rfl
    · simp only [h1, h2, if_true]; exact fun _ => rfl
  · simp only [h1]; exact fun _ => rfl

private theorem allInts_canon : ∀ cs : List (PyTree ShapeItem),
    Builder.allInts (canonL cs) = Builder.allInts cs
  | [] => rfl
  | .leaf (.int n) :: r => by simp only [canonL, canon, Builder.allInts, allInts_canon r]
  | .leaf .other :: r => rfl
  | .none :: r => rfl
  | .node k cs :: r => by
    cases k <;> rfl

private theorem sortKV_mapSnd {β γ : Type} (g : PyTree β → PyTree γ) (l : List (String × PyTree β)) :
    (sortKV l).map (Prod.map id g) = sortKV (l.map (Prod.map id g)) := by
  unfold sortKV
  exact List.map_insertionSort _ _ _ _ (fun _ _ _ _ => Iff.rfl)

private theorem collapseShapesL_eq (cs : List (PyTree ShapeItem)) :
    Builder.collapseShapesL cs = cs.map Builder.collapseShapes := by
  induction cs with
  | nil => rfl
  | cons c cs ih => simp only [Builder.collapseShapesL, List.map_cons, ih]

mutual
private theorem collapse_canon : ∀ t : PyTree ShapeItem,
    (Builder.collapseShapes t).canon = Builder.collapseShapes t.canon
  | .leaf _ => rfl
  | .none => rfl
  | .node .list cs => by
    have ih := collapseL_canon cs
    simp only [Builder.collapseShapes, canon, sortNode, allInts_canon]
    cases Builder.allInts cs with
    | some s => rfl
    | none => simp only [canon, sortNode, ih]
  | .node .tuple cs => by
    have ih := collapseL_canon cs
    simp only [Builder.collapseShapes, canon, sortNode, ih]
  | .node (.user _) cs => by
    have ih := collapseL_canon cs
    simp only [Builder.collapseShapes, canon, sortNode, ih]
  | .node (.dict ks) cs => by
    have ih := collapseL_canon cs
    simp only [Builder.collapseShapes, canon, sortNode, ih]
    have hz : ks.zip (Builder.collapseShapesL (canonL cs)) =
        (ks.zip (canonL cs)).map (Prod.map id Builder.collapseShapes) := by
      rw [collapseShapesL_eq, List.zip_map_right]
    rw [hz, ← sortKV_mapSnd, collapseShapesL_eq, List.map_map, List.map_map, List.map_map]
    rfl
private theorem collapseL_canon : ∀ cs : List (PyTree ShapeItem),
    canonL (Builder.collapseShapesL cs) = Builder.collapseShapesL (canonL cs)
  | [] => rfl
  | c :: cs => by
    simp only [Builder.collapseShapesL, canonL, collapse_canon c, collapseL_canon cs]
end

mutual
private theorem collapse_wf : ∀ t : PyTree ShapeItem, t.WF → (Builder.collapseShapes t).WF
  | .leaf _, _ => trivial
  | .none, _ => trivial
  | .node .list cs, h => by
    simp only [Builder.collapseShapes]
    cases Builder.allInts cs with
    | some s => trivial
    | none => exact ⟨fun _ he => (by cases he), collapseL_wf cs h.2⟩
  | .node .tuple cs, h => ⟨fun _ he => (by cases he), collapseL_wf cs h.2⟩
  | .node (.user _) cs, h => ⟨fun _ he => (by cases he), collapseL_wf cs h.2⟩
  | .node (.dict ks) cs, h => ⟨fun ks' he => by
      rw [collapseShapesL_eq, List.length_map]; exact h.1 ks' he, collapseL_wf cs h.2⟩
private theorem collapseL_wf : ∀ cs : List (PyTree ShapeItem), WFL cs →
    WFL (Builder.collapseShapesL cs)
  | [], _ => trivial
  | c :: cs, h => ⟨collapse_wf c h.1, collapseL_wf cs h.2⟩
end

private theorem out_byShape {p : Prop} {s s' : ACTStates α} (hs : s.Same s') (hw : s.DictsWF)
    (hw' : s'.DictsWF) (n : String) {t t' : PyTree ShapeItem} (ht : t.WF) (ht' : t'.WF)
    (h : SameMapping t t') (d : DType) (f : α) :
    Out p ((Builder.defineAccumulatorByShape ⟨s⟩ n t d f).map .builder)
      ((Builder.defineAccumulatorByShape ⟨s'⟩ n t' d f).map .builder) := by
  unfold Builder.defineAccumulatorByShape
  have hc := (canon_eq_iff_sameMapping ht ht').2 h
  have e : treeMap (Builder.shapeToTensor d f) (Builder.collapseShapes t') =
      treeMap (Builder.shapeToTensor d f) (Builder.collapseShapes t) :=
    treeMap_canon (by rw [collapse_canon, collapse_canon, hc])
  rw [e]
  cases hr : treeMap (Builder.shapeToTensor d f) (Builder.collapseShapes t) with
  | error e => exact fun _ => rfl
  | ok r =>
    have hwf := treeMap_wf (collapse_wf t ht) hr
    exact out_define hs hw hw' n hwf hwf (sameMapping_refl _)

/-! ### Controller -/

section Wf
variable {s : ACTStates α}

private theorem commitLoop_wf {c : Controller α} {hh : Tensor α} : ∀ {ns : List String}
    {a u r v : Dict (PyTree (Leaf α))}, DictWF a → DictWF u → c.commitLoop hh ns a u = .ok (r, v) →
    DictWF r ∧ DictWF v
  | [], _, _, _, _, ha, hu, h => by cases h; exact ⟨ha, hu⟩
  | n :: ns, a, u, r, v, ha, hu, h => by
    unfold Controller.commitLoop at h
    cases h1 : wrapRuntime (c.commitOne hh a u n) with
    | error e => rw [h1] at h; cases h
    | ok new =>
      rw [h1] at h
      refine commitLoop_wf (ha.set n ?_) (hu.set n (t := .none) trivial) h
      have h2 : c.commitOne hh a u n = .ok new := by
        cases h3 : c.commitOne hh a u n with
        | error e => rw [h3] at h1; cases h1
        | ok x => rw [h3] at h1; exact h1
      unfold Controller.commitOne at h2
      obtain ⟨t, h3, h4⟩ := bind_ok.1 h2
      obtain ⟨w, -, h6⟩ := bind_ok.1 h4
      split at h6
      · cases h6
      · obtain ⟨-, h7, h8, -⟩ := mergePytrees_ok h6
        unfold Dict.getItem at h3
        cases h9 : a.get? n with
        | none => rw [h9] at h3; cases h3
        | some x =>
          rw [h9] at h3
          cases h3
          exact wf_of_structure (ha.2 n _ h9) h7 h8

omit [Arith α] in
private theorem resetLoop_wf {m : Arr Bool} {d : Dict (PyTree (Leaf α))} :
    ∀ {a out r : Dict (PyTree (Leaf α))}, (∀ n t, (n, t) ∈ a → t.WF) → DictWF out →
    Controller.resetLoop m d a out = .ok r → DictWF r
  | [], _, _, _, ho, h => by cases h; exact ho
  | (n, t) :: a, out, r, ha, ho, h => by
    unfold Controller.resetLoop at h
    obtain ⟨x, -, h⟩ := bind_ok.1 h
    obtain ⟨new, h2, h⟩ := bind_ok.1 h
    obtain ⟨-, h7, h8, -⟩ := mergePytrees_ok h2
    exact resetLoop_wf (fun n t h => ha n t (List.mem_cons_of_mem _ h))
      (ho.set n (wf_of_structure (ha n t List.mem_cons_self) h7 h8)) h

private theorem iterate_wf (hw : s.DictsWF) {h : Tensor α} {c : Controller α}
    (hc : Controller.iterateAct ⟨s⟩ h = .ok c) : c.state.DictsWF := by
  unfold Controller.iterateAct at hc
  split at hc
  · cases hc
  obtain ⟨⟨h1, r, p⟩, -, hc⟩ := bind_ok.1 hc
  obtain ⟨⟨a, u⟩, h2, hc⟩ := bind_ok.1 hc
  obtain ⟨i, -, hc⟩ := bind_ok.1 hc
  cases hc
  obtain ⟨h3, h4⟩ := commitLoop_wf hw.accumulators hw.updates h2
  exact ⟨h3, hw.defaults, h4⟩

private theorem reset_wf (hw : s.DictsWF) {c : Controller α}
    (hc : Controller.resetBatches ⟨s⟩ = .ok c) : c.state.DictsWF := by
  unfold Controller.resetBatches at hc
  split at hc
  · cases hc
  obtain ⟨i, -, hc⟩ := bind_ok.1 hc
  obtain ⟨p, -, hc⟩ := bind_ok.1 hc
  obtain ⟨r, -, hc⟩ := bind_ok.1 hc
  obtain ⟨a, h2, hc⟩ := bind_ok.1 hc
  cases hc
  exact ⟨resetLoop_wf (fun n t hm => hw.accumulators.2 n t (Dict.get?_of_mem hw.accumulators.1 hm))
    ⟨Dict.WF.nil, fun n t h => by cases h⟩ h2, hw.defaults, hw.updates⟩

omit [Arith α] in
private theorem cache_wf (hw : s.DictsWF) {n : String} {t : PyTree (Leaf α)} (ht : t.WF)
    {c : Controller α} (hc : Controller.cacheUpdate ⟨s⟩ n t = .ok c) : c.state.DictsWF :=
  CacheStep.dictsWF hw ht (Controller.cacheUpdate_ok_iff.1 hc)

end Wf

omit [Arith α] in
private theorem out_controller {p : Prop} {r r' : Res (Controller α)}
    (hok : ∀ c, r = .ok c → ∃ c', r' = .ok c' ∧ c.state.Same c'.state)
    (hok' : ∀ c', r' = .ok c' → ∃ c, r = .ok c)
    (herr : p → ∀ e e', r = .error e → r' = .error e' → e = e')
    (hw : ∀ c, r = .ok c → c.state.DictsWF) (hw' : ∀ c, r' = .ok c → c.state.DictsWF) :
    Out p (r.map .controller) (r'.map .controller) := by
  cases r with
  | ok c =>
    obtain ⟨c', rfl, h⟩ := hok c rfl
    exact ⟨h, hw c rfl, hw' c' rfl⟩
  | error e =>
    cases r' with
    | ok c' => obtain ⟨c, h⟩ := hok' c' rfl; cases h
    | error e' => exact fun hp => herr hp e e' rfl rfl

omit [Arith α] in
private theorem out_resSame {p : Prop} {r r' : Res (Controller α)} (h : ResSame r r')
    (hw : ∀ c, r = .ok c → c.state.DictsWF) (hw' : ∀ c, r' = .ok c → c.state.DictsWF) :
    Out p (r.map .controller) (r'.map .controller) := by
  cases r with
  | ok c =>
    cases r' with
    | ok c' => exact ⟨h, hw c rfl, hw' c' rfl⟩
    | error e' => exact h.elim
  | error e =>
    cases r' with
    | ok c' => exact h.elim
    | error e' => exact fun _ => h

private theorem out_reset {s s' : ACTStates α} (hs : s.Same s') (hw : s.DictsWF) (hw' : s'.DictsWF) :
    Out (s.WF ∧ s'.WF) ((Controller.resetBatches ⟨s⟩).map .controller)
      ((Controller.resetBatches ⟨s'⟩).map .controller) := by
  refine out_controller (C35_reset s s' hw hw' hs) (fun c' h => ?_) ?_
    (fun c h => reset_wf hw h) (fun c h => reset_wf hw' h)
  · obtain ⟨c, h, -⟩ := C35_reset s' s hw' hw hs.symm c' h
    exact ⟨c, h⟩
  · rintro ⟨k, k'⟩ e e' h h'
    have := C35_reset_wf s s' hw hw' k k' hs
    rw [h, h'] at this
    exact this

/-! ### Viewer -/

section Viewer
variable {s s' : ACTStates α}

omit [Arith α] in
private theorem transform_ok (hs : s.Same s') (hw : s.DictsWF) (hw' : s'.DictsWF)
    (f : Tensor α → Res (Tensor α)) {v : Viewer α} (h : Viewer.transform ⟨s⟩ f = .ok v) :
    ∃ v', Viewer.transform ⟨s'⟩ f = .ok v' ∧ v.state.Same v'.state ∧ v.state.DictsWF ∧
      v'.state.DictsWF := by
  unfold Viewer.transform at h
  obtain ⟨⟨i, r, p, a, d, u⟩, h1, h⟩ := bind_ok.1 h
  cases h
  have h1 : Viewer.transformBody ⟨s⟩ f = .ok (i, r, p, a, d, u) := by
    cases h2 : Viewer.transformBody ⟨s⟩ f with
    | error e => rw [h2] at h1; cases h1
    | ok x => rw [h2] at h1; exact h1
  unfold Viewer.transformBody at h1
  obtain ⟨i1, e1, h1⟩ := bind_ok.1 h1
  obtain ⟨r1, e2, h1⟩ := bind_ok.1 h1
  obtain ⟨p1, e3, h1⟩ := bind_ok.1 h1
  obtain ⟨a1, e4, h1⟩ := bind_ok.1 h1
  obtain ⟨d1, e5, h1⟩ := bind_ok.1 h1
  obtain ⟨u1, e6, h1⟩ := bind_ok.1 h1
  cases h1
  obtain ⟨a', k4, g4⟩ := mapM_same hw.accumulators hw'.accumulators hs.accumulators e4
  obtain ⟨d', k5, g5⟩ := mapM_same hw.defaults hw'.defaults hs.defaults e5
  obtain ⟨u', k6, g6⟩ := mapM_same hw.defaults hw'.defaults hs.defaults e6
  obtain rfl : d' = u' := Except.ok.inj (k5.symm.trans k6)
  refine ⟨⟨⟨s'.epsilon, i, r, p, d', a', d', s'.depression_constant, s'.error_mode⟩⟩, ?_,
    ⟨hs.epsilon, rfl, rfl, rfl, hs.depression_constant, hs.error_mode, g4, g5, g6⟩,
    ⟨mapM_wf hw.accumulators e4, mapM_wf hw.defaults e5, mapM_wf hw.defaults e6⟩,
    ⟨mapM_wf hw'.accumulators k4, mapM_wf hw'.defaults k5, mapM_wf hw'.defaults k5⟩⟩
  unfold Viewer.transform Viewer.transformBody
  simp only [← hs.iterations, ← hs.residuals, ← hs.probabilities, k4, k5]
  rw [show f s.iterations = .ok i from e1, show f s.residuals = .ok r from e2,
    show f s.probabilities = .ok p from e3]
  rfl

omit [Arith α] in
private theorem transform_error {v : Viewer α} {f : Tensor α → Res (Tensor α)} {e : Err}
    (h : v.transform f = .error e) : e = .runtimeError := by
  unfold Viewer.transform at h
  cases h1 : v.transformBody f with
  | error e' => rw [h1] at h; cases h; rfl
  | ok x => rw [h1] at h; cases h

omit [Arith α] in
private theorem out_transform {p : Prop} (hs : s.Same s') (hw : s.DictsWF) (hw' : s'.DictsWF)
    (f : Tensor α → Res (Tensor α)) :
    Out p ((Viewer.transform ⟨s⟩ f).map .viewer) ((Viewer.transform ⟨s'⟩ f).map .viewer) := by
  cases h : Viewer.transform ⟨s⟩ f with
  | ok v =>
    obtain ⟨v', h', k⟩ := transform_ok hs hw hw' f h
    rw [h']
    exact k
  | error e =>
    cases h' : Viewer.transform ⟨s'⟩ f with
    | ok v' =>
      obtain ⟨v, k, -⟩ := transform_ok hs.symm hw' hw f h'
      rw [h] at k
      cases k
    | error e' => exact fun _ => (transform_error h).trans (transform_error h').symm

private theorem out_mask {p : Prop} (hs : s.Same s') (hw : s.DictsWF) (hw' : s'.DictsWF)
    (m : Tensor α) :
    Out p ((Viewer.maskData ⟨s⟩ m).map .viewer) ((Viewer.maskData ⟨s'⟩ m).map .viewer) := by
  unfold Viewer.maskData
  rw [show (⟨s'⟩ : Viewer α).state.probabilities = (⟨s⟩ : Viewer α).state.probabilities
    from hs.probabilities.symm]
  split
  · exact out_raise _ _
  split
  · exact out_raise _ _
  exact out_transform hs hw hw' _

private theorem halted_same (hs : s.Same s') :
    Viewer.haltedBatches ⟨s'⟩ = Viewer.haltedBatches ⟨s⟩ := by
  unfold Viewer.haltedBatches Viewer.haltThreshold
  rw [show (⟨s'⟩ : Viewer α).state.probabilities = (⟨s⟩ : Viewer α).state.probabilities
    from hs.probabilities.symm, show (⟨s'⟩ : Viewer α).state.epsilon = (⟨s⟩ : Viewer α).state.epsilon
    from hs.epsilon.symm]

end Viewer

/-! ### Editor -/

section Editor
variable {s s' : ACTStates α} {m : String}

omit [Arith α] in
private theorem out_set {p : Prop} {checks checks' : Res Bool} (hc : checks = checks')
    {t t' : ACTStates α} (hs : t.Same t') (hw : t.DictsWF) (hw' : t'.DictsWF) :
    Out p ((do
        Editor.executeValidation ⟨s, m⟩ checks
        let state ← (Except.ok t : Res (ACTStates α))
        pure (⟨state, m⟩ : Editor α)).map .editor)
      ((do
        Editor.executeValidation ⟨s', m⟩ checks'
        let state ← (Except.ok t' : Res (ACTStates α))
        pure (⟨state, m⟩ : Editor α)).map .editor) := by
  subst hc
  have e : Editor.executeValidation ⟨s', m⟩ checks = Editor.executeValidation ⟨s, m⟩ checks := rfl
  rw [e]
  cases Editor.executeValidation ⟨s, m⟩ checks with
  | error e => exact fun _ => rfl
  | ok _ => exact ⟨⟨hs, rfl⟩, hw, hw'⟩

omit [Arith α] in
private theorem checkAcc_same (hs : s.Same s') (hw : s.DictsWF) (hw' : s'.DictsWF) (n : String)
    {t t' : PyTree (Leaf α)} (ht : t.WF) (ht' : t'.WF) (h : SameMapping t t') :
    Editor.checkAgainstAccumulator ⟨s, m⟩ n t = Editor.checkAgainstAccumulator ⟨s', m⟩ n t' := by
  unfold Editor.checkAgainstAccumulator
  simp only [← hs.defaults.mem_eq n, ← hs.accumulators.mem_eq n]
  split
  · unfold Dict.getItem
    have hr := hs.accumulators n
    cases h1 : s.accumulators.get? n with
    | none =>
      cases h2 : s'.accumulators.get? n with
      | none => rfl
      | some u => rw [h1, h2] at hr; cases hr
    | some a =>
      cases h2 : s'.accumulators.get? n with
      | none => rw [h1, h2] at hr; cases hr
      | some a' =>
        rw [h1, h2] at hr
        cases hr with
        | some hr =>
          simp only [ok_bind]
          rw [show Editor.compatible a t = Editor.compatible a' t' from
            C35_editor_checks a a' t t' (hw.accumulators.2 n a h1) (hw'.accumulators.2 n a' h2) ht ht'
              hr h]
  · rfl

omit [Arith α] in
private theorem checkUpd_same (hs : s.Same s') (hw : s.DictsWF) (hw' : s'.DictsWF) (n : String)
    {t t' : PyTree (Leaf α)} (ht : t.WF) (ht' : t'.WF) (h : SameMapping t t') :
    Editor.checkUpdate ⟨s, m⟩ n t = Editor.checkUpdate ⟨s', m⟩ n t' := by
  unfold Editor.checkUpdate
  simp only [← hs.defaults.mem_eq n, ← isNone_of_same h]
  split
  · rfl
  · unfold Dict.getItem
    have hr := hs.defaults n
    cases h1 : s.defaults.get? n with
    | none =>
      cases h2 : s'.defaults.get? n with
      | none => rfl
      | some u => rw [h1, h2] at hr; cases hr
    | some a =>
      cases h2 : s'.defaults.get? n with
      | none => rw [h1, h2] at hr; cases hr
      | some a' =>
        rw [h1, h2] at hr
        cases hr with
        | some hr =>
          simp only [ok_bind]
          rw [show Editor.compatible a t = Editor.compatible a' t' from
            C35_editor_checks a a' t t' (hw.defaults.2 n a h1) (hw'.defaults.2 n a' h2) ht ht' hr h]

end Editor

/-! ### One call -/

omit [Arith α] in
private theorem sameCall_cases {op op' : ApiCall α} (h : op.Same op') :
    op = op' ∨ (∃ n t t', op = .define n t ∧ op' = .define n t' ∧ SameMapping t t') ∨
    (∃ n t t' d f, op = .byShape n t d f ∧ op' = .byShape n t' d f ∧ SameMapping t t') ∨
    (∃ n t t', op = .cache n t ∧ op' = .cache n t' ∧ SameMapping t t') ∨
    (∃ n t t', op = .setAccumulator n t ∧ op' = .setAccumulator n t' ∧ SameMapping t t') ∨
    (∃ n t t', op = .setDefaults n t ∧ op' = .setDefaults n t' ∧ SameMapping t t') ∨
    (∃ n t t', op = .setUpdates n t ∧ op' = .setUpdates n t' ∧ SameMapping t t') := by
  cases op <;> cases op' <;> first
    | exact .inl h
    | (obtain ⟨rfl, h⟩ := h; exact .inr (.inl ⟨_, _, _, rfl, rfl, h⟩))
    | (obtain ⟨rfl, h, rfl, rfl⟩ := h; exact .inr (.inr (.inl ⟨_, _, _, _, _, rfl, rfl, h⟩)))
    | (obtain ⟨rfl, h⟩ := h; exact .inr (.inr (.inr (.inl ⟨_, _, _, rfl, rfl, h⟩))))
    | (obtain ⟨rfl, h⟩ := h; exact .inr (.inr (.inr (.inr (.inl ⟨_, _, _, rfl, rfl, h⟩)))))
    | (obtain ⟨rfl, h⟩ := h; exact .inr (.inr (.inr (.inr (.inr (.inl ⟨_, _, _, rfl, rfl, h⟩))))))
    | (obtain ⟨rfl, h⟩ := h; exact .inr (.inr (.inr (.inr (.inr (.inr ⟨_, _, _, rfl, rfl, h⟩))))))

/-- One call on objects that are the same gives the same outcome; only the exceptions of `reset_batches`
may depend on the order, and they do not if the objects satisfy the invariant of controllers. -/
private theorem out_call {x x' : Session α} (hx : x.Same x') (hw : x.state.DictsWF)
    (hw' : x'.state.DictsWF) {op op' : ApiCall α} (ho : op.Same op') (hd : op.DictsWF)
    (hd' : op'.DictsWF) :
    Out (op ≠ .reset ∨ x.state.WF ∧ x'.state.WF) (op.call x) (op'.call x') := by
  cases x with
  | builder b =>
    cases x' with
    | builder b' =>
      obtain ⟨s⟩ := b
      obtain ⟨s'⟩ := b'
      rcases sameCall_cases ho with rfl | ⟨n, t, t', rfl, rfl, h⟩ | ⟨n, t, t', d, f, rfl, rfl, h⟩ |
        ⟨n, t, t', rfl, rfl, h⟩ | ⟨n, t, t', rfl, rfl, h⟩ | ⟨n, t, t', rfl, rfl, h⟩ |
        ⟨n, t, t', rfl, rfl, h⟩
      · cases op with
        | define n t => exact out_define hx hw hw' n hd hd' (sameMapping_refl _)
        | byShape n t d f => exact out_byShape hx hw hw' n hd hd' (sameMapping_refl _) d f
        | delete n => exact out_delete hx hw hw' n
        | build => exact ⟨hx, hw, hw'⟩
        | _ => exact out_raise _ _
      · exact out_define hx hw hw' n hd hd' h
      · exact out_byShape hx hw hw' n hd hd' h d f
      all_goals exact out_raise _ _
    | _ => exact hx.elim
  | controller c =>
    cases x' with
    | controller c' =>
      obtain ⟨s⟩ := c
      obtain ⟨s'⟩ := c'
      have edit : ∀ {p : Prop} (m : String), Out (α := α) p ((Editor.editSave s m).map .editor)
          ((Editor.editSave s' m).map .editor) := by
        intro p m
        unfold Editor.editSave
        split
        · exact ⟨⟨hx, rfl⟩, hw, hw'⟩
        · exact out_raise _ _
      have cache : ∀ {p : Prop} (n : String) {t t' : PyTree (Leaf α)}, t.WF → t'.WF →
          SameMapping t t' → Out p ((Controller.cacheUpdate ⟨s⟩ n t).map .controller)
            ((Controller.cacheUpdate ⟨s'⟩ n t').map .controller) := fun n _ _ ht ht' h =>
        out_resSame (C35_cache_update s s' hx n _ _ h) (fun _ h => cache_wf hw ht h)
          (fun _ h => cache_wf hw' ht' h)
      rcases sameCall_cases ho with rfl | ⟨n, t, t', rfl, rfl, h⟩ | ⟨n, t, t', d, f, rfl, rfl, h⟩ |
        ⟨n, t, t', rfl, rfl, h⟩ | ⟨n, t, t', rfl, rfl, h⟩ | ⟨n, t, t', rfl, rfl, h⟩ |
        ⟨n, t, t', rfl, rfl, h⟩
      · cases op with
        | cache n t => exact cache n hd hd' (sameMapping_refl _)
        | iterate h =>
          exact out_resSame (C35_iterate s s' hw hw' hx h) (fun _ h => iterate_wf hw h)
            (fun _ h => iterate_wf hw' h)
        | reset => exact out_mono (fun h => h.resolve_left (· rfl)) (out_reset hx hw hw')
        | makeViewer => exact ⟨hx, hw, hw'⟩
        | edit m => exact edit m
        | loadController => exact ⟨hx, hw, hw'⟩
        | loadViewer => exact ⟨hx, hw, hw'⟩
        | editSave m => exact edit m
        | _ => exact out_raise _ _
      · exact out_raise _ _
      · exact out_raise _ _
      · exact cache n hd hd' h
      all_goals exact out_raise _ _
    | _ => exact hx.elim
  | editor e =>
    cases x' with
    | editor e' =>
      obtain ⟨s, m⟩ := e
      obtain ⟨s', m'⟩ := e'
      obtain ⟨hx, (rfl : m = m')⟩ := hx
      replace hx : s.Same s' := hx
      replace hw : s.DictsWF := hw
      replace hw' : s'.DictsWF := hw'
      have acc : ∀ {p : Prop} (n : String) {t t' : PyTree (Leaf α)}, t.WF → t'.WF →
          SameMapping t t' → Out p ((Editor.setAccumulator ⟨s, m⟩ n t).map .editor)
            ((Editor.setAccumulator ⟨s', m⟩ n t').map .editor) := fun n _ _ ht ht' h =>
        out_set (checkAcc_same hx hw hw' n ht ht' h)
          (t := { s with accumulators := s.accumulators.set n _ })
          (t' := { s' with accumulators := s'.accumulators.set n _ })
          { hx with accumulators := hx.accumulators.set n h }
          { hw with accumulators := hw.accumulators.set n ht }
          { hw' with accumulators := hw'.accumulators.set n ht' }
      have dft : ∀ {p : Prop} (n : String) {t t' : PyTree (Leaf α)}, t.WF → t'.WF →
          SameMapping t t' → Out p ((Editor.setDefaults ⟨s, m⟩ n t).map .editor)
            ((Editor.setDefaults ⟨s', m⟩ n t').map .editor) := fun n _ _ ht ht' h =>
        out_set (checkAcc_same hx hw hw' n ht ht' h)
          (t := { s with defaults := s.defaults.set n _ })
          (t' := { s' with defaults := s'.defaults.set n _ })
          { hx with defaults := hx.defaults.set n h }
          { hw with defaults := hw.defaults.set n ht }
          { hw' with defaults := hw'.defaults.set n ht' }
      have upd : ∀ {p : Prop} (n : String) {t t' : PyTree (Leaf α)}, t.WF → t'.WF →
          SameMapping t t' → Out p ((Editor.setUpdates ⟨s, m⟩ n t).map .editor)
            ((Editor.setUpdates ⟨s', m⟩ n t').map .editor) := fun n _ _ ht ht' h =>
        out_set (checkUpd_same hx hw hw' n ht ht' h)
          (t := { s with updates := s.updates.set n _ })
          (t' := { s' with updates := s'.updates.set n _ })
          { hx with updates := hx.updates.set n h }
          { hw with updates := hw.updates.set n ht }
          { hw' with updates := hw'.updates.set n ht' }
      rcases sameCall_cases ho with rfl | ⟨n, t, t', rfl, rfl, h⟩ | ⟨n, t, t', d, f, rfl, rfl, h⟩ |
        ⟨n, t, t', rfl, rfl, h⟩ | ⟨n, t, t', rfl, rfl, h⟩ | ⟨n, t, t', rfl, rfl, h⟩ |
        ⟨n, t, t', rfl, rfl, h⟩
      · cases op with
        | setProbabilities v =>
          exact out_set (by simp only [hx.probabilities]) (t := { s with probabilities := v })
            (t' := { s' with probabilities := v }) { hx with probabilities := rfl }
            { hw with } { hw' with }
        | setResiduals v =>
          exact out_set (by simp only [hx.residuals]) (t := { s with residuals := v })
            (t' := { s' with residuals := v }) { hx with residuals := rfl }
            { hw with } { hw' with }
        | setIterations v =>
          exact out_set (by simp only [hx.iterations]) (t := { s with iterations := v })
            (t' := { s' with iterations := v }) { hx with iterations := rfl }
            { hw with } { hw' with }
        | setEpsilon v =>
          exact out_set rfl (t := { s with epsilon := v })
            (t' := { s' with epsilon := v }) { hx with epsilon := rfl }
            { hw with } { hw' with }
        | setAccumulator n t => exact acc n hd hd' (sameMapping_refl _)
        | setDefaults n t => exact dft n hd hd' (sameMapping_refl _)
        | setUpdates n t => exact upd n hd hd' (sameMapping_refl _)
        | build => exact ⟨hx, hw, hw'⟩
        | loadController => exact ⟨hx, hw, hw'⟩
        | loadViewer => exact ⟨hx, hw, hw'⟩
        | editSave k =>
          show Out _ ((Editor.editSave s k).map .editor) ((Editor.editSave s' k).map .editor)
          unfold Editor.editSave
          split
          · exact ⟨⟨hx, rfl⟩, hw, hw'⟩
          · exact out_raise _ _
        | _ => exact out_raise _ _
      · exact out_raise _ _
      · exact out_raise _ _
      · exact out_raise _ _
      · exact acc n hd hd' h
      · exact dft n hd hd' h
      · exact upd n hd hd' h
    | _ => exact hx.elim
  | viewer v =>
    cases x' with
    | viewer v' =>
      obtain ⟨s⟩ := v
      obtain ⟨s'⟩ := v'
      rcases sameCall_cases ho with rfl | ⟨n, t, t', rfl, rfl, h⟩ | ⟨n, t, t', d, f, rfl, rfl, h⟩ |
        ⟨n, t, t', rfl, rfl, h⟩ | ⟨n, t, t', rfl, rfl, h⟩ | ⟨n, t, t', rfl, rfl, h⟩ |
        ⟨n, t, t', rfl, rfl, h⟩
      · cases op with
        | transform f => exact out_transform hx hw hw' f
        | mask m => exact out_mask hx hw hw' m
        | haltedOnly =>
          show Out _ ((Viewer.haltedOnly ⟨s⟩).map .viewer) ((Viewer.haltedOnly ⟨s'⟩).map .viewer)
          unfold Viewer.haltedOnly
          rw [halted_same hx]
          exact out_mask hx hw hw' _
        | unhaltedOnly =>
          show Out _ ((Viewer.unhaltedOnly ⟨s⟩).map .viewer) ((Viewer.unhaltedOnly ⟨s'⟩).map .viewer)
          unfold Viewer.unhaltedOnly
          rw [halted_same hx]
          exact out_mask hx hw hw' _
        | loadController => exact ⟨hx, hw, hw'⟩
        | loadViewer => exact ⟨hx, hw, hw'⟩
        | editSave k =>
          show Out _ ((Editor.editSave s k).map .editor) ((Editor.editSave s' k).map .editor)
          unfold Editor.editSave
          split
          · exact ⟨⟨hx, rfl⟩, hw, hw'⟩
          · exact out_raise _ _
        | _ => exact out_raise _ _
      all_goals exact out_raise _ _
    | _ => exact hx.elim

/-! ### Sessions -/

/-- Sessions, with an invariant `Inv` under which exceptions are equal. -/
private theorem out_run {p : Prop} (Inv : Session α → Prop) (P : ApiCall α → Prop)
    (hinv : ∀ x op y, Inv x → P op → op.call x = .ok y → Inv y)
    (hp : ∀ x x' op, p → Inv x → Inv x' → P op → op ≠ .reset ∨ x.state.WF ∧ x'.state.WF) :
    ∀ {ops ops' : List (ApiCall α)}, List.Forall₂ ApiCall.Same ops ops' →
    (∀ op ∈ ops, op.DictsWF ∧ P op) → (∀ op ∈ ops', op.DictsWF ∧ P op) →
    ∀ {x x' : Session α}, Inv x → Inv x' → x.Same x' → x.state.DictsWF → x'.state.DictsWF →
    Out p (runApi x ops) (runApi x' ops')
  | _, _, .nil, _, _, x, x', _, _, hx, hw, hw' => ⟨hx, hw, hw'⟩
  | op :: ops, op' :: ops', .cons h1 h2, ho, ho', x, x', hi, hi', hx, hw, hw' => by
    have h := out_mono (fun k => hp x x' op k hi hi' (ho op List.mem_cons_self).2)
      (out_call hx hw hw' h1 (ho op List.mem_cons_self).1 (ho' op' List.mem_cons_self).1)
    unfold runApi
    cases hc : op.call x with
    | error e =>
      cases hc' : op'.call x' with
      | error e' => rw [hc, hc'] at h; exact h
      | ok y' => rw [hc, hc'] at h; exact h.elim
    | ok y =>
      cases hc' : op'.call x' with
      | error e' => rw [hc, hc'] at h; exact h.elim
      | ok y' =>
        rw [hc, hc'] at h
        exact out_run Inv P hinv hp h2 (fun o k => ho o (List.mem_cons_of_mem _ k))
          (fun o k => ho' o (List.mem_cons_of_mem _ k))
          (hinv x op y hi (ho op List.mem_cons_self).2 hc)
          (hinv x' op' y' hi' (ho' op' List.mem_cons_self).2 hc') h.1 h.2.1 h.2.2

variable {ops ops' : List (ApiCall α)} {x x' : Session α}

/-- C76: whatever methods are called on builders, controllers, editors (in any mode) and viewers: if the
objects and arguments differ only in the insertion order of dicts, both sessions succeed or both fail, and
the results differ only in the insertion order of dicts. -/
theorem C76_results (ho : List.Forall₂ ApiCall.Same ops ops') (hd : ∀ op ∈ ops, op.DictsWF)
    (hd' : ∀ op ∈ ops', op.DictsWF) (hx : x.Same x') (hw : x.state.DictsWF) (hw' : x'.state.DictsWF) :
    (∀ y, runApi x ops = .ok y → ∃ y', runApi x' ops' = .ok y' ∧ y.Same y') ∧
    (∀ y', runApi x' ops' = .ok y' → ∃ y, runApi x ops = .ok y ∧ y.Same y') := by
  have h := out_run (p := False) (fun _ => True) (fun _ => True) (fun _ _ _ _ _ _ => trivial)
    (fun _ _ _ k => k.elim) ho (fun o k => ⟨hd o k, trivial⟩) (fun o k => ⟨hd' o k, trivial⟩)
    trivial trivial hx hw hw'
  cases h1 : runApi x ops with
  | error e =>
    cases h2 : runApi x' ops' with
    | error e' => exact ⟨fun y k => (by cases k), fun y k => (by cases k)⟩
    | ok y' => rw [h1, h2] at h; exact h.elim
  | ok y =>
    cases h2 : runApi x' ops' with
    | error e' => rw [h1, h2] at h; exact h.elim
    | ok y' =>
      rw [h1, h2] at h
      exact ⟨fun z k => by cases k; exact ⟨y', rfl, h.1⟩, fun z k => by cases k; exact ⟨y, rfl, h.1⟩⟩

/-- C76: the exception is the same as well, if `reset_batches` is not called. -/
theorem C76_exceptions (ho : List.Forall₂ ApiCall.Same ops ops') (hd : ∀ op ∈ ops, op.DictsWF)
    (hd' : ∀ op ∈ ops', op.DictsWF) (hr : ApiCall.reset ∉ ops) (hx : x.Same x')
    (hw : x.state.DictsWF) (hw' : x'.state.DictsWF) {e : Err} (he : runApi x ops = .error e) :
    runApi x' ops' = .error e := by
  have hr' : ∀ op ∈ ops', op ≠ .reset := by
    intro op' hm' hop
    subst hop
    clear hd hd' he
    induction ho with
    | nil => cases hm'
    | cons h1 h2 ih =>
      rename_i op op' ops ops'
      rcases List.mem_cons.1 hm' with h | h
      · subst h
        refine hr (List.mem_cons.2 (.inl ?_))
        rcases sameCall_cases h1 with h | ⟨_, _, _, _, h, _⟩ | ⟨_, _, _, _, _, _, h, _⟩ |
          ⟨_, _, _, _, h, _⟩ | ⟨_, _, _, _, h, _⟩ | ⟨_, _, _, _, h, _⟩ | ⟨_, _, _, _, h, _⟩
        · exact h.symm
        all_goals cases h
      · exact ih (fun k => hr (List.mem_cons_of_mem _ k)) h
  have h := out_run (p := True) (fun _ => True) (fun op => op ≠ .reset)
    (fun _ _ _ _ _ _ => trivial) (fun _ _ _ _ _ _ k => .inl k) ho
    (fun o k => ⟨hd o k, fun h => hr (h ▸ k)⟩) (fun o k => ⟨hd' o k, hr' o k⟩)
    trivial trivial hx hw hw'
  rw [he] at h
  cases h2 : runApi x' ops' with
  | error e' => rw [h2] at h; rw [h trivial]
  | ok y' => rw [h2] at h; exact h.elim

/-- C76: nor does the exception of `reset_batches` depend on the order in a session that starts from a
builder and uses documented arguments. -/
theorem C76_documented (batch : List Nat) {d : DType} (hf : d.isFloating = true) (eps dep : α)
    (mode : Option String) (ho : List.Forall₂ ApiCall.Same ops ops') (hd : ∀ op ∈ ops, op.DictsWF)
    (hd' : ∀ op ∈ ops', op.DictsWF) (hp : ∀ op ∈ ops, op.Proper) (hp' : ∀ op ∈ ops', op.Proper)
    {e : Err} (he : runApi (.builder ⟨baseState batch d eps dep mode⟩) ops = .error e) :
    runApi (.builder ⟨baseState batch d eps dep mode⟩) ops' = .error e := by
  have base : (baseState batch d eps dep mode).DictsWF :=
    ⟨⟨Dict.WF.nil, fun _ _ h => by cases h⟩, ⟨Dict.WF.nil, fun _ _ h => by cases h⟩,
      ⟨Dict.WF.nil, fun _ _ h => by cases h⟩⟩
  have h := out_run (p := True) Session.Kept ApiCall.Proper (fun _ _ _ h hp hc => h.call hp hc)
    (fun _ _ _ _ h h' _ => .inr ⟨h.1.wf, h'.1.wf⟩) ho (fun o k => ⟨hd o k, hp o k⟩)
    (fun o k => ⟨hd' o k, hp' o k⟩) (base_kept batch hf eps dep mode) (base_kept batch hf eps dep mode)
    (show Session.Same (.builder ⟨_⟩) (.builder ⟨_⟩) from
      ⟨rfl, rfl, rfl, rfl, rfl, rfl, fun _ => .none, fun _ => .none, fun _ => .none⟩) base base
  rw [he] at h
  cases h2 : runApi (.builder ⟨baseState batch d eps dep mode⟩) ops' with
  | error e' => rw [h2] at h; rw [h trivial]
  | ok y' => rw [h2] at h; exact h.elim

omit [Arith α] in
private theorem throughJit_same {y y' : Session α} (h : y.Same y') (hw : y.state.DictsWF)
    (hw' : y'.state.DictsWF) : y.throughJit = y'.throughJit := by
  cases y <;> cases y' <;> first
    | exact h.elim
    | (obtain ⟨h, hm⟩ := h
       have e1 := (C34_flatten_iff _ _ hw hw').2 h
       have e2 := (ACTStates.sorted_eq_iff hw hw').2 h
       simp only [Session.state] at e1 e2
       simp only [Session.throughJit, Session.raw, Session.sorted, Editor.raw, flattenObj, e1, e2, hm])
    | (have e1 := (C34_flatten_iff _ _ hw hw').2 h
       have e2 := (ACTStates.sorted_eq_iff hw hw').2 h
       simp only [Session.state] at e1 e2
       simp only [Session.throughJit, Session.raw, Session.sorted, Builder.raw, Controller.raw,
         Viewer.raw, flattenObj, e1, e2])

omit [Arith α] in
private theorem throughJit_ok {y y' : Session α} (hw : y.state.DictsWF) (h : y.throughJit = .ok y') :
    y'.Same y ∧ y'.state.DictsWF := by
  unfold Session.throughJit at h
  split at h
  · cases h
    cases y with
    | editor e => exact ⟨⟨ACTStates.sorted_same hw, rfl⟩, hw.sorted⟩
    | _ => exact ⟨ACTStates.sorted_same hw, hw.sorted⟩
  · cases h

/-- C76, with C74: that `jit` puts the dicts of arguments and results into key order does not show.  The
wrapped function returns exactly when `jit` accepts the argument, the eager calls *on the argument itself*
return and `jit` accepts their result; it returns that result with its dicts in key order. -/
theorem C76_jit (hd : ∀ op ∈ ops, op.DictsWF) (hw : x.state.DictsWF) (y : Session α) :
    jitAndCheckify (runStaged · ops) x = .ok y ↔
      (∃ x₁, x.throughJit = .ok x₁) ∧ ∃ y', runApi x ops = .ok y' ∧ y'.throughJit = .ok y := by
  have refl : List.Forall₂ ApiCall.Same ops ops := by
    refine List.forall₂_same.2 fun op _ => ?_
    cases op <;> first | rfl | exact ⟨rfl, sameMapping_refl _⟩ | exact ⟨rfl, sameMapping_refl _, rfl, rfl⟩
  have key : ∀ {x₁}, x.throughJit = .ok x₁ → Out False (runApi x₁ ops) (runApi x ops) := fun h =>
    out_run (fun _ => True) (fun _ => True) (fun _ _ _ _ _ _ => trivial) (fun _ _ _ k => k.elim) refl
      (fun o k => ⟨hd o k, trivial⟩) (fun o k => ⟨hd o k, trivial⟩) trivial trivial
      (throughJit_ok hw h).1 (throughJit_ok hw h).2 hw
  rw [C74_returns]
  constructor
  · rintro ⟨x₁, y', h1, h2, h3⟩
    have h := key h1
    rw [h2] at h
    cases h4 : runApi x ops with
    | error e => rw [h4] at h; exact h.elim
    | ok z => rw [h4] at h; exact ⟨⟨x₁, h1⟩, z, rfl, by rw [← throughJit_same h.1 h.2.1 h.2.2, h3]⟩
  · rintro ⟨⟨x₁, h1⟩, y', h2, h3⟩
    have h := key h1
    rw [h2] at h
    cases h4 : runApi x₁ ops with
    | error e => rw [h4] at h; exact h.elim
    | ok z => rw [h4] at h; exact ⟨x₁, z, h1, h4, by rw [throughJit_same h.1 h.2.1 h.2.2, h3]⟩

omit [Arith α] in
/-- C74: what `jit` hands over is the argument flattened and unflattened again. -/
theorem C74_jit_roundtrip {y y' : Session α} (h : y.throughJit = .ok y') :
    unflattenObj (flattenObj y.raw).2 (flattenObj y.raw).1 = .ok y'.raw := by
  unfold Session.throughJit at h
  split at h
  · cases h
    cases y <;>
    · simp only [Session.raw, Session.sorted, Controller.raw, Builder.raw, Viewer.raw, Editor.raw,
        flattenObj, unflattenObj, treeUnflattenState_roundtrip, ACTStates.raw_canon]
      rfl
  · cases h

/-- C74: what the wrapped function returns is an object of the same class as the eager calls on the
argument itself return, an editor in the same mode, with the same state (dicts compared as mappings). -/
theorem C74_same_object (hd : ∀ op ∈ ops, op.DictsWF) (hw : x.state.DictsWF) {y : Session α}
    (h : jitAndCheckify (runStaged · ops) x = .ok y) : ∃ y', runApi x ops = .ok y' ∧ y.Same y' := by
  obtain ⟨⟨x₁, h1⟩, y', h2, h3⟩ := (C76_jit hd hw y).1 h
  have refl : List.Forall₂ ApiCall.Same ops ops := by
    refine List.forall₂_same.2 fun op _ => ?_
    cases op <;> first | rfl | exact ⟨rfl, sameMapping_refl _⟩ | exact ⟨rfl, sameMapping_refl _, rfl, rfl⟩
  have key := out_run (p := False) (fun _ => True) (fun _ => True) (fun _ _ _ _ _ _ => trivial)
    (fun _ _ _ k => k.elim) refl (fun o k => ⟨hd o k, trivial⟩) (fun o k => ⟨hd o k, trivial⟩) trivial
    trivial (throughJit_ok hw h1).1 (throughJit_ok hw h1).2 hw
  rw [h2] at key
  cases h4 : runApi x₁ ops with
  | error e => rw [h4] at key; exact key.elim
  | ok z => rw [h4] at key; exact ⟨y', h2, (throughJit_ok key.2.2 h3).1⟩

section Example
open Fixtures
attribute [local instance] Arith.exact

private def ab : PyTree (Leaf ℚ) :=
  .node (.dict ["a", "b"]) [.leaf (.tensor (vec [1, 2])), .leaf (.tensor (col 3 4))]

private def ba : PyTree (Leaf ℚ) :=
  .node (.dict ["b", "a"]) [.leaf (.tensor (col 3 4)), .leaf (.tensor (vec [1, 2]))]

private theorem ab_same : SameMapping ab ba :=
  (C35_same_flattening _ _ (by simp [ab, PyTree.WF, WFL]) (by simp [ba, PyTree.WF, WFL])).2
    ⟨rfl, rfl⟩

/-- A session through all four classes, with dicts written in one order ... -/
private def one : List (ApiCall ℚ) :=
  [.define "t" ab, .define "out" (bare (col 0 0)), .build, .cache "t" ba, .cache "out" (bare (col 5 7)),
    .iterate (vec [1/2, 1]), .editSave "silence", .setDefaults "t" ba, .build, .reset, .makeViewer,
    .unhaltedOnly]

/-- ... and in the other. -/
private def two : List (ApiCall ℚ) :=
  [.define "t" ba, .define "out" (bare (col 0 0)), .build, .cache "t" ab, .cache "out" (bare (col 5 7)),
    .iterate (vec [1/2, 1]), .editSave "silence", .setDefaults "t" ab, .build, .reset, .makeViewer,
    .unhaltedOnly]

private theorem one_two : List.Forall₂ ApiCall.Same one two := by
  have symm : SameMapping ba ab := fun p => (ab_same p).symm
  exact .cons ⟨rfl, ab_same⟩ <| .cons ⟨rfl, sameMapping_refl _⟩ <| .cons rfl <| .cons ⟨rfl, symm⟩ <|
    .cons ⟨rfl, sameMapping_refl _⟩ <| .cons rfl <| .cons rfl <| .cons ⟨rfl, symm⟩ <| .cons rfl <|
    .cons rfl <| .cons rfl <| .cons rfl .nil

private def start : Session ℚ := .builder ⟨baseState [2] .f32 (1/10) 1 Option.none⟩

/-- Both sessions run into the defect of `reset_batches` with trees (C16) and raise the same, as
`C76_documented` says; the hypotheses on the arguments hold. -/
example : raised (runApi start one) = some .attributeError ∧
    raised (runApi start two) = some .attributeError := by decide +kernel

/-- Without the call of `reset_batches` both return, with the same accumulators. -/
example :
    seen (runApi start (one.filter fun op => match op with | .reset => false | _ => true))
      (fun x => ACTStates.entry? x.state.accumulators "t" 0 [0]) = some (3/2) ∧
    seen (runApi start (two.filter fun op => match op with | .reset => false | _ => true))
      (fun x => ACTStates.entry? x.state.accumulators "t" 0 [0]) = some (3/2) := by
  decide +kernel

private theorem wf_one : ∀ op ∈ one, op.DictsWF := by
  simp [one, ApiCall.DictsWF, ab, ba, bare, PyTree.WF, WFL]

private theorem wf_two : ∀ op ∈ two, op.DictsWF := by
  simp [two, ApiCall.DictsWF, ab, ba, bare, PyTree.WF, WFL]

private theorem start_same : start.Same start :=
  show Session.Same (.builder ⟨_⟩) (.builder ⟨_⟩) from
    ⟨rfl, rfl, rfl, rfl, rfl, rfl, fun _ => .none, fun _ => .none, fun _ => .none⟩

private theorem start_wf : start.state.DictsWF := by
  have h : DictWF ([] : Dict (PyTree (Leaf ℚ))) := ⟨Dict.WF.nil, fun _ _ h => by cases h⟩
  exact ⟨h, h, h⟩

/-- The hypotheses of the theorems hold for these sessions. -/
example (y : Session ℚ) (h : runApi start one = .ok y) : ∃ y', runApi start two = .ok y' ∧ y.Same y' :=
  (C76_results one_two wf_one wf_two start_same start_wf start_wf).1 y h

/-- A state as a silent editor can leave it: no default for `out`, and a default with another number of
leaves for `tree`. -/
private def bent : ACTStates ℚ := { fresh with defaults := [("tree", bare (vec [0, 0]))] }

/-- C76, why `C76_exceptions` excludes `reset_batches`: on objects whose states violate the invariant of
controllers, which of two exceptions it raises depends on the insertion order. -/
theorem C76_reset_order : ∃ x x' : Session ℚ, x.Same x' ∧ x.state.DictsWF ∧ x'.state.DictsWF ∧
    raised (ApiCall.reset.call x) = some .keyError ∧
    raised (ApiCall.reset.call x') = some .assertionError := by
  have h1 : bent.DictsWF := { fresh_dictsWF with
    defaults := ⟨by simp [bent, Dict.WF, Dict.keys], fun n t h => by
      simp only [bent, Dict.get?_cons, Dict.get?] at h
      split at h
      · cases h; trivial
      · cases h⟩ }
  refine ⟨.controller ⟨bent⟩, .controller ⟨{ bent with accumulators := bent.accumulators.reverse }⟩,
    { swapped_same with
      defaults := fun n => DictSame.of_get? (fun _ => rfl) n
      updates := fun n => DictSame.of_get? (fun _ => rfl) n }, h1,
    { h1 with accumulators := ⟨by
      show (["tree", "out"] : List String).Nodup
      decide, fun n t h => ?_⟩ },
    by decide +kernel, by decide +kernel⟩
  have h : Dict.get? [("tree", pair (vec [0, 0]) (col 1 1)), ("out", bare (col 0 0))] n = some t := h
  rcases get?_two h with ⟨-, rfl⟩ | ⟨-, rfl⟩ <;> simp [bare, pair, PyTree.WF, WFL]

end Example
end JaxAct
