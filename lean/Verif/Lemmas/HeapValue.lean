import Verif.Lemmas.HeapSim
import Verif.Spec.HeapValue

/-! # Every call of the heap model computes the value of the value model -/

namespace JaxAct.Mem
variable {α : Type}

theorem stateOf_some {h : Heap α} {self : Ref} {s : ACTStates α} (hs : stateOf h self = some s) :
    ∃ cls, view h self = some (cls, s) := by
  unfold stateOf at hs
  cases hv : view h self with
  | none => rw [hv] at hs; cases hs
  | some x => rw [hv] at hs; obtain rfl : x.2 = s := by injection hs
              exact ⟨x.1, rfl⟩

theorem editorOf_some {h : Heap α} {self : Ref} {e : Editor α} (he : editorOf h self = some e) :
    view h self = some (.editor e.errorMode, e.state) := by
  unfold editorOf at he
  split at he
  · next mode s hv => cases he; exact hv
  · cases he

/-- A simulated method gives what it should. -/
theorem Sim.giving {γ : Type} {h : Heap α} {m : M α Ref} {p : Res γ} {c : Cls}
    {g : γ → ACTStates α} (hs : Sim h m p (Gives c g)) : Sim h m (Mem.giving c g p) Looks := by
  unfold Sim Mem.giving at *
  cases h1 : (m.exec h).1 <;> cases p <;> rw [h1] at hs <;> exact hs

theorem Sim.givingEditor {h : Heap α} {m : M α Ref} {p : Res (Editor α)} {mode : String}
    (hs : Sim h m p (Gives (.editor mode) Editor.state))
    (hp : ∀ e, p = .ok e → e.errorMode = mode) : Sim h m (Mem.givingEditor p) Looks := by
  unfold Sim Mem.givingEditor at *
  cases h1 : (m.exec h).1 <;> cases p <;> rw [h1] at hs
  · exact hs
  · exact hs
  · exact hs
  · next e =>
    show view _ _ = some (.editor e.errorMode, e.state)
    rw [hp e rfl]
    exact hs

section Modes
variable (e : Editor α)

/-- Setters keep the error mode. -/
theorem keeps_mode {p : Res Unit} {q : Res (ACTStates α)} {e' : Editor α}
    (h : (do p; let s ← q; pure ⟨s, e.errorMode⟩ : Res (Editor α)) = .ok e') :
    e'.errorMode = e.errorMode := by
  cases p with
  | error x => cases h
  | ok u =>
    cases q with
    | error x => cases h
    | ok s => cases h; rfl

end Modes

theorem newObj_looks {h : Heap α} {st : Ref} {s : ACTStates α} (hs : viewState h st = some s)
    (c : Cls) : Sim h (newObj c st : M α Ref) (.ok (.obj c s)) Looks := by
  unfold Sim
  rw [exec_newObj]
  exact view_some.2 ⟨st, get_last _, viewState_ext (Ext.append _ _) hs⟩

theorem exposed_looks {h : Heap α} {self : Ref} {cls : Cls} {s : ACTStates α}
    (hs : view h self = some (cls, s)) (which : StateObj α → Ref)
    (what : ACTStates α → Dict (PyTree (Leaf α)))
    (hw : ∀ st o, h[st]? = some (.state o) → viewState h st = some s →
      viewDict h (which o) = some (what s)) :
    Sim h (exposedDict self which : M α Ref) (.ok (.dict (what s))) Looks := by
  obtain ⟨st, h1, h2⟩ := view_some.1 hs
  obtain ⟨o, D, A, U, h3, h4, h5, h6, rfl⟩ := viewState_some.1 h2
  unfold Sim exposedDict
  rw [exec_bind, exec_getState h1]
  simp only
  rw [exec_bind, exec_readState h3]
  exact hw st o h3 h2

theorem viewDict?_some {h : Heap α} {r? : Option Ref} {d : Option (Dict (PyTree (Leaf α)))}
    (hr : viewDict? h r? = some d) {r : Ref} {D : Dict (PyTree (Leaf α))}
    (hD : viewDict h r = some D) : viewDict h (r?.getD r) = some (d.getD D) := by
  cases r? with
  | none => cases hr; exact hD
  | some q =>
    change (viewDict h q).map some = some d at hr
    cases hq : viewDict h q with
    | none => rw [hq] at hr; cases hr
    | some D' => rw [hq] at hr; cases hr; exact hq

theorem replace_looks {h : Heap α} {st : Ref} {s : ACTStates α} (hs : viewState h st = some s)
    (e : Option α) (i r p : Option (Tensor α)) {a? d? u? : Option Ref}
    {a d u : Option (Dict (PyTree (Leaf α)))} (ha : viewDict? h a? = some a)
    (hd : viewDict? h d? = some d) (hu : viewDict? h u? = some u) (dc : Option α)
    (m : Option String) :
    Sim h (replace st e i r p a? d? u? dc m : M α Ref)
      ((s.replace e i r p a d u dc m).map .state) Looks := by
  obtain ⟨o, D, A, U, h3, h4, h5, h6, rfl⟩ := viewState_some.1 hs
  unfold Sim replace
  rw [exec_bind, exec_readState h3]
  cases dc with
  | some x => show Err.attributeError = Err.attributeError; rfl
  | none =>
    cases m with
    | some x => show Err.attributeError = Err.attributeError; rfl
    | none =>
      refine viewState_some.2 ⟨_, d.getD D, a.getD A, u.getD U, get_last _,
        viewDict_ext (Ext.append _ _) (viewDict?_some hd h4),
        viewDict_ext (Ext.append _ _) (viewDict?_some ha h5),
        viewDict_ext (Ext.append _ _) (viewDict?_some hu h6), ?_⟩
      rfl

theorem accumulators_wf {h : Heap α} (hw : DictsWF h) {self : Ref} {cls : Cls} {s : ACTStates α}
    (hs : view h self = some (cls, s)) : s.accumulators.WF := by
  obtain ⟨st, h1, h2⟩ := view_some.1 hs
  obtain ⟨o, D, A, U, h3, h4, h5, h6, rfl⟩ := viewState_some.1 h2
  obtain ⟨d, hd, he⟩ := viewDict_some.1 h5
  have hn := hw _ _ hd
  unfold Dict.WF at hn ⊢
  rw [viewEntries_keys he] at hn
  exact hn

variable [Arith α]

theorem run_looks {h : Heap α} (hw : DictsWF h) (c : Call α) {p : Res (Seen α)}
    (hp : c.value h = some p) : Sim h c.run p Looks := by
  cases c <;> simp only [Call.value, Option.bind_eq_bind, Option.bind_eq_some_iff, Option.pure_def,
    Option.some.injEq] at hp
  case cacheUpdate =>
    obtain ⟨s, hs, t, ht, rfl⟩ := hp
    obtain ⟨cls, hs⟩ := stateOf_some hs
    exact (cacheUpdate_sim hs _ ht).giving
  case iterateAct =>
    obtain ⟨s, hs, rfl⟩ := hp
    obtain ⟨cls, hs⟩ := stateOf_some hs
    exact (iterateAct_sim hs _).giving
  case resetBatches =>
    obtain ⟨s, hs, rfl⟩ := hp
    obtain ⟨cls, hs⟩ := stateOf_some hs
    exact (resetBatches_sim hs (accumulators_wf hw hs)).giving
  case makeViewer =>
    obtain ⟨s, hs, rfl⟩ := hp
    obtain ⟨cls, hs⟩ := stateOf_some hs
    exact (share_sim hs _ rfl).giving
  case save =>
    obtain ⟨s, hs, rfl⟩ := hp
    obtain ⟨cls, hs⟩ := stateOf_some hs
    obtain ⟨st, h1, h2⟩ := view_some.1 hs
    unfold Sim Call.run Mem.save
    rw [exec_getState h1]
    exact h2
  case loadController =>
    obtain ⟨s, hs, rfl⟩ := hp
    exact newObj_looks hs _
  case loadViewer =>
    obtain ⟨s, hs, rfl⟩ := hp
    exact newObj_looks hs _
  case accumulators =>
    obtain ⟨s, hs, rfl⟩ := hp
    obtain ⟨cls, hs⟩ := stateOf_some hs
    refine exposed_looks hs _ (·.accumulators) fun st o ho h2 => ?_
    obtain ⟨o', D, A, U, h3, h4, h5, h6, rfl⟩ := viewState_some.1 h2
    rw [ho] at h3; cases h3; exact h5
  case defaults =>
    obtain ⟨s, hs, rfl⟩ := hp
    obtain ⟨cls, hs⟩ := stateOf_some hs
    refine exposed_looks hs _ (·.defaults) fun st o ho h2 => ?_
    obtain ⟨o', D, A, U, h3, h4, h5, h6, rfl⟩ := viewState_some.1 h2
    rw [ho] at h3; cases h3; exact h4
  case updates =>
    obtain ⟨s, hs, rfl⟩ := hp
    obtain ⟨cls, hs⟩ := stateOf_some hs
    refine exposed_looks hs _ (·.updates) fun st o ho h2 => ?_
    obtain ⟨o', D, A, U, h3, h4, h5, h6, rfl⟩ := viewState_some.1 h2
    rw [ho] at h3; cases h3; exact h6
  case define =>
    obtain ⟨s, hs, t, ht, rfl⟩ := hp
    obtain ⟨cls, hs⟩ := stateOf_some hs
    exact (define_sim hs _ ht).giving
  case deleteDefinition =>
    obtain ⟨s, hs, rfl⟩ := hp
    obtain ⟨cls, hs⟩ := stateOf_some hs
    exact (deleteDefinition_sim hs _).giving
  case defineByShape =>
    obtain ⟨s, hs, rfl⟩ := hp
    obtain ⟨cls, hs⟩ := stateOf_some hs
    exact (defineByShape_sim hs _ _ _ _).giving
  case newBuilder =>
    subst hp
    exact (newBuilder_sim h _ _ _ _).giving
  case build =>
    obtain ⟨s, hs, rfl⟩ := hp
    obtain ⟨cls, hs⟩ := stateOf_some hs
    exact (share_sim hs _ rfl).giving
  case transform =>
    obtain ⟨s, hs, rfl⟩ := hp
    obtain ⟨cls, hs⟩ := stateOf_some hs
    exact (transform_sim hs _).giving
  case maskData =>
    obtain ⟨s, hs, rfl⟩ := hp
    obtain ⟨cls, hs⟩ := stateOf_some hs
    exact (maskData_sim hs _).giving
  case unhaltedOnly =>
    obtain ⟨s, hs, rfl⟩ := hp
    obtain ⟨cls, hs⟩ := stateOf_some hs
    exact (unhaltedOnly_sim hs).giving
  case haltedOnly =>
    obtain ⟨s, hs, rfl⟩ := hp
    obtain ⟨cls, hs⟩ := stateOf_some hs
    exact (haltedOnly_sim hs).giving
  case setProbabilities =>
    obtain ⟨e, he, rfl⟩ := hp
    exact (setProbabilities_sim (editorOf_some he) _).givingEditor fun e' h => keeps_mode e h
  case setResiduals =>
    obtain ⟨e, he, rfl⟩ := hp
    exact (setResiduals_sim (editorOf_some he) _).givingEditor fun e' h => keeps_mode e h
  case setIterations =>
    obtain ⟨e, he, rfl⟩ := hp
    exact (setIterations_sim (editorOf_some he) _).givingEditor fun e' h => keeps_mode e h
  case setEpsilon =>
    obtain ⟨e, he, rfl⟩ := hp
    exact (setEpsilon_sim (editorOf_some he) _).givingEditor fun e' h => keeps_mode e h
  case setAccumulator =>
    obtain ⟨e, he, t, ht, rfl⟩ := hp
    exact (setAccumulator_sim (editorOf_some he) _ ht).givingEditor fun e' h => keeps_mode e h
  case setDefaults =>
    obtain ⟨e, he, t, ht, rfl⟩ := hp
    exact (setDefaults_sim (editorOf_some he) _ ht).givingEditor fun e' h => keeps_mode e h
  case setUpdates =>
    obtain ⟨e, he, t, ht, rfl⟩ := hp
    exact (setUpdates_sim (editorOf_some he) _ ht).givingEditor fun e' h => keeps_mode e h
  case editController =>
    obtain ⟨s, hs, rfl⟩ := hp
    obtain ⟨cls, hs⟩ := stateOf_some hs
    refine (editController_sim hs _).givingEditor fun e' h => ?_
    unfold Editor.editController at h
    split at h
    · cases h; rfl
    · cases h
  case editSave mode =>
    obtain ⟨s, hs, rfl⟩ := hp
    show Sim h (Mem.editSave _ mode) _ _
    unfold Mem.editSave Editor.editSave Mem.givingEditor
    split
    · exact newObj_looks hs _
    · exact Sim.raise _
  case replace =>
    obtain ⟨s, hs, a, ha, d, hd, u, hu, rfl⟩ := hp
    exact replace_looks hs _ _ _ _ ha hd hu _ _
  case newTree t =>
    subst hp
    exact get_last _

section Later
variable {h h' : Heap α}

omit [Arith α] in
theorem stateOf_ext (e : Ext h h') {self : Ref} {s : ACTStates α} (hs : stateOf h self = some s) :
    stateOf h' self = some s := by
  obtain ⟨cls, hs⟩ := stateOf_some hs
  unfold stateOf
  rw [view_ext e hs]
  rfl

omit [Arith α] in
theorem editorOf_ext (e : Ext h h') {self : Ref} {x : Editor α} (hs : editorOf h self = some x) :
    editorOf h' self = some x := by
  have := view_ext e (editorOf_some hs)
  unfold editorOf
  rw [this]

omit [Arith α] in
theorem viewDict?_ext (e : Ext h h') : ∀ {r? : Option Ref}
    {d : Option (Dict (PyTree (Leaf α)))}, viewDict? h r? = some d → viewDict? h' r? = some d
  | none, _, hr => hr
  | some q, d, hr => by
    change (viewDict h q).map some = some d at hr
    change (viewDict h' q).map some = some d
    cases hq : viewDict h q with
    | none => rw [hq] at hr; cases hr
    | some D => rw [hq] at hr; rw [viewDict_ext e hq]; exact hr

/-- A call means the same as long as nothing is changed. -/
theorem value_ext (e : Ext h h') (c : Call α) {p : Res (Seen α)} (hp : c.value h = some p) :
    c.value h' = some p := by
  cases c <;> simp only [Call.value, Option.bind_eq_bind, Option.bind_eq_some_iff, Option.pure_def,
    Option.some.injEq] at hp ⊢
  case cacheUpdate | define =>
    obtain ⟨s, hs, t, ht, rfl⟩ := hp
    exact ⟨s, stateOf_ext e hs, t, viewTree_ext e ht, rfl⟩
  case loadController | loadViewer | editSave =>
    obtain ⟨s, hs, rfl⟩ := hp
    exact ⟨s, viewState_ext e hs, rfl⟩
  case setProbabilities | setResiduals | setIterations | setEpsilon =>
    obtain ⟨s, hs, rfl⟩ := hp
    exact ⟨s, editorOf_ext e hs, rfl⟩
  case setAccumulator | setDefaults | setUpdates =>
    obtain ⟨s, hs, t, ht, rfl⟩ := hp
    exact ⟨s, editorOf_ext e hs, t, viewTree_ext e ht, rfl⟩
  case newBuilder | newTree => exact hp
  case replace =>
    obtain ⟨s, hs, a, ha, d, hd, u, hu, rfl⟩ := hp
    exact ⟨s, viewState_ext e hs, a, viewDict?_ext e ha, d, viewDict?_ext e hd, u,
      viewDict?_ext e hu, rfl⟩
  all_goals
    obtain ⟨s, hs, rfl⟩ := hp
    exact ⟨s, stateOf_ext e hs, rfl⟩

omit [Arith α] in
theorem looks_ext (e : Ext h h') {r : Ref} : ∀ {x : Seen α}, Looks h r x → Looks h' r x
  | .obj _ _, hx => view_ext e hx
  | .state _, hx => viewState_ext e hx
  | .dict _, hx => viewDict_ext e hx
  | .tree _, hx => e _ _ hx

end Later
end JaxAct.Mem
