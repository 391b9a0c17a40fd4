import Verif.Lemmas.HeapKeys
import Verif.Props.Fixtures

/-! # C45: methods never modify the object they are called on

On the heap model (`Model/Heap`): objects and dictionaries are cells, variables are references,
methods copy dictionaries and assign to the copies. -/

namespace JaxAct.Mem
variable {α : Type} [Arith α]

/-- C45.  A program is any sequence of method calls on any objects, including calls that raise in
the middle.  Every object that existed before is, cell by cell, what it was. -/
theorem C45_objects_unmodified : ∀ (calls : List (Call α)) (h : Heap α) (r : Ref) (c : Cell α),
    h[r]? = some c → (runCalls calls h)[r]? = some c
  | [], _, _, _, hr => hr
  | call :: calls, _, r, c, hr =>
    C45_objects_unmodified calls _ r c ((Safe.run call).ext r c hr)

theorem runCalls_ext (calls : List (Call α)) (h : Heap α) : Ext h (runCalls calls h) :=
  fun r c hr => C45_objects_unmodified calls h r c hr

/-- C45.  So everything that can be observed of a controller, builder, viewer or editor stays. -/
theorem C45_observations_stay (calls : List (Call α)) {h : Heap α} {r : Ref}
    {x : Cls × ACTStates α} (hr : view h r = some x) : view (runCalls calls h) r = some x :=
  view_ext (runCalls_ext calls h) hr

/-- C45.  And of a dictionary handed out by `accumulators`, `defaults` or `updates`. -/
theorem C45_exposed_dictionaries_stay (calls : List (Call α)) {h : Heap α} {r : Ref}
    {d : Dict (PyTree (Leaf α))} (hr : viewDict h r = some d) :
    viewDict (runCalls calls h) r = some d :=
  viewDict_ext (runCalls_ext calls h) hr

/-- C45.  And of a saved state. -/
theorem C45_saved_states_stay (calls : List (Call α)) {h : Heap α} {r : Ref}
    {s : ACTStates α} (hr : viewState h r = some s) : viewState (runCalls calls h) r = some s :=
  viewState_ext (runCalls_ext calls h) hr

/-- The outcome of a method called on `self`, against the value it should have: exceptions agree,
the result is the value and remains so whatever is called later, and so does `self`. -/
def Lasting {γ : Type} (h : Heap α) (self : Ref) (m : M α Ref) (p : Res γ) (c : Cls)
    (g : γ → ACTStates α) : Prop :=
  (∀ later x, view h self = some x → view (runCalls later (m.exec h).2) self = some x) ∧
  match (m.exec h).1, p with
  | .ok r, .ok w => ∀ later, view (runCalls later (m.exec h).2) r = some (c, g w)
  | .error e, .error e' => e = e'
  | _, _ => False

theorem lasting_of {γ : Type} {h : Heap α} {self : Ref} {m : M α Ref} {p : Res γ} {c : Cls}
    {g : γ → ACTStates α} (hm : ∀ n, Safe n m Any) (hs : Sim h m p (Gives c g)) :
    Lasting h self m p c g := by
  refine ⟨fun later x hx => C45_observations_stay later (view_ext (hm _).ext hx), ?_⟩
  unfold Sim at hs
  cases h1 : (m.exec h).1 <;> cases p <;> rw [h1] at hs
  · exact hs
  · exact hs.elim
  · exact hs.elim
  · exact fun later => C45_observations_stay later hs

/-- C45 for `cache_update`; the item is kept by reference. -/
theorem C45_cache_update {h : Heap α} {self : Ref} {cls : Cls} {S : ACTStates α}
    (hself : view h self = some (cls, S)) (name : String) {item : Val} {t : PyTree (Leaf α)}
    (hitem : viewTree h item = some t) :
    Lasting h self (cacheUpdate self name item) ((Controller.mk S).cacheUpdate name t)
      .controller Controller.state :=
  lasting_of (fun _ => Safe.cacheUpdate _ _ _) (cacheUpdate_sim hself name hitem)

/-- C45 for `iterate_act`. -/
theorem C45_iterate_act {h : Heap α} {self : Ref} {cls : Cls} {S : ACTStates α}
    (hself : view h self = some (cls, S)) (halting : Tensor α) :
    Lasting h self (iterateAct self halting) ((Controller.mk S).iterateAct halting)
      .controller Controller.state :=
  lasting_of (fun _ => Safe.iterateAct _ _) (iterateAct_sim hself halting)

/-- C45 for `reset_batches`.  The keys of a Python dictionary are distinct. -/
theorem C45_reset_batches {h : Heap α} {self : Ref} {cls : Cls} {S : ACTStates α}
    (hself : view h self = some (cls, S)) (hwf : S.accumulators.WF) :
    Lasting h self (resetBatches self) ((Controller.mk S).resetBatches)
      .controller Controller.state :=
  lasting_of (fun _ => Safe.resetBatches _) (resetBatches_sim hself hwf)

/-- C45 for `define_accumulator_directly` (`_define`). -/
theorem C45_define {h : Heap α} {self : Ref} {cls : Cls} {S : ACTStates α}
    (hself : view h self = some (cls, S)) (name : String) {d : Val} {t : PyTree (Leaf α)}
    (hd : viewTree h d = some t) :
    Lasting h self (define self name d) ((Builder.mk S).defineAccumulatorDirectly name t)
      .builder Builder.state :=
  lasting_of (fun _ => Safe.define _ _ _) (define_sim hself name hd)

/-- C45 for `define_accumulator_by_shape`. -/
theorem C45_define_by_shape {h : Heap α} {self : Ref} {cls : Cls} {S : ACTStates α}
    (hself : view h self = some (cls, S)) (name : String) (shapes : PyTree ShapeItem)
    (dtype : DType) (fill : α) :
    Lasting h self (defineByShape self name shapes dtype fill)
      ((Builder.mk S).defineAccumulatorByShape name shapes dtype fill) .builder Builder.state :=
  lasting_of (fun _ => Safe.run (.defineByShape self name shapes dtype fill))
    (defineByShape_sim hself name shapes dtype fill)

/-- C45 for `_delete_definition`. -/
theorem C45_delete_definition {h : Heap α} {self : Ref} {cls : Cls} {S : ACTStates α}
    (hself : view h self = some (cls, S)) (name : String) :
    Lasting h self (deleteDefinition self name) ((Builder.mk S).deleteDefinition name)
      .builder Builder.state :=
  lasting_of (fun _ => Safe.deleteDefinition _ _) (deleteDefinition_sim hself name)

/-- C45 for `build`. -/
theorem C45_build {h : Heap α} {self : Ref} {cls : Cls} {S : ACTStates α}
    (hself : view h self = some (cls, S)) :
    Lasting h self (build self) (.ok (Builder.mk S).build) .controller Controller.state :=
  lasting_of (fun _ => Safe.run (.build self)) (share_sim hself _ rfl)

/-- C45 for `make_viewer`. -/
theorem C45_make_viewer {h : Heap α} {self : Ref} {cls : Cls} {S : ACTStates α}
    (hself : view h self = some (cls, S)) :
    Lasting h self (makeViewer self) (.ok (Controller.mk S).makeViewer) .viewer Viewer.state :=
  lasting_of (fun _ => Safe.run (.makeViewer self)) (share_sim hself _ rfl)

/-- C45 for `transform`. -/
theorem C45_transform {h : Heap α} {self : Ref} {cls : Cls} {S : ACTStates α}
    (hself : view h self = some (cls, S)) (f : Tensor α → Res (Tensor α)) :
    Lasting h self (transform self f) ((Viewer.mk S).transform f) .viewer Viewer.state :=
  lasting_of (fun _ => Safe.transform _ _) (transform_sim hself f)

/-- C45 for `mask_data`, `unhalted_only` and `halted_only`. -/
theorem C45_masks {h : Heap α} {self : Ref} {cls : Cls} {S : ACTStates α}
    (hself : view h self = some (cls, S)) (mask : Tensor α) :
    Lasting h self (maskData self mask) ((Viewer.mk S).maskData mask) .viewer Viewer.state ∧
    Lasting h self (unhaltedOnly self) ((Viewer.mk S).unhaltedOnly) .viewer Viewer.state ∧
    Lasting h self (haltedOnly self) ((Viewer.mk S).haltedOnly) .viewer Viewer.state :=
  ⟨lasting_of (fun _ => Safe.maskData _ _) (maskData_sim hself mask),
    lasting_of (fun _ => Safe.run (.unhaltedOnly self)) (unhaltedOnly_sim hself),
    lasting_of (fun _ => Safe.run (.haltedOnly self)) (haltedOnly_sim hself)⟩

/-- C45 for `edit_controller`. -/
theorem C45_edit_controller {h : Heap α} {self : Ref} {cls : Cls} {S : ACTStates α}
    (hself : view h self = some (cls, S)) (mode : String) :
    Lasting h self (editController self mode) (Editor.editController (Controller.mk S) mode)
      (.editor mode) Editor.state :=
  lasting_of (fun _ => Safe.run (.editController self mode)) (editController_sim hself mode)

/-- C45 for the editor's setters of tensors and scalars. -/
theorem C45_set_tensors {h : Heap α} {self : Ref} {mode : String} {S : ACTStates α}
    (hself : view h self = some (.editor mode, S)) (values : Tensor α) (epsilon : α) :
    Lasting h self (setProbabilities self values) (Editor.setProbabilities ⟨S, mode⟩ values)
      (.editor mode) Editor.state ∧
    Lasting h self (setResiduals self values) (Editor.setResiduals ⟨S, mode⟩ values)
      (.editor mode) Editor.state ∧
    Lasting h self (setIterations self values) (Editor.setIterations ⟨S, mode⟩ values)
      (.editor mode) Editor.state ∧
    Lasting h self (setEpsilon self epsilon) (Editor.setEpsilon ⟨S, mode⟩ epsilon)
      (.editor mode) Editor.state :=
  ⟨lasting_of (fun _ => Safe.run (.setProbabilities self values)) (setProbabilities_sim hself values),
    lasting_of (fun _ => Safe.run (.setResiduals self values)) (setResiduals_sim hself values),
    lasting_of (fun _ => Safe.run (.setIterations self values)) (setIterations_sim hself values),
    lasting_of (fun _ => Safe.run (.setEpsilon self epsilon)) (setEpsilon_sim hself epsilon)⟩

/-- C45 for the editor's setters of dictionary entries. -/
theorem C45_set_entries {h : Heap α} {self : Ref} {mode : String} {S : ACTStates α}
    (hself : view h self = some (.editor mode, S)) (name : String) {v : Val} {t : PyTree (Leaf α)}
    (hv : viewTree h v = some t) :
    Lasting h self (setAccumulator self name v) (Editor.setAccumulator ⟨S, mode⟩ name t)
      (.editor mode) Editor.state ∧
    Lasting h self (setDefaults self name v) (Editor.setDefaults ⟨S, mode⟩ name t)
      (.editor mode) Editor.state ∧
    Lasting h self (setUpdates self name v) (Editor.setUpdates ⟨S, mode⟩ name t)
      (.editor mode) Editor.state :=
  ⟨lasting_of (fun _ => Safe.run (.setAccumulator self name v)) (setAccumulator_sim hself name hv),
    lasting_of (fun _ => Safe.run (.setDefaults self name v)) (setDefaults_sim hself name hv),
    lasting_of (fun _ => Safe.run (.setUpdates self name v)) (setUpdates_sim hself name hv)⟩

/-- C45 for all calls at once, those above and `save`, `load`, `edit_save`, `replace` and the
attributes.  Let the value models say that a call has the outcome `p`.  Then it has the outcome `p`
whatever was called before it, and its result looks as `p` says whatever is called after it. -/
theorem C45_calls {h : Heap α} (hw : DictsWF h) (c : Call α) {p : Res (Seen α)}
    (hp : c.value h = some p) (before : List (Call α)) :
    match (c.run.exec (runCalls before h)).1, p with
    | .ok r, .ok x => ∀ later, Looks (runCalls later (c.run.exec (runCalls before h)).2) r x
    | .error e, .error e' => e = e'
    | _, _ => False := by
  have hs := run_looks (runCalls_wf before hw) c (value_ext (runCalls_ext before h) c hp)
  unfold Sim at hs
  cases h1 : (c.run.exec (runCalls before h)).1 <;> cases p <;> rw [h1] at hs
  · exact hs
  · exact hs.elim
  · exact hs.elim
  · exact fun later => looks_ext (runCalls_ext later _) hs

/-! ### What is *not* protected

The property speaks of methods.  The dictionaries handed out are the internal ones, shared between
objects, so an assignment made by the user is seen by all of them. -/

omit [Arith α] in
/-- A builder and the controller built from it hand out one and the same dictionary. -/
theorem C45_build_shares_dictionary {h h' : Heap α} {self r : Ref} {cls : Cls} {S : ACTStates α}
    (hself : view h self = some (cls, S)) (hb : (build self).exec h = (.ok r, h'))
    (which : StateObj α → Ref) :
    ((exposedDict r which).exec h').1 = ((exposedDict self which).exec h').1 ∧
      ∃ d, ((exposedDict self which).exec h').1 = .ok d := by
  obtain ⟨st, h1, h2⟩ := view_some.1 hself
  obtain ⟨s, D, A, U, h3, h4, h5, h6, rfl⟩ := viewState_some.1 h2
  unfold build at hb
  rw [exec_bind, exec_getState h1] at hb
  simp only at hb
  rw [exec_newObj] at hb
  obtain ⟨hr, rfl⟩ := Prod.mk.inj hb
  obtain rfl : h.length = r := by injection hr
  have e := Ext.append h [.obj .controller (some st)]
  unfold exposedDict
  rw [exec_bind, exec_bind, exec_getState (get_last _), exec_getState (e _ _ h1)]
  simp only
  rw [exec_bind, exec_readState (e _ _ h3)]
  exact ⟨trivial, _, rfl⟩

section Example
open Fixtures
attribute [local instance] Arith.exact

/-- A heap with one builder (cell 5) whose state (cell 4) has the accumulator `out` in its three
dictionaries (cells 1, 2, 3); the definition (cell 0) is shared by two of them.  Cell 6 is a pytree
the user made. -/
def heap0 : Heap ℚ :=
  [.tree (bare (col 0 0)), .dict [("out", some 0)], .dict [("out", some 0)], .dict [("out", none)],
    .state { epsilon := 1/10, iterations := vec [0, 0], residuals := vec [0, 0],
             probabilities := vec [0, 0], defaults := 1, accumulators := 2, updates := 3,
             depression_constant := 1, error_mode := none },
    .obj .builder (some 4), .tree (bare (col 3 4))]

example : view heap0 5 = some (.builder, simple) := rfl

/-- Build a controller (cell 7), cache an update (controller 10), iterate (controller 15), try to
cache again on the first controller and fail, define another accumulator. -/
def calls0 : List (Call ℚ) :=
  [.build 5, .cacheUpdate 7 "out" (some 6), .iterateAct 10 (vec [1/2, 1]),
    .cacheUpdate 7 "nothing" (some 6), .define 5 "more" (some 6)]

/-- The calls have their effects, and the builder and the first controller are unchanged. -/
example : ((view (runCalls calls0 heap0) 15).map fun x => (x.1, ACTStates.entry? x.2.accumulators "out" 0 [0, 0],
      x.2.probabilities.at? [1])) = some (.controller, some (3/2), some 1) ∧
    ((view (runCalls calls0 heap0) 10).map fun x => x.2.updates.map fun kv => kv.2.isNone) =
      some [false] ∧
    ((view (runCalls calls0 heap0) 7).map fun x => (ACTStates.entry? x.2.accumulators "out" 0 [0, 0],
      x.2.updates.map fun kv => kv.2.isNone)) = some (some 0, [true]) ∧
    ((view (runCalls calls0 heap0) 5).map fun x => x.2.accumulators.keys) = some ["out"] ∧
    (runCalls calls0 heap0).length = 21 := by
  decide +kernel

example : DictsWF heap0 := by
  intro r d hr
  match r, hr with
  | 1, hr | 2, hr | 3, hr => cases hr; unfold Dict.WF; decide
  | n + 7, hr => cases hr

/-- Calls of the builder and of its saved state that mean something. -/
example : (Call.value heap0 (.save 5)).isSome ∧ (Call.value heap0 (.loadViewer 4)).isSome ∧
    (Call.value heap0 (.editSave 4 "loud")).isSome ∧ (Call.value heap0 (.updates 5)).isSome ∧
    (Call.value heap0 (.replace 4 (some (1/5)) none none none (some 1) none none none none)).isSome :=
  by decide +kernel

/-- An assignment by the user, `controller.accumulators["out"] = value`, is seen by the builder. -/
example : ((view (((do
      let c ← build 5
      let d ← exposedDict c (·.accumulators)
      setItem d "out" (some 6) : M ℚ Unit)).exec heap0).2 5).map fun x =>
        ACTStates.entry? x.2.accumulators "out" 0 [0, 0]) = some (some 3) := by
  decide +kernel

end Example
end JaxAct.Mem
