import Verif.Lemmas.HeapValue
import Verif.Lemmas.Dict

/-! # Calls keep the keys of dictionaries distinct -/

namespace JaxAct.Mem
variable {α β γ : Type}

/-- The computation keeps the keys of all dictionaries distinct, and its value satisfies `P`. -/
structure KeepsWF (m : M α β) (P : β → Prop) : Prop where
  all : ∀ h : Heap α, DictsWF h → DictsWF (m.exec h).2 ∧ ∀ v, (m.exec h).1 = .ok v → P v

theorem DictsWF.append {h : Heap α} (hw : DictsWF h) {c : Cell α}
    (hc : ∀ d, c = .dict d → d.WF) : DictsWF (h ++ [c]) := by
  intro r d hr
  rcases Nat.lt_trichotomy r h.length with hl | hl | hl
  · rw [List.getElem?_append_left hl] at hr
    exact hw r d hr
  · subst hl
    rw [get_last] at hr
    exact hc d (by injection hr)
  · rw [List.getElem?_eq_none (by rw [List.length_append, List.length_singleton]; exact Nat.succ_le_of_lt hl)] at hr
    cases hr

theorem DictsWF.set {h : Heap α} (hw : DictsWF h) (r : Ref) {c : Cell α}
    (hc : ∀ d, c = .dict d → d.WF) : DictsWF (h.set r c) := by
  intro i d hi
  by_cases hri : r = i
  · subst hri
    rcases Nat.lt_or_ge r h.length with hl | hl
    · rw [List.getElem?_set_self hl] at hi
      exact hc d (by injection hi)
    · rw [List.getElem?_eq_none (by rw [List.length_set]; exact hl)] at hi
      cases hi
  · rw [List.getElem?_set_ne hri] at hi
    exact hw i d hi

namespace KeepsWF

theorem bind {m : M α β} {f : β → M α γ} {P : β → Prop} {Q : γ → Prop} (hm : KeepsWF m P)
    (hf : ∀ v, P v → KeepsWF (f v) Q) : KeepsWF (m >>= f) Q := by
  refine ⟨fun h hn => ?_⟩
  obtain ⟨h2, h3⟩ := hm.all h hn
  rw [exec_bind]
  cases hr : m.exec h with
  | mk r h' =>
    rw [hr] at h2 h3
    cases r with
    | error e => exact ⟨h2, fun v hv => by cases hv⟩
    | ok v => exact (hf v (h3 v rfl)).all h' h2

theorem pure {v : β} {P : β → Prop} (hv : P v) : KeepsWF (Pure.pure v : M α β) P :=
  ⟨fun _ hn => ⟨hn, fun w hw => by cases hw; exact hv⟩⟩

theorem pureRes (r : Res β) : KeepsWF (Mem.pureRes r : M α β) Any :=
  ⟨fun _ hn => ⟨hn, fun _ _ => trivial⟩⟩

theorem alloc {c : Cell α} (hc : ∀ d, c = .dict d → d.WF) : KeepsWF (Mem.alloc c) Any :=
  ⟨fun _ hn => ⟨hn.append hc, fun _ _ => trivial⟩⟩

theorem allocDict {d : Dict Val} (hd : d.WF) : KeepsWF (Mem.alloc (.dict d) : M α _) Any :=
  alloc fun _ h => by cases h; exact hd

theorem allocTree (t : PyTree (Leaf α)) : KeepsWF (Mem.alloc (.tree t)) Any :=
  alloc fun _ h => by cases h

theorem allocState (s : StateObj α) : KeepsWF (Mem.alloc (.state s)) Any :=
  alloc fun _ h => by cases h

theorem allocObj (c : Cls) (s : Option Ref) : KeepsWF (Mem.alloc (.obj c s) : M α _) Any :=
  alloc fun _ h => by cases h

/-- A computation that does not change the heap. -/
theorem read {m : M α β} (hm : ∀ h, (m.exec h).2 = h) : KeepsWF m Any :=
  ⟨fun h hn => ⟨by rw [hm]; exact hn, fun _ _ => trivial⟩⟩

theorem readDict (r : Ref) : KeepsWF (Mem.readDict r : M α _) Dict.WF := by
  refine ⟨fun h hn => ?_⟩
  simp only [M.exec, Mem.readDict]
  split
  · next d hd => exact ⟨hn, fun v hv => by cases hv; exact hn _ _ hd⟩
  · exact ⟨hn, fun v hv => by cases hv⟩

theorem readState (r : Ref) : KeepsWF (Mem.readState r : M α _) Any :=
  read fun h => by simp only [M.exec, Mem.readState]; split <;> rfl

theorem getState (r : Ref) : KeepsWF (Mem.getState r : M α _) Any :=
  read fun h => by simp only [M.exec, Mem.getState]; split <;> rfl

theorem getErrorMode (r : Ref) : KeepsWF (Mem.getErrorMode r : M α _) Any :=
  read fun h => by simp only [M.exec, Mem.getErrorMode]; split <;> rfl

theorem readTree : ∀ v : Val, KeepsWF (Mem.readTree v : M α _) Any
  | Option.none => read fun _ => rfl
  | some r => read fun h => by simp only [M.exec, Mem.readTree]; split <;> rfl

theorem setItem (r : Ref) (k : String) (v : Val) : KeepsWF (Mem.setItem r k v : M α _) Any := by
  refine ⟨fun h hn => ⟨?_, fun _ _ => trivial⟩⟩
  simp only [M.exec, Mem.setItem]
  split
  · next d hd => exact hn.set r fun d' h' => by cases h'; exact (hn _ _ hd).set k v
  · exact hn

theorem popItem (r : Ref) (k : String) : KeepsWF (Mem.popItem r k : M α _) Any := by
  refine ⟨fun h hn => ⟨?_, fun _ _ => trivial⟩⟩
  simp only [M.exec, Mem.popItem]
  split
  · next d hd =>
    split
    · next d1 hd1 =>
      refine hn.set r fun d' h' => ?_
      cases h'
      unfold Dict.pop at hd1
      split at hd1
      · cases hd1; exact (hn _ _ hd).erase k
      · cases hd1
    · exact hn
  · exact hn

theorem setState (r s : Ref) : KeepsWF (Mem.setState r s : M α _) Any := by
  refine ⟨fun h hn => ⟨?_, fun _ _ => trivial⟩⟩
  simp only [M.exec, Mem.setState]
  split
  · exact hn.set r fun d' h' => by cases h'
  · exact hn

theorem getItem (r : Ref) (k : String) : KeepsWF (Mem.getItem r k : M α _) Any :=
  bind (readDict r) fun _ _ => pureRes _

theorem copyDict (r : Ref) : KeepsWF (Mem.copyDict r : M α _) Any :=
  bind (readDict r) fun _ hd => allocDict hd

theorem newObj (c : Cls) (s : Ref) : KeepsWF (Mem.newObj c s : M α _) Any :=
  bind (allocObj _ _) fun _ _ => bind (setState _ s) fun _ _ => pure trivial

theorem tryRuntime {m : M α β} {P : β → Prop} (hm : KeepsWF m P) : KeepsWF (Mem.tryRuntime m) P := by
  refine ⟨fun h hn => ?_⟩
  obtain ⟨h2, h3⟩ := hm.all h hn
  unfold M.exec at h2 h3 ⊢
  unfold Mem.tryRuntime
  cases hr : m h with
  | mk r h' =>
    rw [hr] at h2 h3
    cases r with
    | error e => exact ⟨h2, fun v hv => by cases hv⟩
    | ok v => exact ⟨h2, h3⟩

theorem replace (st : Ref) (e : Option α) (i r p : Option (Tensor α)) (a d u : Option Ref)
    (dc : Option α) (m : Option String) : KeepsWF (Mem.replace st e i r p a d u dc m) Any := by
  refine bind (readState st) fun s _ => ?_
  match dc, m with
  | some _, _ => exact pureRes _
  | Option.none, some _ => exact pureRes _
  | Option.none, Option.none => exact allocState _

theorem ite {p : Prop} [Decidable p] {m m' : M α β} {P : β → Prop} (h1 : KeepsWF m P)
    (h2 : KeepsWF m' P) : KeepsWF (if p then m else m') P := by
  split
  · exact h1
  · exact h2

variable [Arith α]

omit [Arith α] in
theorem cacheUpdate (self : Ref) (name : String) (item : Val) :
    KeepsWF (Mem.cacheUpdate self name item : M α _) Any := by
  refine bind (getState _) fun st _ => bind (readState _) fun s _ => bind (readDict _) fun u _ =>
    ite (pureRes _) (bind (getItem _ _) fun v _ => bind (readTree _) fun t _ =>
      ite (pureRes _) (bind (copyDict _) fun d hd => bind (setItem _ _ _) fun _ _ =>
        bind (replace ..) fun _ _ => newObj _ _))

theorem commitBody (c : Controller α) (halting : Tensor α) (a u : Ref)
    (name : String) : KeepsWF (Mem.commitBody c halting a u name) Any := by
  refine bind (getItem _ _) fun _ _ => bind (getItem _ _) fun _ _ => bind (readTree _) fun _ _ =>
    bind (readTree _) fun _ _ => ite (pureRes _) (bind (pureRes _) fun _ _ =>
      bind (allocTree _) fun _ _ => bind (setItem _ _ _) fun _ _ => setItem _ _ _)

theorem commitLoop (c : Controller α) (halting : Tensor α) (a u : Ref) :
    ∀ names, KeepsWF (Mem.commitLoop c halting a u names) Any
  | [] => pure trivial
  | _ :: names => bind (tryRuntime (commitBody c halting a u _)) fun _ _ =>
      commitLoop c halting a u names

theorem iterateAct (self : Ref) (halting : Tensor α) : KeepsWF (Mem.iterateAct self halting) Any := by
  refine bind (getState _) fun st _ => bind (readState _) fun s _ => ite (pureRes _)
    (bind (pureRes _) fun ⟨_, _, _⟩ _ => bind (copyDict _) fun a ha => bind (copyDict _) fun u hu =>
      bind (readDict _) fun _ _ => bind (commitLoop _ _ _ _ _) fun _ _ =>
      bind (pureRes _) fun _ _ => bind (replace ..) fun _ _ => newObj _ _)

omit [Arith α] in
theorem checkPending : ∀ d : Dict Val, KeepsWF (Mem.checkPending d : M α _) Any
  | [] => pure trivial
  | (_, _) :: rest => bind (readTree _) fun _ _ => ite (pureRes _) (checkPending rest)

omit [Arith α] in
theorem resetLoop (unhalted : Arr Bool) (accs defaults : Ref) (out : Ref) :
    ∀ names, KeepsWF (Mem.resetLoop unhalted accs defaults out names : M α _) Any
  | [] => pure trivial
  | _ :: names => bind (getItem _ _) fun _ _ => bind (getItem _ _) fun _ _ =>
      bind (readTree _) fun _ _ => bind (readTree _) fun _ _ => bind (pureRes _) fun _ _ =>
      bind (allocTree _) fun _ _ => bind (setItem _ _ _) fun _ _ =>
      resetLoop unhalted accs defaults out names

theorem resetBatches (self : Ref) : KeepsWF (Mem.resetBatches self : M α _) Any := by
  refine bind (getState _) fun st _ => bind (readState _) fun s _ => bind (readDict _) fun _ _ =>
    bind (checkPending _) fun _ _ => bind (pureRes _) fun _ _ => bind (pureRes _) fun _ _ =>
    bind (pureRes _) fun _ _ => bind (allocDict Dict.WF.nil) fun _ _ => bind (readDict _) fun _ _ =>
    bind (resetLoop _ _ _ _ _) fun _ _ => bind (replace ..) fun _ _ => newObj _ _

omit [Arith α] in
theorem define (self : Ref) (name : String) (d : Val) :
    KeepsWF (Mem.define self name d : M α _) Any := by
  refine bind (getState _) fun st _ => bind (readState _) fun s _ => bind (readTree _) fun _ _ =>
    bind (pureRes _) fun _ _ => bind (copyDict _) fun d hd => bind (copyDict _) fun a ha =>
    bind (copyDict _) fun u hu => bind (setItem _ _ _) fun _ _ => bind (setItem _ _ _) fun _ _ =>
    bind (setItem _ _ _) fun _ _ => bind (replace ..) fun _ _ => newObj _ _

omit [Arith α] in
theorem deleteDefinition (self : Ref) (name : String) :
    KeepsWF (Mem.deleteDefinition self name : M α _) Any := by
  refine bind (getState _) fun st _ => bind (readState _) fun s _ => bind (copyDict _) fun d hd =>
    bind (copyDict _) fun a ha => bind (copyDict _) fun u hu => bind (popItem _ _) fun _ _ =>
    bind (popItem _ _) fun _ _ => bind (popItem _ _) fun _ _ => bind (replace ..) fun _ _ =>
    newObj _ _

omit [Arith α] in
theorem transformDict (f : Tensor α → Res (Tensor α)) :
    ∀ d : Dict Val, KeepsWF (Mem.transformDict f d) (fun e => e.keys = d.keys)
  | [] => pure rfl
  | (k, _) :: d => bind (readTree _) fun _ _ => bind (pureRes _) fun _ _ => bind (allocTree _) fun _ _ =>
      bind (transformDict f d) fun e he => pure (show k :: Dict.keys e = k :: Dict.keys d by rw [he])

omit [Arith α] in
theorem transformRef (f : Tensor α → Res (Tensor α)) (r : Ref) :
    KeepsWF (Mem.transformRef f r) Any :=
  bind (readDict _) fun _ hd => bind (transformDict f _) fun _ he =>
    allocDict (by unfold Dict.WF at *; rw [he]; exact hd)

omit [Arith α] in
theorem transform (self : Ref) (f : Tensor α → Res (Tensor α)) :
    KeepsWF (Mem.transform self f) Any := by
  refine bind (getState _) fun st _ => bind (readState _) fun s _ =>
    bind (P := Any) (tryRuntime (bind (pureRes _) fun _ _ => bind (pureRes _) fun _ _ =>
      bind (pureRes _) fun _ _ => bind (transformRef f _) fun _ _ =>
      bind (transformRef f _) fun _ _ => bind (transformRef f _) fun _ _ => pure trivial))
    fun ⟨_, _, _, _, _, _⟩ _ => bind (replace ..) fun _ _ => newObj _ _

theorem maskData (self : Ref) (mask : Tensor α) : KeepsWF (Mem.maskData self mask) Any :=
  bind (getState _) fun _ _ => bind (readState _) fun _ _ =>
    ite (pureRes _) (ite (pureRes _) (transform _ _))

omit [Arith α] in
theorem validate (self : Ref) {checks : M α Bool} (hc : KeepsWF checks Any) :
    KeepsWF (Mem.validate self checks) Any :=
  bind (getErrorMode _) fun _ _ => ite (bind hc fun _ _ => ite (pure trivial) (pureRes _))
    (pure trivial)

omit [Arith α] in
theorem checkAgainstAccumulator (s : StateObj α) (name : String) (v : Val) :
    KeepsWF (Mem.checkAgainstAccumulator s name v) Any :=
  bind (readDict _) fun _ _ => bind (readDict _) fun _ _ =>
    ite (bind (getItem _ _) fun _ _ => bind (readTree _) fun _ _ => bind (readTree _) fun _ _ =>
      bind (pureRes _) fun _ _ => pure trivial) (pure trivial)

omit [Arith α] in
theorem checkUpdate (s : StateObj α) (name : String) (v : Val) :
    KeepsWF (Mem.checkUpdate s name v) Any :=
  bind (readDict _) fun _ _ => bind (readTree _) fun _ _ => ite (pure trivial)
    (bind (getItem _ _) fun _ _ => bind (readTree _) fun _ _ => bind (pureRes _) fun _ _ =>
      pure trivial)

omit [Arith α] in
/-- The end of every setter of the editor. -/
theorem editorEnd (self : Ref) (m : M α Ref) (hm : KeepsWF m Any) :
    KeepsWF (do let state ← m; let mode ← Mem.getErrorMode self; Mem.newObj (.editor mode) state)
      Any :=
  bind hm fun _ _ => bind (getErrorMode _) fun _ _ => newObj _ _

theorem run (c : Call α) : KeepsWF c.run Any := by
  cases c with
  | cacheUpdate self name item => exact cacheUpdate ..
  | iterateAct self halting => exact iterateAct ..
  | resetBatches self => exact resetBatches _
  | makeViewer self => exact bind (getState _) fun _ _ => newObj _ _
  | save self => exact getState _
  | loadController st => exact newObj _ _
  | loadViewer st => exact newObj _ _
  | accumulators self => exact bind (getState _) fun _ _ => bind (readState _) fun _ _ => pure trivial
  | defaults self => exact bind (getState _) fun _ _ => bind (readState _) fun _ _ => pure trivial
  | updates self => exact bind (getState _) fun _ _ => bind (readState _) fun _ _ => pure trivial
  | define self name d => exact define ..
  | deleteDefinition self name => exact deleteDefinition ..
  | defineByShape self name s d f => exact bind (pureRes _) fun _ _ => bind (allocTree _) fun _ _ => define _ _ _
  | newBuilder b c e d =>
    exact ite (pureRes _) (ite (pureRes _) (bind (allocDict Dict.WF.nil) fun _ _ =>
      bind (allocDict Dict.WF.nil) fun _ _ => bind (allocDict Dict.WF.nil) fun _ _ => pureRes _))
  | build self => exact bind (getState _) fun _ _ => newObj _ _
  | transform self f => exact transform ..
  | maskData self m => exact maskData ..
  | unhaltedOnly self => exact bind (getState _) fun _ _ => bind (readState _) fun _ _ => maskData ..
  | haltedOnly self => exact bind (getState _) fun _ _ => bind (readState _) fun _ _ => maskData ..
  | setProbabilities self v =>
    exact bind (getState _) fun _ _ => bind (readState _) fun _ _ =>
      bind (validate _ (pure trivial)) fun _ _ => editorEnd _ _ (replace ..)
  | setResiduals self v =>
    exact bind (getState _) fun _ _ => bind (readState _) fun _ _ =>
      bind (validate _ (pure trivial)) fun _ _ => editorEnd _ _ (replace ..)
  | setIterations self v =>
    exact bind (getState _) fun _ _ => bind (readState _) fun _ _ =>
      bind (validate _ (pure trivial)) fun _ _ => editorEnd _ _ (replace ..)
  | setEpsilon self e =>
    exact bind (getState _) fun _ _ =>
      bind (validate _ (pure trivial)) fun _ _ => editorEnd _ _ (replace ..)
  | setAccumulator self name v =>
    exact bind (getState _) fun _ _ => bind (readState _) fun _ _ =>
      bind (validate _ (checkAgainstAccumulator ..)) fun _ _ => bind (copyDict _) fun d hd =>
      bind (setItem _ _ _) fun _ _ => editorEnd _ _ (replace ..)
  | setDefaults self name v =>
    exact bind (getState _) fun _ _ => bind (readState _) fun _ _ =>
      bind (validate _ (checkAgainstAccumulator ..)) fun _ _ => bind (copyDict _) fun d hd =>
      bind (setItem _ _ _) fun _ _ => editorEnd _ _ (replace ..)
  | setUpdates self name v =>
    exact bind (getState _) fun _ _ => bind (readState _) fun _ _ =>
      bind (validate _ (checkUpdate ..)) fun _ _ => bind (copyDict _) fun d hd =>
      bind (setItem _ _ _) fun _ _ => editorEnd _ _ (replace ..)
  | editController c m => exact bind (getState _) fun _ _ => ite (newObj _ _) (pureRes _)
  | editSave s m => exact ite (newObj _ _) (pureRes _)
  | replace st e i r p a d u dc m => exact replace ..
  | newTree t => exact allocTree _

end KeepsWF

variable [Arith α]

theorem runCalls_wf : ∀ (calls : List (Call α)) {h : Heap α}, DictsWF h → DictsWF (runCalls calls h)
  | [], _, hw => hw
  | c :: cs, _, hw => runCalls_wf cs ((KeepsWF.run c).all _ hw).1

end JaxAct.Mem
