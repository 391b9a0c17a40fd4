import Verif.Model.Heap

/-! # Which cells a computation on the heap can modify -/

namespace JaxAct.Mem
variable {α β γ : Type}

/-- The computation leaves the first `n` cells as they are, and its value satisfies `P`. -/
structure Safe (n : Nat) (m : M α β) (P : β → Prop) : Prop where
  all : ∀ h : Heap α, n ≤ h.length →
    (∀ i, i < n → (m.exec h).2[i]? = h[i]?) ∧ n ≤ (m.exec h).2.length ∧
      ∀ v, (m.exec h).1 = .ok v → P v

/-- No condition on the value. -/
abbrev Any (_ : β) : Prop := True

theorem exec_bind (m : M α β) (f : β → M α γ) (h : Heap α) : (m >>= f).exec h =
    match m.exec h with
    | (.ok v, h') => (f v).exec h'
    | (.error e, h') => (.error e, h') := by
  show (ExceptT.bind m f) h = _
  unfold ExceptT.bind ExceptT.mk M.exec
  simp only [bind, StateT.bind]
  cases hm : m h with
  | mk r h' => cases r <;> rfl

theorem exec_pure (v : β) (h : Heap α) : (pure v : M α β).exec h = (.ok v, h) := rfl

namespace Safe
variable {n : Nat}

theorem bind {m : M α β} {f : β → M α γ} {P : β → Prop} {Q : γ → Prop} (hm : Safe n m P)
    (hf : ∀ v, P v → Safe n (f v) Q) : Safe n (m >>= f) Q := by
  refine ⟨fun h hn => ?_⟩
  obtain ⟨h1, h2, h3⟩ := hm.all h hn
  rw [exec_bind]
  cases hr : m.exec h with
  | mk r h' =>
    rw [hr] at h1 h2 h3
    cases r with
    | error e => exact ⟨h1, h2, fun v hv => by cases hv⟩
    | ok v =>
      obtain ⟨g1, g2, g3⟩ := (hf v (h3 v rfl)).all h' h2
      exact ⟨fun i hi => (g1 i hi).trans (h1 i hi), g2, g3⟩

theorem pure {v : β} {P : β → Prop} (hv : P v) : Safe n (Pure.pure v : M α β) P :=
  ⟨fun _ hn => ⟨fun _ _ => rfl, hn, fun w hw => by cases hw; exact hv⟩⟩

theorem pureRes (r : Res β) : Safe n (Mem.pureRes r : M α β) Any :=
  ⟨fun _ hn => ⟨fun _ _ => rfl, hn, fun _ _ => trivial⟩⟩

theorem alloc (c : Cell α) : Safe n (Mem.alloc c) (fun r => n ≤ r) := by
  refine ⟨fun h hn => ?_⟩
  refine ⟨fun i hi => ?_, ?_, fun v hv => ?_⟩
  · show (h ++ [c])[i]? = _
    rw [List.getElem?_append_left (by omega)]
  · show n ≤ (h ++ [c]).length
    rw [List.length_append]; omega
  · have : h.length = v := by injection hv
    omega

theorem weaken {m : M α β} {P : β → Prop} (hm : Safe n m P) : Safe n m Any :=
  ⟨fun h hn => ⟨(hm.all h hn).1, (hm.all h hn).2.1, fun _ _ => trivial⟩⟩

/-- A computation that does not change the heap. -/
theorem read {m : M α β} (hm : ∀ h, (m.exec h).2 = h) : Safe n m Any :=
  ⟨fun h hn => ⟨fun i _ => by rw [hm], by rw [hm]; exact hn, fun _ _ => trivial⟩⟩

theorem readDict (r : Ref) : Safe n (Mem.readDict r : M α _) Any :=
  read fun h => by simp only [M.exec, Mem.readDict]; split <;> rfl

theorem readState (r : Ref) : Safe n (Mem.readState r : M α _) Any :=
  read fun h => by simp only [M.exec, Mem.readState]; split <;> rfl

theorem getState (r : Ref) : Safe n (Mem.getState r : M α _) Any :=
  read fun h => by simp only [M.exec, Mem.getState]; split <;> rfl

theorem getErrorMode (r : Ref) : Safe n (Mem.getErrorMode r : M α _) Any :=
  read fun h => by simp only [M.exec, Mem.getErrorMode]; split <;> rfl

theorem readTree : ∀ v : Val, Safe n (Mem.readTree v : M α _) Any
  | Option.none => read fun _ => rfl
  | some r => read fun h => by simp only [M.exec, Mem.readTree]; split <;> rfl

/-- Writing to a cell that is not among the first `n`. -/
theorem write {m : M α β} {r : Ref} (hr : n ≤ r)
    (hm : ∀ h, ∃ c, (m.exec h).2 = h ∨ (m.exec h).2 = h.set r c) : Safe n m Any := by
  refine ⟨fun h hn => ?_⟩
  obtain ⟨c, hc | hc⟩ := hm h <;> rw [hc]
  · exact ⟨fun _ _ => rfl, hn, fun _ _ => trivial⟩
  · exact ⟨fun i hi => by rw [List.getElem?_set_ne (by omega)], by rw [List.length_set]; exact hn,
      fun _ _ => trivial⟩

theorem setItem {r : Ref} (hr : n ≤ r) (k : String) (v : Val) :
    Safe n (Mem.setItem r k v : M α _) Any := by
  refine write hr fun h => ?_
  simp only [M.exec, Mem.setItem]
  split
  · exact ⟨_, Or.inr rfl⟩
  · exact ⟨.dict [], Or.inl rfl⟩

theorem popItem {r : Ref} (hr : n ≤ r) (k : String) : Safe n (Mem.popItem r k : M α _) Any := by
  refine write hr fun h => ?_
  simp only [M.exec, Mem.popItem]
  split
  · split
    · exact ⟨_, Or.inr rfl⟩
    · exact ⟨.dict [], Or.inl rfl⟩
  · exact ⟨.dict [], Or.inl rfl⟩

theorem setState {r : Ref} (hr : n ≤ r) (s : Ref) : Safe n (Mem.setState r s : M α _) Any := by
  refine write hr fun h => ?_
  simp only [M.exec, Mem.setState]
  split
  · exact ⟨_, Or.inr rfl⟩
  · exact ⟨.dict [], Or.inl rfl⟩

theorem getItem (r : Ref) (k : String) : Safe n (Mem.getItem r k : M α _) Any :=
  bind (readDict r) fun _ _ => pureRes _

theorem copyDict (r : Ref) : Safe n (Mem.copyDict r : M α _) (fun r => n ≤ r) :=
  bind (readDict r) fun _ _ => alloc _

theorem newObj (c : Cls) (s : Ref) : Safe n (Mem.newObj c s : M α _) (fun r => n ≤ r) :=
  bind (alloc _) fun _ ho => bind (setState ho s) fun _ _ => pure ho

theorem tryRuntime {m : M α β} {P : β → Prop} (hm : Safe n m P) : Safe n (Mem.tryRuntime m) P := by
  refine ⟨fun h hn => ?_⟩
  obtain ⟨h1, h2, h3⟩ := hm.all h hn
  unfold M.exec at h1 h2 h3 ⊢
  unfold Mem.tryRuntime
  cases hr : m h with
  | mk r h' =>
    rw [hr] at h1 h2 h3
    cases r with
    | error e => exact ⟨h1, h2, fun v hv => by cases hv⟩
    | ok v => exact ⟨h1, h2, h3⟩

theorem replace (st : Ref) (e : Option α) (i r p : Option (Tensor α)) (a d u : Option Ref)
    (dc : Option α) (m : Option String) : Safe n (Mem.replace st e i r p a d u dc m) Any := by
  refine bind (readState st) fun s _ => ?_
  match dc, m with
  | some _, _ => exact pureRes _
  | Option.none, some _ => exact pureRes _
  | Option.none, Option.none => exact (alloc _).weaken

theorem ite {p : Prop} [Decidable p] {m m' : M α β} {P : β → Prop} (h1 : Safe n m P)
    (h2 : Safe n m' P) : Safe n (if p then m else m') P := by
  split
  · exact h1
  · exact h2

variable [Arith α]

omit [Arith α] in
theorem cacheUpdate (self : Ref) (name : String) (item : Val) :
    Safe n (Mem.cacheUpdate self name item : M α _) Any := by
  refine bind (getState _) fun st _ => bind (readState _) fun s _ => bind (readDict _) fun u _ =>
    ite (pureRes _) (bind (getItem _ _) fun v _ => bind (readTree _) fun t _ =>
      ite (pureRes _) (bind (copyDict _) fun d hd => bind (setItem hd _ _) fun _ _ =>
        bind (replace ..) fun _ _ => (newObj _ _).weaken))

theorem commitBody (c : Controller α) (halting : Tensor α) {a u : Ref} (ha : n ≤ a) (hu : n ≤ u)
    (name : String) : Safe n (Mem.commitBody c halting a u name) Any := by
  refine bind (getItem _ _) fun _ _ => bind (getItem _ _) fun _ _ => bind (readTree _) fun _ _ =>
    bind (readTree _) fun _ _ => ite (pureRes _) (bind (pureRes _) fun _ _ =>
      bind (alloc _) fun _ _ => bind (setItem ha _ _) fun _ _ => setItem hu _ _)

theorem commitLoop (c : Controller α) (halting : Tensor α) {a u : Ref} (ha : n ≤ a) (hu : n ≤ u) :
    ∀ names, Safe n (Mem.commitLoop c halting a u names) Any
  | [] => pure trivial
  | _ :: names => bind (tryRuntime (commitBody c halting ha hu _)) fun _ _ =>
      commitLoop c halting ha hu names

theorem iterateAct (self : Ref) (halting : Tensor α) : Safe n (Mem.iterateAct self halting) Any := by
  refine bind (getState _) fun st _ => bind (readState _) fun s _ => ite (pureRes _)
    (bind (pureRes _) fun ⟨_, _, _⟩ _ => bind (copyDict _) fun a ha => bind (copyDict _) fun u hu =>
      bind (readDict _) fun _ _ => bind (commitLoop _ _ ha hu _) fun _ _ =>
      bind (pureRes _) fun _ _ => bind (replace ..) fun _ _ => (newObj _ _).weaken)

omit [Arith α] in
theorem checkPending : ∀ d : Dict Val, Safe n (Mem.checkPending d : M α _) Any
  | [] => pure trivial
  | (_, _) :: rest => bind (readTree _) fun _ _ => ite (pureRes _) (checkPending rest)

omit [Arith α] in
theorem resetLoop (unhalted : Arr Bool) (accs defaults : Ref) {out : Ref} (ho : n ≤ out) :
    ∀ names, Safe n (Mem.resetLoop unhalted accs defaults out names : M α _) Any
  | [] => pure trivial
  | _ :: names => bind (getItem _ _) fun _ _ => bind (getItem _ _) fun _ _ =>
      bind (readTree _) fun _ _ => bind (readTree _) fun _ _ => bind (pureRes _) fun _ _ =>
      bind (alloc _) fun _ _ => bind (setItem ho _ _) fun _ _ =>
      resetLoop unhalted accs defaults ho names

theorem resetBatches (self : Ref) : Safe n (Mem.resetBatches self : M α _) Any := by
  refine bind (getState _) fun st _ => bind (readState _) fun s _ => bind (readDict _) fun _ _ =>
    bind (checkPending _) fun _ _ => bind (pureRes _) fun _ _ => bind (pureRes _) fun _ _ =>
    bind (pureRes _) fun _ _ => bind (alloc _) fun a ha => bind (readDict _) fun _ _ =>
    bind (resetLoop _ _ _ ha _) fun _ _ => bind (replace ..) fun _ _ => (newObj _ _).weaken

omit [Arith α] in
theorem define (self : Ref) (name : String) (d : Val) :
    Safe n (Mem.define self name d : M α _) Any := by
  refine bind (getState _) fun st _ => bind (readState _) fun s _ => bind (readTree _) fun _ _ =>
    bind (pureRes _) fun _ _ => bind (copyDict _) fun d hd => bind (copyDict _) fun a ha =>
    bind (copyDict _) fun u hu => bind (setItem hd _ _) fun _ _ => bind (setItem ha _ _) fun _ _ =>
    bind (setItem hu _ _) fun _ _ => bind (replace ..) fun _ _ => (newObj _ _).weaken

omit [Arith α] in
theorem deleteDefinition (self : Ref) (name : String) :
    Safe n (Mem.deleteDefinition self name : M α _) Any := by
  refine bind (getState _) fun st _ => bind (readState _) fun s _ => bind (copyDict _) fun d hd =>
    bind (copyDict _) fun a ha => bind (copyDict _) fun u hu => bind (popItem hd _) fun _ _ =>
    bind (popItem ha _) fun _ _ => bind (popItem hu _) fun _ _ => bind (replace ..) fun _ _ =>
    (newObj _ _).weaken

omit [Arith α] in
theorem transformDict (f : Tensor α → Res (Tensor α)) :
    ∀ d : Dict Val, Safe n (Mem.transformDict f d) Any
  | [] => pure trivial
  | (_, _) :: d => bind (readTree _) fun _ _ => bind (pureRes _) fun _ _ => bind (alloc _) fun _ _ =>
      bind (transformDict f d) fun _ _ => pure trivial

omit [Arith α] in
theorem transformRef (f : Tensor α → Res (Tensor α)) (r : Ref) :
    Safe n (Mem.transformRef f r) Any :=
  bind (readDict _) fun _ _ => bind (transformDict f _) fun _ _ => (alloc _).weaken

omit [Arith α] in
theorem transform (self : Ref) (f : Tensor α → Res (Tensor α)) :
    Safe n (Mem.transform self f) Any := by
  refine bind (getState _) fun st _ => bind (readState _) fun s _ =>
    bind (P := Any) (tryRuntime (bind (pureRes _) fun _ _ => bind (pureRes _) fun _ _ =>
      bind (pureRes _) fun _ _ => bind (transformRef f _) fun _ _ =>
      bind (transformRef f _) fun _ _ => bind (transformRef f _) fun _ _ => pure trivial))
    fun ⟨_, _, _, _, _, _⟩ _ => bind (replace ..) fun _ _ => (newObj _ _).weaken

theorem maskData (self : Ref) (mask : Tensor α) : Safe n (Mem.maskData self mask) Any :=
  bind (getState _) fun _ _ => bind (readState _) fun _ _ =>
    ite (pureRes _) (ite (pureRes _) (transform _ _))

omit [Arith α] in
theorem validate (self : Ref) {checks : M α Bool} (hc : Safe n checks Any) :
    Safe n (Mem.validate self checks) Any :=
  bind (getErrorMode _) fun _ _ => ite (bind hc fun _ _ => ite (pure trivial) (pureRes _))
    (pure trivial)

omit [Arith α] in
theorem checkAgainstAccumulator (s : StateObj α) (name : String) (v : Val) :
    Safe n (Mem.checkAgainstAccumulator s name v) Any :=
  bind (readDict _) fun _ _ => bind (readDict _) fun _ _ =>
    ite (bind (getItem _ _) fun _ _ => bind (readTree _) fun _ _ => bind (readTree _) fun _ _ =>
      bind (pureRes _) fun _ _ => pure trivial) (pure trivial)

omit [Arith α] in
theorem checkUpdate (s : StateObj α) (name : String) (v : Val) :
    Safe n (Mem.checkUpdate s name v) Any :=
  bind (readDict _) fun _ _ => bind (readTree _) fun _ _ => ite (pure trivial)
    (bind (getItem _ _) fun _ _ => bind (readTree _) fun _ _ => bind (pureRes _) fun _ _ =>
      pure trivial)

omit [Arith α] in
/-- The end of every setter of the editor. -/
theorem editorEnd (self : Ref) (m : M α Ref) (hm : Safe n m Any) :
    Safe n (do let state ← m; let mode ← Mem.getErrorMode self; Mem.newObj (.editor mode) state)
      Any :=
  bind hm fun _ _ => bind (getErrorMode _) fun _ _ => (newObj _ _).weaken

theorem run (c : Call α) : Safe n c.run Any := by
  cases c with
  | cacheUpdate self name item => exact cacheUpdate ..
  | iterateAct self halting => exact iterateAct ..
  | resetBatches self => exact resetBatches _
  | makeViewer self => exact bind (getState _) fun _ _ => (newObj _ _).weaken
  | save self => exact getState _
  | loadController st => exact (newObj _ _).weaken
  | loadViewer st => exact (newObj _ _).weaken
  | accumulators self => exact bind (getState _) fun _ _ => bind (readState _) fun _ _ => pure trivial
  | defaults self => exact bind (getState _) fun _ _ => bind (readState _) fun _ _ => pure trivial
  | updates self => exact bind (getState _) fun _ _ => bind (readState _) fun _ _ => pure trivial
  | define self name d => exact define ..
  | deleteDefinition self name => exact deleteDefinition ..
  | defineByShape self name s d f => exact bind (pureRes _) fun _ _ => bind (alloc _) fun _ _ => define _ _ _
  | newBuilder b c e d =>
    exact ite (pureRes _) (ite (pureRes _) (bind (alloc _) fun _ _ =>
      bind (alloc _) fun _ _ => bind (alloc _) fun _ _ => pureRes _))
  | build self => exact bind (getState _) fun _ _ => (newObj _ _).weaken
  | transform self f => exact transform ..
  | maskData self m => exact maskData ..
  | unhaltedOnly self => exact bind (getState _) fun _ _ => bind (readState _) fun _ _ => maskData ..
  | haltedOnly self => exact bind (getState _) fun _ _ => bind (readState _) fun _ _ => maskData ..
  | setProbabilities self v =>
    exact bind (getState _) fun _ _ => bind (readState _) fun _ _ =>
      bind (validate _ (pure trivial)) fun _ _ => editorEnd _ _ (replace ..)
  | setResiduals self v =>
    exact bind (getState _) fun _ _ => bind (readState _) fun _ _ =>
      bind (validate _ (pure trivial)) fun _ _ => editorEnd _ _ (replace ..)
  | setIterations self v =>
    exact bind (getState _) fun _ _ => bind (readState _) fun _ _ =>
      bind (validate _ (pure trivial)) fun _ _ => editorEnd _ _ (replace ..)
  | setEpsilon self e =>
    exact bind (getState _) fun _ _ =>
      bind (validate _ (pure trivial)) fun _ _ => editorEnd _ _ (replace ..)
  | setAccumulator self name v =>
    exact bind (getState _) fun _ _ => bind (readState _) fun _ _ =>
      bind (validate _ (checkAgainstAccumulator ..)) fun _ _ => bind (copyDict _) fun d hd =>
      bind (setItem hd _ _) fun _ _ => editorEnd _ _ (replace ..)
  | setDefaults self name v =>
    exact bind (getState _) fun _ _ => bind (readState _) fun _ _ =>
      bind (validate _ (checkAgainstAccumulator ..)) fun _ _ => bind (copyDict _) fun d hd =>
      bind (setItem hd _ _) fun _ _ => editorEnd _ _ (replace ..)
  | setUpdates self name v =>
    exact bind (getState _) fun _ _ => bind (readState _) fun _ _ =>
      bind (validate _ (checkUpdate ..)) fun _ _ => bind (copyDict _) fun d hd =>
      bind (setItem hd _ _) fun _ _ => editorEnd _ _ (replace ..)
  | editController c m => exact bind (getState _) fun _ _ => ite (newObj _ _).weaken (pureRes _)
  | editSave s m => exact ite (newObj _ _).weaken (pureRes _)
  | replace st e i r p a d u dc m => exact replace ..
  | newTree t => exact (alloc _).weaken

end Safe
end JaxAct.Mem
