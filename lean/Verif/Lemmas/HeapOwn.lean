import Verif.Lemmas.HeapView
import Verif.Spec.Ownership

/-! # Which references a computation on the heap can get hold of -/

namespace JaxAct.Mem
variable {α β γ : Type} {T : Ref → Prop}

/-- A set of references that is closed under following references. -/
def Inv (T : Ref → Prop) (h : Heap α) : Prop :=
  ∀ r c, T r → h[r]? = some c → ∀ x ∈ c.refs, T x

/-- A dictionary value in the set. -/
def TVal (T : Ref → Prop) (v : Val) : Prop := ∀ r, v = some r → T r

/-- A dictionary with values in the set. -/
def TDict (T : Ref → Prop) (d : Dict Val) : Prop := ∀ k v, (k, v) ∈ d → TVal T v

theorem TVal.none : TVal T Option.none := fun _ h => by cases h

theorem TVal.some {r : Ref} (h : T r) : TVal T (some r) := fun _ e => by cases e; exact h

theorem TDict.nil : TDict T [] := fun _ _ h => by cases h

theorem TDict.cons {k : String} {v : Val} {d : Dict Val} (hv : TVal T v) (hd : TDict T d) :
    TDict T ((k, v) :: d) := by
  intro k' v' h
  rcases List.mem_cons.1 h with h | h
  · cases h; exact hv
  · exact hd k' v' h

theorem TDict.refs {d : Dict Val} : TDict T d ↔ ∀ x ∈ (Cell.dict d : Cell α).refs, T x := by
  simp only [Cell.refs, List.mem_filterMap]
  constructor
  · rintro h x ⟨⟨k, v⟩, hm, hv⟩; exact h k v hm x hv
  · intro h k v hm r hv; exact h r ⟨(k, v), hm, hv⟩

theorem TDict.get {d : Dict Val} (h : TDict T d) {k : String} {v : Val} (hk : d.get? k = some v) :
    TVal T v := by
  induction d with
  | nil => cases hk
  | cons p d ih =>
    obtain ⟨k', v'⟩ := p
    simp only [Dict.get?] at hk
    split at hk
    · cases hk; exact h _ _ List.mem_cons_self
    · exact ih (fun a b m => h a b (List.mem_cons_of_mem _ m)) hk

theorem TDict.set {d : Dict Val} (h : TDict T d) {k : String} {v : Val} (hv : TVal T v) :
    TDict T (d.set k v) := by
  induction d with
  | nil => exact TDict.cons hv TDict.nil
  | cons p d ih =>
    obtain ⟨k', v'⟩ := p
    have h' : TDict T d := fun a b m => h a b (List.mem_cons_of_mem _ m)
    simp only [Dict.set]
    split
    · exact TDict.cons hv h'
    · exact TDict.cons (h _ _ List.mem_cons_self) (ih h')

theorem TDict.erase {d : Dict Val} (h : TDict T d) (k : String) : TDict T (d.erase k) := by
  induction d with
  | nil => exact TDict.nil
  | cons p d ih =>
    obtain ⟨k', v'⟩ := p
    have h' : TDict T d := fun a b m => h a b (List.mem_cons_of_mem _ m)
    simp only [Dict.erase]
    split
    · exact h'
    · exact TDict.cons (h _ _ List.mem_cons_self) (ih h')

/-- The computation keeps the set closed; its value satisfies `P`.  Everything beyond the first `n`
cells is in the set. -/
structure Own (n : Nat) (T : Ref → Prop) (m : M α β) (P : β → Prop) : Prop where
  all : ∀ h : Heap α, n ≤ h.length → Inv T h →
    Inv T (m.exec h).2 ∧ n ≤ (m.exec h).2.length ∧ ∀ v, (m.exec h).1 = .ok v → P v

namespace Own
variable {n : Nat}

theorem bind {m : M α β} {f : β → M α γ} {P : β → Prop} {Q : γ → Prop} (hm : Own n T m P)
    (hf : ∀ v, P v → Own n T (f v) Q) : Own n T (m >>= f) Q := by
  refine ⟨fun h hn hi => ?_⟩
  obtain ⟨h1, h2, h3⟩ := hm.all h hn hi
  rw [exec_bind]
  cases hr : m.exec h with
  | mk r h' =>
    rw [hr] at h1 h2 h3
    cases r with
    | error e => exact ⟨h1, h2, fun v hv => by cases hv⟩
    | ok v => exact (hf v (h3 v rfl)).all h' h2 h1

theorem pure {v : β} {P : β → Prop} (hv : P v) : Own n T (Pure.pure v : M α β) P :=
  ⟨fun _ hn hi => ⟨hi, hn, fun w hw => by cases hw; exact hv⟩⟩

theorem pureRes (r : Res β) : Own n T (Mem.pureRes r : M α β) Any :=
  ⟨fun _ hn hi => ⟨hi, hn, fun _ _ => trivial⟩⟩

theorem raise {P : β → Prop} (e : Err) : Own n T (Mem.pureRes (JaxAct.raise e) : M α β) P :=
  ⟨fun _ hn hi => ⟨hi, hn, fun _ hv => by cases hv⟩⟩

theorem alloc (hT : ∀ r, n ≤ r → T r) {c : Cell α} (hc : ∀ x ∈ c.refs, T x) :
    Own n T (Mem.alloc c) T := by
  refine ⟨fun h hn hi => ⟨?_, ?_, fun v hv => ?_⟩⟩
  · intro r c' hr hc' x hx
    change (h ++ [c])[r]? = some c' at hc'
    rcases Nat.lt_or_ge r h.length with hl | hl
    · rw [List.getElem?_append_left hl] at hc'
      exact hi r c' hr hc' x hx
    · rw [List.getElem?_append_right hl, List.getElem?_singleton] at hc'
      split at hc'
      · cases hc'; exact hc x hx
      · cases hc'
  · show n ≤ (h ++ [c]).length
    rw [List.length_append]; omega
  · have : h.length = v := by injection hv
    exact hT v (by omega)

theorem weaken {m : M α β} {P : β → Prop} (hm : Own n T m P) : Own n T m Any :=
  ⟨fun h hn hi => ⟨(hm.all h hn hi).1, (hm.all h hn hi).2.1, fun _ _ => trivial⟩⟩

/-- A computation that does not change the heap. -/
theorem read {m : M α β} {P : β → Prop} (hm : ∀ h, (m.exec h).2 = h)
    (hv : ∀ h, Inv T h → ∀ v, (m.exec h).1 = .ok v → P v) : Own n T m P :=
  ⟨fun h hn hi => ⟨by rw [hm]; exact hi, by rw [hm]; exact hn, hv h hi⟩⟩

theorem readDict {r : Ref} (hr : T r) : Own n T (Mem.readDict r : M α _) (TDict T) := by
  refine read (fun h => by simp only [M.exec, Mem.readDict]; split <;> rfl) fun h hi v hv => ?_
  simp only [M.exec, Mem.readDict] at hv
  split at hv
  · next d hd => cases hv; exact TDict.refs.2 (hi r _ hr hd)
  · cases hv

/-- The references of a state object are in the set. -/
def TState (T : Ref → Prop) (s : StateObj α) : Prop :=
  T s.defaults ∧ T s.accumulators ∧ T s.updates

theorem readState {r : Ref} (hr : T r) : Own n T (Mem.readState r : M α _) (TState T) := by
  refine read (fun h => by simp only [M.exec, Mem.readState]; split <;> rfl) fun h hi v hv => ?_
  simp only [M.exec, Mem.readState] at hv
  split at hv
  · next s hs =>
    cases hv
    have := hi r _ hr hs
    simp only [Cell.refs, List.mem_cons, List.not_mem_nil, or_false, forall_eq_or_imp,
      forall_eq] at this
    exact this
  · cases hv

theorem getState {r : Ref} (hr : T r) : Own n T (Mem.getState r : M α _) T := by
  refine read (fun h => by simp only [M.exec, Mem.getState]; split <;> rfl) fun h hi v hv => ?_
  simp only [M.exec, Mem.getState] at hv
  split at hv
  · next s hs => cases hv; exact hi r _ hr hs _ List.mem_cons_self
  · cases hv

theorem getErrorMode (r : Ref) : Own n T (Mem.getErrorMode r : M α _) Any :=
  read (fun h => by simp only [M.exec, Mem.getErrorMode]; split <;> rfl) fun _ _ _ _ => trivial

theorem readTree : ∀ v : Val, Own n T (Mem.readTree v : M α _) Any
  | Option.none => read (fun _ => rfl) fun _ _ _ _ => trivial
  | some r => read (fun h => by simp only [M.exec, Mem.readTree]; split <;> rfl)
      fun _ _ _ _ => trivial

/-- Writing a cell whose references are in the set. -/
theorem write {m : M α β} {r : Ref}
    (hm : ∀ h, Inv T h → (m.exec h).2 = h ∨
      ∃ c, (T r → ∀ x ∈ c.refs, T x) ∧ (m.exec h).2 = h.set r c) :
    Own n T m Any := by
  refine ⟨fun h hn hi => ?_⟩
  rcases hm h hi with hc | ⟨c, hx, hc⟩ <;> rw [hc]
  · exact ⟨hi, hn, fun _ _ => trivial⟩
  · refine ⟨fun r' c' hr' hc' => ?_, by rw [List.length_set]; exact hn, fun _ _ => trivial⟩
    rcases eq_or_ne r r' with rfl | hne
    · rw [List.getElem?_set_self'] at hc'
      cases hg : h[r]? with
      | none => rw [hg] at hc'; cases hc'
      | some c0 => rw [hg] at hc'; cases hc'; exact hx hr'
    · rw [List.getElem?_set_ne hne] at hc'
      exact hi r' c' hr' hc'

theorem setItem (r : Ref) (k : String) {v : Val} (hv : TVal T v) :
    Own n T (Mem.setItem r k v : M α _) Any := by
  refine write (r := r) fun h hi => ?_
  simp only [M.exec, Mem.setItem]
  split
  · next d hd =>
    exact Or.inr ⟨_, fun hr => TDict.refs.1 (TDict.set (TDict.refs.2 (hi r _ hr hd)) hv), rfl⟩
  · exact Or.inl rfl

theorem popItem (r : Ref) (k : String) : Own n T (Mem.popItem r k : M α _) Any := by
  refine write (r := r) fun h hi => ?_
  simp only [M.exec, Mem.popItem]
  split
  · next d hd =>
    split
    · next d' hd' =>
      unfold Dict.pop at hd'
      split at hd'
      · cases hd'
        exact Or.inr ⟨_, fun hr => TDict.refs.1 (TDict.erase (TDict.refs.2 (hi r _ hr hd)) k), rfl⟩
      · cases hd'
    · exact Or.inl rfl
  · exact Or.inl rfl

theorem setState (r : Ref) {s : Ref} (hs : T s) : Own n T (Mem.setState r s : M α _) Any := by
  refine write (r := r) fun h hi => ?_
  simp only [M.exec, Mem.setState]
  split
  · refine Or.inr ⟨_, fun _ x hx => ?_, rfl⟩
    simp only [Cell.refs, List.mem_singleton] at hx
    rw [hx]; exact hs
  · exact Or.inl rfl

theorem getItem {r : Ref} (hr : T r) (k : String) : Own n T (Mem.getItem r k : M α _) (TVal T) := by
  refine bind (readDict hr) fun d hd => read (fun _ => rfl) fun h hi v hv => ?_
  change d.getItem k = .ok v at hv
  unfold Dict.getItem at hv
  split at hv
  · next w hw => cases hv; exact TDict.get hd hw
  · cases hv

theorem copyDict (hT : ∀ r, n ≤ r → T r) {r : Ref} (hr : T r) : Own n T (Mem.copyDict r : M α _) T :=
  bind (readDict hr) fun _ hd => alloc hT (TDict.refs.1 hd)

theorem newObj (hT : ∀ r, n ≤ r → T r) (c : Cls) {s : Ref} (hs : T s) :
    Own n T (Mem.newObj c s : M α _) T :=
  bind (alloc hT (by simp [Cell.refs])) fun o ho => bind (setState o hs) fun _ _ => pure ho

theorem tryRuntime {m : M α β} {P : β → Prop} (hm : Own n T m P) :
    Own n T (Mem.tryRuntime m) P := by
  refine ⟨fun h hn hi => ?_⟩
  obtain ⟨h1, h2, h3⟩ := hm.all h hn hi
  unfold M.exec at h1 h2 h3 ⊢
  unfold Mem.tryRuntime
  cases hr : m h with
  | mk r h' =>
    rw [hr] at h1 h2 h3
    cases r with
    | error e => exact ⟨h1, h2, fun v hv => by cases hv⟩
    | ok v => exact ⟨h1, h2, h3⟩

theorem replace (hT : ∀ r, n ≤ r → T r) {st : Ref} (hst : T st) (e : Option α)
    (i r p : Option (Tensor α)) {a d u : Option Ref} (ha : TVal T a) (hd : TVal T d)
    (hu : TVal T u) (dc : Option α) (m : Option String) :
    Own n T (Mem.replace st e i r p a d u dc m) T := by
  refine bind (readState hst) fun s hs => ?_
  match dc, m with
  | some _, _ => exact raise _
  | Option.none, some _ => exact raise _
  | Option.none, Option.none =>
    refine alloc hT fun x hx => ?_
    simp only [Cell.refs, List.mem_cons, List.not_mem_nil, or_false] at hx
    rcases hx with rfl | rfl | rfl
    · cases d with
      | none => exact hs.1
      | some d => exact hd d rfl
    · cases a with
      | none => exact hs.2.1
      | some a => exact ha a rfl
    · cases u with
      | none => exact hs.2.2
      | some u => exact hu u rfl

theorem ite {p : Prop} [Decidable p] {m m' : M α β} {P : β → Prop} (h1 : Own n T m P)
    (h2 : Own n T m' P) : Own n T (if p then m else m') P := by
  split
  · exact h1
  · exact h2

variable [Arith α] (hT : ∀ r, n ≤ r → T r)
include hT

omit [Arith α] in
theorem cacheUpdate {self : Ref} (hs : T self) (name : String) {item : Val} (hi : TVal T item) :
    Own n T (Mem.cacheUpdate self name item : M α _) T := by
  refine bind (getState hs) fun st hst => bind (readState hst) fun s hs => bind (readDict hs.2.2)
    fun u _ => ite (raise _) (bind (getItem hs.2.2 _) fun v _ => bind (readTree _) fun t _ =>
      ite (raise _) (bind (copyDict hT hs.2.2) fun d hd => bind (setItem _ _ hi) fun _ _ =>
        bind (replace hT hst _ _ _ _ TVal.none TVal.none (TVal.some hd) _ _) fun _ ho =>
        newObj hT _ ho))

theorem commitBody (c : Controller α) (halting : Tensor α) {a u : Ref} (ha : T a) (hu : T u)
    (name : String) : Own n T (Mem.commitBody c halting a u name) Any := by
  refine bind (getItem ha _) fun _ _ => bind (getItem hu _) fun _ _ => bind (readTree _) fun _ _ =>
    bind (readTree _) fun _ _ => ite (raise _) (bind (pureRes _) fun _ _ =>
      bind (alloc hT (by simp [Cell.refs])) fun _ hn => bind (setItem _ _ (TVal.some hn)) fun _ _ =>
      setItem _ _ TVal.none)

theorem commitLoop (c : Controller α) (halting : Tensor α) {a u : Ref} (ha : T a) (hu : T u) :
    ∀ names, Own n T (Mem.commitLoop c halting a u names) Any
  | [] => pure trivial
  | _ :: names => bind (tryRuntime (commitBody hT c halting ha hu _)) fun _ _ =>
      commitLoop c halting ha hu names

theorem iterateAct {self : Ref} (hs : T self) (halting : Tensor α) :
    Own n T (Mem.iterateAct self halting) T := by
  refine bind (getState hs) fun st hst => bind (readState hst) fun s hs => ite (raise _)
    (bind (pureRes _) fun ⟨_, _, _⟩ _ => bind (copyDict hT hs.2.1) fun a ha =>
      bind (copyDict hT hs.2.2) fun u hu =>
      bind (readDict ha) fun _ _ => bind (commitLoop hT _ _ ha hu _) fun _ _ =>
      bind (pureRes _) fun _ _ =>
      bind (replace hT hst _ _ _ _ (TVal.some ha) TVal.none (TVal.some hu) _ _) fun _ ho =>
      newObj hT _ ho)

omit [Arith α] hT in
theorem checkPending : ∀ d : Dict Val, Own n T (Mem.checkPending d : M α _) Any
  | [] => pure trivial
  | (_, _) :: rest => bind (readTree _) fun _ _ => ite (raise _) (checkPending rest)

omit [Arith α] in
theorem resetLoop (unhalted : Arr Bool) {accs defaults : Ref} (ha : T accs) (hd : T defaults)
    (out : Ref) : ∀ names, Own n T (Mem.resetLoop unhalted accs defaults out names : M α _) Any
  | [] => pure trivial
  | _ :: names => bind (getItem ha _) fun _ _ => bind (getItem hd _) fun _ _ =>
      bind (readTree _) fun _ _ => bind (readTree _) fun _ _ => bind (pureRes _) fun _ _ =>
      bind (alloc hT (by simp [Cell.refs])) fun _ hn => bind (setItem _ _ (TVal.some hn)) fun _ _ =>
      resetLoop unhalted ha hd out names

theorem resetBatches {self : Ref} (hs : T self) : Own n T (Mem.resetBatches self : M α _) T := by
  refine bind (getState hs) fun st hst => bind (readState hst) fun s hs =>
    bind (readDict hs.2.2) fun _ _ =>
    bind (checkPending _) fun _ _ => bind (pureRes _) fun _ _ => bind (pureRes _) fun _ _ =>
    bind (pureRes _) fun _ _ => bind (alloc hT (by simp [Cell.refs])) fun a ha =>
    bind (readDict hs.2.1) fun _ _ =>
    bind (resetLoop hT _ hs.2.1 hs.1 _ _) fun _ _ =>
    bind (replace hT hst _ _ _ _ (TVal.some ha) TVal.none TVal.none _ _) fun _ ho => newObj hT _ ho

omit [Arith α] in
theorem define {self : Ref} (hs : T self) (name : String) {d : Val} (hd : TVal T d) :
    Own n T (Mem.define self name d : M α _) T := by
  refine bind (getState hs) fun st hst => bind (readState hst) fun s hs =>
    bind (readTree _) fun _ _ =>
    bind (pureRes _) fun _ _ => bind (copyDict hT hs.1) fun x hx => bind (copyDict hT hs.2.1)
    fun a ha => bind (copyDict hT hs.2.2) fun u hu => bind (setItem _ _ hd) fun _ _ =>
    bind (setItem _ _ hd) fun _ _ => bind (setItem _ _ TVal.none) fun _ _ =>
    bind (replace hT hst _ _ _ _ (TVal.some ha) (TVal.some hx) (TVal.some hu) _ _) fun _ ho =>
    newObj hT _ ho

omit [Arith α] in
theorem deleteDefinition {self : Ref} (hs : T self) (name : String) :
    Own n T (Mem.deleteDefinition self name : M α _) T := by
  refine bind (getState hs) fun st hst => bind (readState hst) fun s hs =>
    bind (copyDict hT hs.1) fun x hx => bind (copyDict hT hs.2.1) fun a ha =>
    bind (copyDict hT hs.2.2) fun u hu => bind (popItem _ _) fun _ _ =>
    bind (popItem _ _) fun _ _ => bind (popItem _ _) fun _ _ =>
    bind (replace hT hst _ _ _ _ (TVal.some ha) (TVal.some hx) (TVal.some hu) _ _) fun _ ho =>
    newObj hT _ ho

omit [Arith α] in
theorem transformDict (f : Tensor α → Res (Tensor α)) :
    ∀ d : Dict Val, Own n T (Mem.transformDict f d) (TDict T)
  | [] => pure TDict.nil
  | (_, _) :: d => bind (readTree _) fun _ _ => bind (pureRes _) fun _ _ =>
      bind (alloc hT (by simp [Cell.refs])) fun _ hn =>
      bind (transformDict f d) fun _ hd => pure (TDict.cons (TVal.some hn) hd)

omit [Arith α] in
theorem transformRef (f : Tensor α → Res (Tensor α)) {r : Ref} (hr : T r) :
    Own n T (Mem.transformRef f r) T :=
  bind (readDict hr) fun _ _ => bind (transformDict hT f _) fun _ hd => alloc hT (TDict.refs.1 hd)

omit [Arith α] in
theorem transform {self : Ref} (hs : T self) (f : Tensor α → Res (Tensor α)) :
    Own n T (Mem.transform self f) T := by
  refine bind (getState hs) fun st hst => bind (readState hst) fun s hs =>
    bind (P := fun x => T x.2.2.2.1 ∧ T x.2.2.2.2.1 ∧ T x.2.2.2.2.2)
    (tryRuntime (bind (pureRes _) fun _ _ => bind (pureRes _) fun _ _ =>
      bind (pureRes _) fun _ _ => bind (transformRef hT f hs.2.1) fun _ h1 =>
      bind (transformRef hT f hs.1) fun _ h2 => bind (transformRef hT f hs.1) fun _ h3 =>
      pure ⟨h1, h2, h3⟩))
    fun ⟨_, _, _, _, _, _⟩ h =>
      bind (replace hT hst _ _ _ _ (TVal.some h.1) (TVal.some h.2.1) (TVal.some h.2.2) _ _)
      fun _ ho => newObj hT _ ho

theorem maskData {self : Ref} (hs : T self) (mask : Tensor α) :
    Own n T (Mem.maskData self mask) T :=
  bind (getState hs) fun _ h1 => bind (readState h1) fun _ _ =>
    ite (raise _) (ite (raise _) (transform hT hs _))

omit [Arith α] hT in
theorem validate (self : Ref) {checks : M α Bool} (hc : Own n T checks Any) :
    Own n T (Mem.validate self checks) Any :=
  bind (getErrorMode _) fun _ _ => ite (bind hc fun _ _ => ite (pure trivial) (raise _))
    (pure trivial)

omit [Arith α] hT in
theorem checkAgainstAccumulator {s : StateObj α} (hs : TState T s) (name : String) (v : Val) :
    Own n T (Mem.checkAgainstAccumulator s name v) Any :=
  bind (readDict hs.1) fun _ _ => bind (readDict hs.2.1) fun _ _ =>
    ite (bind (getItem hs.2.1 _) fun _ _ => bind (readTree _) fun _ _ => bind (readTree _) fun _ _ =>
      bind (pureRes _) fun _ _ => pure trivial) (pure trivial)

omit [Arith α] hT in
theorem checkUpdate {s : StateObj α} (hs : TState T s) (name : String) (v : Val) :
    Own n T (Mem.checkUpdate s name v) Any :=
  bind (readDict hs.1) fun _ _ => bind (readTree _) fun _ _ => ite (pure trivial)
    (bind (getItem hs.1 _) fun _ _ => bind (readTree _) fun _ _ => bind (pureRes _) fun _ _ =>
      pure trivial)

omit [Arith α] in
/-- The end of every setter of the editor. -/
theorem editorEnd (self : Ref) {m : M α Ref} (hm : Own n T m T) :
    Own n T (do let state ← m; let mode ← Mem.getErrorMode self; Mem.newObj (.editor mode) state)
      T :=
  bind hm fun _ ho => bind (getErrorMode _) fun _ _ => newObj hT _ ho

/-- A call with arguments in the set has its result in the set. -/
theorem run (c : Call α) (hc : ∀ x ∈ c.refs, T x) : Own n T c.run T := by
  have hv : ∀ {x : Ref} {v : Val}, (∀ y ∈ x :: v.toList, T y) → T x ∧ TVal T v := by
    intro x v h
    refine ⟨h x List.mem_cons_self, fun r hr => h r ?_⟩
    subst hr; simp
  have h1 : ∀ {x : Ref}, (∀ y ∈ [x], T y) → T x := fun h => h _ List.mem_cons_self
  cases c with
  | cacheUpdate self name item => exact cacheUpdate hT (hv hc).1 _ (hv hc).2
  | iterateAct self halting => exact iterateAct hT (h1 hc) _
  | resetBatches self => exact resetBatches hT (h1 hc)
  | makeViewer self => exact bind (getState (h1 hc)) fun _ h => newObj hT _ h
  | save self => exact getState (h1 hc)
  | loadController st => exact newObj hT _ (h1 hc)
  | loadViewer st => exact newObj hT _ (h1 hc)
  | accumulators self =>
    exact bind (getState (h1 hc)) fun _ h => bind (readState h) fun _ h => pure h.2.1
  | defaults self => exact bind (getState (h1 hc)) fun _ h => bind (readState h) fun _ h => pure h.1
  | updates self =>
    exact bind (getState (h1 hc)) fun _ h => bind (readState h) fun _ h => pure h.2.2
  | define self name d => exact define hT (hv hc).1 _ (hv hc).2
  | deleteDefinition self name => exact deleteDefinition hT (h1 hc) _
  | defineByShape self name s d f =>
    exact bind (pureRes _) fun _ _ => bind (alloc hT (by simp [Cell.refs])) fun _ h =>
      define hT (h1 hc) _ (TVal.some h)
  | newBuilder b c e d =>
    exact ite (raise _) (ite (raise _) (bind (alloc hT (by simp [Cell.refs])) fun _ _ =>
      bind (alloc hT (by simp [Cell.refs])) fun _ _ =>
      bind (alloc hT (by simp [Cell.refs])) fun _ _ => raise _))
  | build self => exact bind (getState (h1 hc)) fun _ h => newObj hT _ h
  | transform self f => exact transform hT (h1 hc) _
  | maskData self m => exact maskData hT (h1 hc) _
  | unhaltedOnly self =>
    exact bind (getState (h1 hc)) fun _ h => bind (readState h) fun _ _ => maskData hT (h1 hc) _
  | haltedOnly self =>
    exact bind (getState (h1 hc)) fun _ h => bind (readState h) fun _ _ => maskData hT (h1 hc) _
  | setProbabilities self v =>
    exact bind (getState (h1 hc)) fun _ h => bind (readState h) fun _ _ =>
      bind (validate _ (pure trivial)) fun _ _ =>
      editorEnd hT _ (replace hT h _ _ _ _ TVal.none TVal.none TVal.none _ _)
  | setResiduals self v =>
    exact bind (getState (h1 hc)) fun _ h => bind (readState h) fun _ _ =>
      bind (validate _ (pure trivial)) fun _ _ =>
      editorEnd hT _ (replace hT h _ _ _ _ TVal.none TVal.none TVal.none _ _)
  | setIterations self v =>
    exact bind (getState (h1 hc)) fun _ h => bind (readState h) fun _ _ =>
      bind (validate _ (pure trivial)) fun _ _ =>
      editorEnd hT _ (replace hT h _ _ _ _ TVal.none TVal.none TVal.none _ _)
  | setEpsilon self e =>
    exact bind (getState (h1 hc)) fun _ h =>
      bind (validate _ (pure trivial)) fun _ _ =>
      editorEnd hT _ (replace hT h _ _ _ _ TVal.none TVal.none TVal.none _ _)
  | setAccumulator self name v =>
    exact bind (getState (hv hc).1) fun _ h => bind (readState h) fun _ hs =>
      bind (validate _ (checkAgainstAccumulator hs _ _)) fun _ _ => bind (copyDict hT hs.2.1)
      fun d hd => bind (setItem _ _ (hv hc).2) fun _ _ =>
      editorEnd hT _ (replace hT h _ _ _ _ (TVal.some hd) TVal.none TVal.none _ _)
  | setDefaults self name v =>
    exact bind (getState (hv hc).1) fun _ h => bind (readState h) fun _ hs =>
      bind (validate _ (checkAgainstAccumulator hs _ _)) fun _ _ => bind (copyDict hT hs.1)
      fun d hd => bind (setItem _ _ (hv hc).2) fun _ _ =>
      editorEnd hT _ (replace hT h _ _ _ _ TVal.none (TVal.some hd) TVal.none _ _)
  | setUpdates self name v =>
    exact bind (getState (hv hc).1) fun _ h => bind (readState h) fun _ hs =>
      bind (validate _ (checkUpdate hs _ _)) fun _ _ => bind (copyDict hT hs.2.2)
      fun d hd => bind (setItem _ _ (hv hc).2) fun _ _ =>
      editorEnd hT _ (replace hT h _ _ _ _ TVal.none TVal.none (TVal.some hd) _ _)
  | editController c m =>
    exact bind (getState (h1 hc)) fun _ h => ite (newObj hT _ h) (raise _)
  | editSave s m => exact ite (newObj hT _ (h1 hc)) (raise _)
  | replace st e i r p a d u dc m =>
    have h : ∀ x ∈ st :: (a.toList ++ d.toList ++ u.toList), T x := hc
    refine replace hT (h _ List.mem_cons_self) _ _ _ _ (fun x hx => h x ?_) (fun x hx => h x ?_)
      (fun x hx => h x ?_) _ _ <;> subst hx <;> simp
  | newTree t => exact alloc hT (by simp [Cell.refs])

end Own
end JaxAct.Mem
