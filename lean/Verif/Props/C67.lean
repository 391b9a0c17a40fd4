import Verif.Props.C45
import Verif.Lemmas.HeapOwn
import Verif.Lemmas.HeapShare

/-! # C67 Objects cannot be changed through shared containers

C45 is about programs that only call methods.  Here programs also modify containers in place: the
dictionaries handed out, the pytrees passed in, the attributes of a saved state. -/

namespace JaxAct.Mem
variable {α : Type} [Arith α]

/-- The cells of `h` reachable from `E` are in `h'`, unmodified. -/
def Keeps (h h' : Heap α) (E : List Ref) : Prop :=
  ∀ r c, Reach h E r → h[r]? = some c → h'[r]? = some c

omit [Arith α] in
theorem viewTree_frame {h h' : Heap α} {E : List Ref} (e : Keeps h h' E) : ∀ {v : Val} {t},
    (∀ r, v = some r → Reach h E r) → viewTree h v = some t → viewTree h' v = some t
  | none, _, _, ht => ht
  | some r, _, hv, ht => by
    simp only [viewTree] at ht ⊢
    split at ht
    · next t' h1 => rw [e r _ (hv r rfl) h1]; exact ht
    · cases ht

omit [Arith α] in
theorem viewEntries_frame {h h' : Heap α} {E : List Ref} (e : Keeps h h' E) :
    ∀ {d : Dict Val} {D}, TDict (Reach h E) d → viewEntries h d = some D → viewEntries h' d = some D
  | [], _, _, hD => hD
  | (k, v) :: d, D, hd, hD => by
    obtain ⟨t, F, h1, h2, rfl⟩ := viewEntries_cons.1 hD
    exact viewEntries_cons.2 ⟨t, F, viewTree_frame e (hd k v List.mem_cons_self) h1,
      viewEntries_frame e (fun a b m => hd a b (List.mem_cons_of_mem _ m)) h2, rfl⟩

omit [Arith α] in
theorem viewDict_frame {h h' : Heap α} {E : List Ref} (e : Keeps h h' E) {r : Ref} {D}
    (hr : Reach h E r) (hD : viewDict h r = some D) : viewDict h' r = some D := by
  obtain ⟨d, h1, h2⟩ := viewDict_some.1 hD
  exact viewDict_some.2 ⟨d, e r _ hr h1,
    viewEntries_frame e (TDict.refs.2 fun x hx => hr.step h1 hx) h2⟩

omit [Arith α] in
theorem viewState_frame {h h' : Heap α} {E : List Ref} (e : Keeps h h' E) {r : Ref} {S}
    (hr : Reach h E r) (hS : viewState h r = some S) : viewState h' r = some S := by
  obtain ⟨s, d, a, u, h0, h1, h2, h3, rfl⟩ := viewState_some.1 hS
  exact viewState_some.2 ⟨s, d, a, u, e _ _ hr h0,
    viewDict_frame e (hr.step h0 (by simp [Cell.refs])) h1,
    viewDict_frame e (hr.step h0 (by simp [Cell.refs])) h2,
    viewDict_frame e (hr.step h0 (by simp [Cell.refs])) h3, rfl⟩

omit [Arith α] in
/-- What an object looks like depends on the cells reachable from it only. -/
theorem view_frame {h h' : Heap α} {x : Ref} (e : Keeps h h' [x]) {X}
    (hX : view h x = some X) : view h' x = some X := by
  obtain ⟨c, S⟩ := X
  obtain ⟨st, h1, h2⟩ := view_some.1 hX
  have hx : Reach h [x] x := .base List.mem_cons_self
  exact view_some.2 ⟨st, e x _ hx h1, viewState_frame e (hx.step h1 (by simp [Cell.refs])) h2⟩

/-- The invariant of a program: the references it holds are in the set, the set is closed, and the
cells outside are as they were. -/
structure Within (n : Nat) (T : Ref → Prop) (h0 : Heap α) (E : List Ref) (h : Heap α) : Prop where
  held : ∀ r ∈ E, T r
  closed : Inv T h
  len : n ≤ h.length
  same : ∀ r, ¬ T r → h[r]? = h0[r]?

theorem Within.step {n : Nat} {T : Ref → Prop} (hT : ∀ r, n ≤ r → T r) {h0 : Heap α}
    {E : List Ref} {h : Heap α} (w : Within n T h0 E h) (s : Step α) :
    Within n T h0 (s.run (E, h)).1 (s.run (E, h)).2 := by
  cases s with
  | call c =>
    simp only [Step.run]
    split
    · next hc =>
      have hc' : ∀ x ∈ c.refs, T x := fun x hx => w.held x (by simpa using List.all_eq_true.1 hc x hx)
      obtain ⟨o1, o2, o3⟩ := (Own.run hT c hc').all h w.len w.closed
      have hs := (Safe.run (n := n) c).all h w.len
      have same : ∀ r, ¬ T r → (c.run.exec h).2[r]? = h0[r]? := by
        intro r hr
        have hlt : r < n := by
          by_contra hge
          exact hr (hT r (Nat.le_of_not_lt hge))
        rw [hs.1 r hlt, w.same r hr]
      split
      · next r h' he =>
        rw [he] at o1 o2 o3 same
        refine ⟨fun x hx => ?_, o1, o2, same⟩
        rcases List.mem_cons.1 hx with rfl | hx
        · exact o3 _ rfl
        · exact w.held x hx
      · next e h' he =>
        rw [he] at o1 o2 same
        exact ⟨w.held, o1, o2, same⟩
    · exact w
  | look r =>
    simp only [Step.run]
    split
    · next hr =>
      split
      · next c hc =>
        refine ⟨fun x hx => ?_, w.closed, w.len, w.same⟩
        rcases List.mem_append.1 hx with hx | hx
        · exact w.closed r c (w.held r hr) hc x hx
        · exact w.held x hx
      · exact w
    · exact w
  | modify r c =>
    simp only [Step.run]
    split
    · next hr =>
      obtain ⟨hr, hc⟩ := hr
      split
      · next c0 h0' =>
        split
        · refine ⟨w.held, fun r' c' hr' hc' => ?_, by rw [List.length_set]; exact w.len, fun r' hr' => ?_⟩
          · rcases eq_or_ne r r' with rfl | hne
            · rw [List.getElem?_set_self', h0'] at hc'
              cases hc'
              exact fun x hx => w.held x (by simpa using List.all_eq_true.1 hc x hx)
            · rw [List.getElem?_set_ne hne] at hc'
              exact w.closed r' c' hr' hc'
          · rw [List.getElem?_set_ne (by rintro rfl; exact hr' (w.held _ hr))]
            exact w.same r' hr'
        · exact w
      · exact w
    · exact w

theorem Within.steps {n : Nat} {T : Ref → Prop} (hT : ∀ r, n ≤ r → T r) {h0 : Heap α} :
    ∀ (steps : List (Step α)) {E : List Ref} {h : Heap α}, Within n T h0 E h →
      Within n T h0 (runSteps steps (E, h)).1 (runSteps steps (E, h)).2
  | [], _, _, w => w
  | s :: ss, _, _, w => Within.steps hT ss (w.step hT s)

/-- C67, what holds.  A program that holds the references `E` calls methods, follows references and
modifies containers in place, in any order.  An object that shares no container with anything the
program can reach looks the same at the end. -/
theorem C67_separation_partial {h : Heap α} {E : List Ref} {x : Ref} {X : Cls × ACTStates α}
    (hX : view h x = some X) (hsep : ∀ r, Reach h E r → ¬ Reach h [x] r) (steps : List (Step α)) :
    view (runSteps steps (E, h)).2 x = some X := by
  have w : Within h.length (fun r => Reach h E r ∨ h.length ≤ r) h E h :=
    ⟨fun r hr => Or.inl (.base hr), fun r c hr hc y hy => by
      rcases hr with hr | hr
      · exact Or.inl (hr.step hc hy)
      · exact absurd (lt_of_some hc) (Nat.not_lt.2 hr), le_rfl, fun _ _ => rfl⟩
  have w' := Within.steps (fun r hr => Or.inr hr) steps w
  refine view_frame (fun r c hr hc => ?_) hX
  rw [w'.same r, hc]
  rintro (h1 | h1)
  · exact hsep r h1 hr
  · exact absurd (lt_of_some hc) (Nat.not_lt.2 h1)

/-! ### What the result of a method shares -/

section
variable {h : Heap α} {st self : Ref} {s : StateObj α} {cl : Cls}

/-- The condition on the state of the result. -/
abbrev Shares (h : Heap α) (st : Ref) (s : StateObj α) (t : Sharing) (st' : Ref) (s' : StateObj α) :
    Prop :=
  IsNew h t.state st st' ∧ IsNew h t.defaults s.defaults s'.defaults ∧
    IsNew h t.accumulators s.accumulators s'.accumulators ∧ IsNew h t.updates s.updates s'.updates

omit [Arith α] in
theorem transformRef_new (f : Tensor α → Res (Tensor α)) (r : Ref) :
    Safe h.length (Mem.transformRef f r) (fun r => h.length ≤ r) :=
  .bind (Safe.readDict _) fun _ _ => .bind (Safe.transformDict f _) fun _ _ => Safe.alloc _

omit [Arith α] in
theorem ends_transform (f : Tensor α → Res (Tensor α)) (hs : h[self]? = some (.obj cl (some st)))
    (hst : h[st]? = some (.state s)) :
    Ends h (Mem.transform self f) (Shares h st s ⟨true, true, true, true⟩) := by
  refine .getState hs (.readState hst (.bind
    (P := fun x => h.length ≤ x.2.2.2.1 ∧ h.length ≤ x.2.2.2.2.1 ∧ h.length ≤ x.2.2.2.2.2)
    (.tryRuntime (.bind (.pureRes _) fun _ _ => .bind (.pureRes _) fun _ _ =>
      .bind (.pureRes _) fun _ _ => .bind (transformRef_new f _) fun _ ha =>
      .bind (transformRef_new f _) fun _ hd => .bind (transformRef_new f _) fun _ hu =>
      .pure ⟨ha, hd, hu⟩)) fun ⟨_, _, _, _, _, _⟩ ⟨ha, hd, hu⟩ => ?_))
  exact .replaceObj hst _ _ _ _ _ _ _ _ fun st' s' h1 h2 h3 h4 =>
    ⟨h1, by rw [h2]; exact hd, by rw [h3]; exact ha, by rw [h4]; exact hu⟩

theorem ends_maskData (m : Tensor α) (hs : h[self]? = some (.obj cl (some st)))
    (hst : h[st]? = some (.state s)) :
    Ends h (Mem.maskData self m) (Shares h st s ⟨true, true, true, true⟩) :=
  .getState hs (.readState hst (.ite (.raise _) (.ite (.raise _) (ends_transform _ hs hst))))

omit [Arith α] in
theorem ends_define (name : String) (d : Val) (hs : h[self]? = some (.obj cl (some st)))
    (hst : h[st]? = some (.state s)) :
    Ends h (Mem.define self name d) (Shares h st s ⟨true, true, true, true⟩) := by
  refine .getState hs (.readState hst (.bind (Safe.readTree _) fun _ _ => .bind (Safe.pureRes _)
    fun _ _ => .bind (Safe.copyDict _) fun d hd => .bind (Safe.copyDict _) fun a ha =>
    .bind (Safe.copyDict _) fun u hu => .bind (Safe.setItem hd _ _) fun _ _ =>
    .bind (Safe.setItem ha _ _) fun _ _ => .bind (Safe.setItem hu _ _) fun _ _ => ?_))
  exact .replaceObj hst _ _ _ _ _ _ _ _ fun st' s' h1 h2 h3 h4 =>
    ⟨h1, by rw [h2]; exact hd, by rw [h3]; exact ha, by rw [h4]; exact hu⟩

/-- C67, what holds.  The result of a method shares the containers of the table, and the others are
new objects. -/
theorem C67_sharing_partial (c : Call α) {o : Source} {t : Sharing} (ht : c.sharing = some (o, t))
    (ho : o.holds h st) (hst : h[st]? = some (.state s)) {r : Ref}
    (hr : (c.run.exec h).1 = .ok r) : ∃ cls st' s',
      (c.run.exec h).2[r]? = some (.obj cls (some st')) ∧
      (c.run.exec h).2[st']? = some (.state s') ∧ Shares h st s t st' s' := by
  suffices hh : Ends h c.run (Shares h st s t) from hh h (Ext.refl h) le_rfl r hr
  cases c <;> cases ht
  case build => obtain ⟨cl, hs⟩ := ho; exact .getState hs (.newObj _ hst ⟨rfl, rfl, rfl, rfl⟩)
  case makeViewer => obtain ⟨cl, hs⟩ := ho; exact .getState hs (.newObj _ hst ⟨rfl, rfl, rfl, rfl⟩)
  case editController =>
    obtain ⟨cl, hs⟩ := ho
    exact .getState hs (.ite (.newObj _ hst ⟨rfl, rfl, rfl, rfl⟩) (.raise _))
  case loadController => obtain rfl := ho; exact .newObj _ hst ⟨rfl, rfl, rfl, rfl⟩
  case loadViewer => obtain rfl := ho; exact .newObj _ hst ⟨rfl, rfl, rfl, rfl⟩
  case editSave => obtain rfl := ho; exact .ite (.newObj _ hst ⟨rfl, rfl, rfl, rfl⟩) (.raise _)
  case setProbabilities =>
    obtain ⟨cl, hs⟩ := ho
    exact .getState hs (.readState hst (.bind (Safe.validate _ (.pure trivial)) fun _ _ =>
      .replaceEditor hst _ _ _ _ _ _ _ fun _ _ h1 h2 h3 h4 => ⟨h1, h2, h3, h4⟩))
  case setResiduals =>
    obtain ⟨cl, hs⟩ := ho
    exact .getState hs (.readState hst (.bind (Safe.validate _ (.pure trivial)) fun _ _ =>
      .replaceEditor hst _ _ _ _ _ _ _ fun _ _ h1 h2 h3 h4 => ⟨h1, h2, h3, h4⟩))
  case setIterations =>
    obtain ⟨cl, hs⟩ := ho
    exact .getState hs (.readState hst (.bind (Safe.validate _ (.pure trivial)) fun _ _ =>
      .replaceEditor hst _ _ _ _ _ _ _ fun _ _ h1 h2 h3 h4 => ⟨h1, h2, h3, h4⟩))
  case setEpsilon =>
    obtain ⟨cl, hs⟩ := ho
    exact .getState hs (.bind (Safe.validate _ (.pure trivial)) fun _ _ =>
      .replaceEditor hst _ _ _ _ _ _ _ fun _ _ h1 h2 h3 h4 => ⟨h1, h2, h3, h4⟩)
  case cacheUpdate =>
    obtain ⟨cl, hs⟩ := ho
    exact .getState hs (.readState hst (.bind (Safe.readDict _) fun _ _ => .ite (.raise _)
      (.bind (Safe.getItem _ _) fun _ _ => .bind (Safe.readTree _) fun _ _ => .ite (.raise _)
        (.bind (Safe.copyDict _) fun u hu => .bind (Safe.setItem hu _ _) fun _ _ =>
          .replaceObj hst _ _ _ _ _ _ _ _ fun _ _ h1 h2 h3 h4 =>
            ⟨h1, h2, h3, by rw [h4]; exact hu⟩))))
  case setUpdates =>
    obtain ⟨cl, hs⟩ := ho
    exact .getState hs (.readState hst (.bind (Safe.validate _ (Safe.checkUpdate ..)) fun _ _ =>
      .bind (Safe.copyDict _) fun u hu => .bind (Safe.setItem hu _ _) fun _ _ =>
      .replaceEditor hst _ _ _ _ _ _ _ fun _ _ h1 h2 h3 h4 => ⟨h1, h2, h3, by rw [h4]; exact hu⟩))
  case setAccumulator =>
    obtain ⟨cl, hs⟩ := ho
    exact .getState hs (.readState hst (.bind (Safe.validate _ (Safe.checkAgainstAccumulator ..))
      fun _ _ => .bind (Safe.copyDict _) fun u hu => .bind (Safe.setItem hu _ _) fun _ _ =>
      .replaceEditor hst _ _ _ _ _ _ _ fun _ _ h1 h2 h3 h4 => ⟨h1, h2, by rw [h3]; exact hu, h4⟩))
  case setDefaults =>
    obtain ⟨cl, hs⟩ := ho
    exact .getState hs (.readState hst (.bind (Safe.validate _ (Safe.checkAgainstAccumulator ..))
      fun _ _ => .bind (Safe.copyDict _) fun u hu => .bind (Safe.setItem hu _ _) fun _ _ =>
      .replaceEditor hst _ _ _ _ _ _ _ fun _ _ h1 h2 h3 h4 => ⟨h1, by rw [h2]; exact hu, h3, h4⟩))
  case resetBatches =>
    obtain ⟨cl, hs⟩ := ho
    exact .getState hs (.readState hst (.bind (Safe.readDict _) fun _ _ =>
      .bind (Safe.checkPending _) fun _ _ => .bind (Safe.pureRes _) fun _ _ =>
      .bind (Safe.pureRes _) fun _ _ => .bind (Safe.pureRes _) fun _ _ =>
      .bind (Safe.alloc _) fun a ha => .bind (Safe.readDict _) fun _ _ =>
      .bind (Safe.resetLoop _ _ _ ha _) fun _ _ =>
      .replaceObj hst _ _ _ _ _ _ _ _ fun _ _ h1 h2 h3 h4 => ⟨h1, h2, by rw [h3]; exact ha, h4⟩))
  case iterateAct =>
    obtain ⟨cl, hs⟩ := ho
    exact .getState hs (.readState hst (.ite (.raise _) (.bind (Safe.pureRes _) fun ⟨_, _, _⟩ _ =>
      .bind (Safe.copyDict _) fun a ha => .bind (Safe.copyDict _) fun u hu =>
      .bind (Safe.readDict _) fun _ _ => .bind (Safe.commitLoop _ _ ha hu _) fun _ _ =>
      .bind (Safe.pureRes _) fun _ _ =>
      .replaceObj hst _ _ _ _ _ _ _ _ fun _ _ h1 h2 h3 h4 =>
        ⟨h1, h2, by rw [h3]; exact ha, by rw [h4]; exact hu⟩)))
  case define => obtain ⟨cl, hs⟩ := ho; exact ends_define _ _ hs hst
  case defineByShape =>
    obtain ⟨cl, hs⟩ := ho
    exact .bind (Safe.pureRes _) fun _ _ => .bind (Safe.alloc _) fun _ _ => ends_define _ _ hs hst
  case deleteDefinition =>
    obtain ⟨cl, hs⟩ := ho
    exact .getState hs (.readState hst (.bind (Safe.copyDict _) fun d hd =>
      .bind (Safe.copyDict _) fun a ha => .bind (Safe.copyDict _) fun u hu =>
      .bind (Safe.popItem hd _) fun _ _ => .bind (Safe.popItem ha _) fun _ _ =>
      .bind (Safe.popItem hu _) fun _ _ =>
      .replaceObj hst _ _ _ _ _ _ _ _ fun st' s' h1 h2 h3 h4 =>
        ⟨h1, by rw [h2]; exact hd, by rw [h3]; exact ha, by rw [h4]; exact hu⟩))
  case transform => obtain ⟨cl, hs⟩ := ho; exact ends_transform _ hs hst
  case maskData => obtain ⟨cl, hs⟩ := ho; exact ends_maskData _ hs hst
  case unhaltedOnly =>
    obtain ⟨cl, hs⟩ := ho; exact .getState hs (.readState hst (ends_maskData _ hs hst))
  case haltedOnly =>
    obtain ⟨cl, hs⟩ := ho; exact .getState hs (.readState hst (ends_maskData _ hs hst))

/-- The attribute `state` of an object never changes. -/
theorem Step.run_obj {E : List Ref} {i : Ref} (hi : h[i]? = some (.obj cl (some st))) (x : Step α) :
    (x.run (E, h)).2[i]? = some (.obj cl (some st)) := by
  cases x with
  | call c =>
    have hc := (Safe.run (n := h.length) c).ext _ _ hi
    simp only [Step.run]
    split
    · split <;> next he => rw [he] at hc; exact hc
    · exact hi
  | look r =>
    simp only [Step.run]
    split
    · split <;> exact hi
    · exact hi
  | modify r c =>
    simp only [Step.run]
    split
    · split
      · next c0 h0 =>
        split
        · next hm =>
          rcases eq_or_ne r i with rfl | hne
          · rw [h0] at hi; cases hi; cases c <;> cases hm
          · show (h.set r c)[i]? = _
            rw [List.getElem?_set_ne hne]; exact hi
        · exact hi
      · exact hi
    · exact hi

theorem runSteps_obj {i : Ref} : ∀ (steps : List (Step α)) {E : List Ref} {h : Heap α},
    h[i]? = some (.obj cl (some st)) →
    (runSteps steps (E, h)).2[i]? = some (.obj cl (some st))
  | [], _, _, hi => hi
  | x :: xs, _, _, hi => runSteps_obj xs (Step.run_obj hi x)

/-- C67, what holds instead.  An object and the one made from it by `build`, `make_viewer` or
`edit_controller` have the same state for ever, whatever a program does: everything done to the
containers of one is done to the other. -/
theorem C67_same_state_partial (c : Call α) {t : Sharing} (ht : c.sharing = some (.obj self, t))
    (hn : t.state = false) (hs : h[self]? = some (.obj cl (some st)))
    (hst : h[st]? = some (.state s)) {r : Ref} (hr : (c.run.exec h).1 = .ok r) (E : List Ref)
    (steps : List (Step α)) :
    (view (runSteps steps (E, (c.run.exec h).2)).2 r).map (·.2) =
      (view (runSteps steps (E, (c.run.exec h).2)).2 self).map (·.2) := by
  obtain ⟨cls, st', s', h1, -, h3, -⟩ := C67_sharing_partial c ht ⟨cl, hs⟩ hst hr
  rw [hn] at h3
  obtain rfl : st' = st := h3
  have h2 := (Safe.run (n := h.length) c).ext _ _ hs
  simp only [view, runSteps_obj steps h1, runSteps_obj steps h2, Option.map_map]
  rfl

/-- C67, what holds.  New contents for a container of the result that the table calls new do not
change what any object that existed before looks like. -/
theorem C67_new_containers_partial (c : Call α) {o : Source} {t : Sharing}
    (ht : c.sharing = some (o, t)) (ho : o.holds h st) (hst : h[st]? = some (.state s)) {r : Ref}
    (hr : (c.run.exec h).1 = .ok r) : ∃ cls st' s',
      (c.run.exec h).2[r]? = some (.obj cls (some st')) ∧
      (c.run.exec h).2[st']? = some (.state s') ∧
      ∀ x X, view h x = some X → ∀ new : Cell α,
        (t.state = true → view ((c.run.exec h).2.set st' new) x = some X) ∧
        (t.defaults = true → view ((c.run.exec h).2.set s'.defaults new) x = some X) ∧
        (t.accumulators = true → view ((c.run.exec h).2.set s'.accumulators new) x = some X) ∧
        (t.updates = true → view ((c.run.exec h).2.set s'.updates new) x = some X) := by
  obtain ⟨cls, st', s', h1, h2, a, b, d, e⟩ := C67_sharing_partial c ht ho hst hr
  have hx := (Safe.run (n := h.length) c).ext
  refine ⟨cls, st', s', h1, h2, fun x X hX new => ⟨fun ht => ?_, fun ht => ?_, fun ht => ?_,
    fun ht => ?_⟩⟩
  · rw [ht] at a; exact view_ext (hx.set a new) hX
  · rw [ht] at b; exact view_ext (hx.set b new) hX
  · rw [ht] at d; exact view_ext (hx.set d new) hX
  · rw [ht] at e; exact view_ext (hx.set e new) hX

end

section Example
open Fixtures
attribute [local instance] Arith.exact

/-- Build a controller, take its dictionary of accumulators and empty it. -/
def emptied : List (Step ℚ) :=
  [.call (.build 5), .call (.accumulators 7), .modify 2 (.dict [])]

/-- C67 is false: a program that holds a builder and only touches what the controller built from it
hands out changes the builder. -/
theorem C67_false : ¬ ∀ (h : Heap ℚ) (x : Ref) (X : Cls × ACTStates ℚ) (steps : List (Step ℚ)),
    view h x = some X → view (runSteps steps ([x], h)).2 x = some X := by
  intro H
  have h1 := H heap0 5 (.builder, simple) emptied rfl
  have h2 : ((view (runSteps emptied ([5], heap0)).2 5).map fun x => x.2.accumulators.keys) =
      some [] := by decide +kernel
  rw [h1] at h2
  revert h2
  decide +kernel

/-- The builder then lacks the accumulator in one of its dictionaries. -/
example : ((view (runSteps emptied ([5], heap0)).2 5).map fun x =>
    (x.2.accumulators.keys, x.2.defaults.keys)) = some ([], ["out"]) := by decide +kernel

/-- The pytree passed to `cache_update` is kept by reference: modifying it changes the update that
was cached. -/
example :
    let steps : List (Step ℚ) := [.call (.build 5), .call (.cacheUpdate 7 "out" (some 6))]
    ((view (runSteps steps ([5, 6], heap0)).2 10).map fun x =>
      ACTStates.entry? x.2.updates "out" 0 [0, 0]) = some (some 3) ∧
    ((view (runSteps (steps ++ [.modify 6 (.tree (bare (col 8 8)))]) ([5, 6], heap0)).2 10).map fun x =>
      ACTStates.entry? x.2.updates "out" 0 [0, 0]) = some (some 8) := by decide +kernel

/-- The definition of an accumulator is one object in two dictionaries: modifying the accumulator in
place modifies the default. -/
example : ((view (runSteps [.call (.build 5), .call (.accumulators 7), .look 2,
      .modify 0 (.tree (bare (col 8 8)))] ([5], heap0)).2 7).map fun x =>
      (ACTStates.entry? x.2.accumulators "out" 0 [0, 0],
        ACTStates.entry? x.2.defaults "out" 0 [0, 0])) = some (some 8, some 8) := by decide +kernel

/-- A saved state is the state: assigning to its attribute changes the object it was saved from. -/
example : ((view (runSteps [.call (.save 5), .look 4, .modify 4 (.state
      { epsilon := 2, iterations := vec [0, 0], residuals := vec [0, 0],
        probabilities := vec [0, 0], defaults := 1, accumulators := 2, updates := 3,
        depression_constant := 1, error_mode := none })] ([5], heap0)).2 5).map fun x =>
      x.2.epsilon) = some 2 := by decide +kernel

/-- A second builder that shares nothing with the first. -/
def heap1 : Heap ℚ := heap0 ++
  [.tree (bare (col 0 0)), .dict [("out", some 7)], .dict [("out", some 7)], .dict [("out", none)],
    .state { epsilon := 1/10, iterations := vec [0, 0], residuals := vec [0, 0],
             probabilities := vec [0, 0], defaults := 8, accumulators := 9, updates := 10,
             depression_constant := 1, error_mode := none },
    .obj .builder (some 11)]

omit [Arith α] in
theorem reach_closed {h : Heap α} {E S : List Ref} (hE : ∀ r ∈ E, r ∈ S)
    (hS : S.all (fun r => match h[r]? with
      | some c => c.refs.all (· ∈ S)
      | none => true) = true) {r : Ref} (hr : Reach h E r) : r ∈ S := by
  induction hr with
  | base hr => exact hE _ hr
  | @step r r' c _ hc hm ih =>
    have := List.all_eq_true.1 hS r ih
    rw [hc] at this
    simpa using List.all_eq_true.1 this r' hm

/-- A program that holds the second builder cannot change the first. -/
example (steps : List (Step ℚ)) :
    view (runSteps steps ([12], heap1)).2 5 = some (.builder, simple) :=
  C67_separation_partial (by rfl) (fun r h1 h2 => by
    have a := reach_closed (S := [7, 8, 9, 10, 11, 12]) (by decide) (by decide +kernel) h1
    have b := reach_closed (S := [0, 1, 2, 3, 4, 5]) (by decide) (by decide +kernel) h2
    have : ∀ r ∈ ([7, 8, 9, 10, 11, 12] : List Ref), r ∉ ([0, 1, 2, 3, 4, 5] : List Ref) := by decide
    exact this r a b) steps

/-- The table applies to the builder of the example: its controller has the same state whatever is
done, here after the dictionary was emptied. -/
example : (view (runSteps [.modify 2 (.dict [])] ([2], ((Call.build 5).run.exec heap0).2)).2 7).map (·.2)
    = (view (runSteps [.modify 2 (.dict [])] ([2], ((Call.build 5).run.exec heap0).2)).2 5).map (·.2) :=
  C67_same_state_partial (cl := .builder) (st := 4) (.build 5) rfl rfl rfl rfl rfl [2] _

/-- `define_accumulator_directly` on the builder: the dictionary of accumulators is new. -/
example : ∃ cls st' s', ((Call.define 5 "more" (some 6)).run.exec heap0).2[11]? =
      some (.obj cls (some st')) ∧
    ((Call.define 5 "more" (some 6)).run.exec heap0).2[st']? = some (.state s') ∧
    ∀ x X, view heap0 x = some X → ∀ new : Cell ℚ,
      view (((Call.define 5 "more" (some 6)).run.exec heap0).2.set s'.accumulators new) x = some X := by
  obtain ⟨cls, st', s', h1, h2, h3⟩ := C67_new_containers_partial (st := 4)
    (Call.define 5 "more" (some 6)) rfl ⟨.builder, rfl⟩ rfl (r := 11) (h := heap0) (by rfl)
  exact ⟨cls, st', s', h1, h2, fun x X hX new => (h3 x X hX new).2.2.1 rfl⟩

end Example
end JaxAct.Mem
