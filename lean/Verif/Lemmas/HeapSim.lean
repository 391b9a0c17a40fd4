import Verif.Lemmas.HeapView

/-! # The heap methods compute what the value models compute -/

namespace JaxAct.Mem
variable {α : Type}

/-- The result is an object of class `c` with the state of the value computed. -/
abbrev Gives {γ : Type} (c : Cls) (g : γ → ACTStates α) (h : Heap α) (r : Ref) (w : γ) : Prop :=
  view h r = some (c, g w)

theorem sim_finish {γ : Type} {h : Heap α} {st : Ref} {s : StateObj α}
    (hst : h[st]? = some (.state s)) {e : Option α} {i r p : Option (Tensor α)}
    {a d u : Option Ref} {D A U : Dict (PyTree (Leaf α))}
    (hd : viewDict h (d.getD s.defaults) = some D)
    (ha : viewDict h (a.getD s.accumulators) = some A)
    (hu : viewDict h (u.getD s.updates) = some U) (c : Cls) {g : γ → ACTStates α} {w : γ}
    (hw : g w = { epsilon := e.getD s.epsilon
                  iterations := i.getD s.iterations
                  residuals := r.getD s.residuals
                  probabilities := p.getD s.probabilities
                  defaults := D
                  accumulators := A
                  updates := U
                  depression_constant := s.depression_constant
                  error_mode := s.error_mode }) :
    Sim h (do let state ← replace st e i r p a d u none none; newObj c state : M α Ref) (.ok w)
      (Gives c g) := by
  have e1 : (replace st e i r p a d u none none : M α Ref).exec h = (.ok h.length, h ++ [.state
      { epsilon := e.getD s.epsilon
        iterations := i.getD s.iterations
        residuals := r.getD s.residuals
        probabilities := p.getD s.probabilities
        defaults := d.getD s.defaults
        accumulators := a.getD s.accumulators
        updates := u.getD s.updates
        depression_constant := s.depression_constant
        error_mode := s.error_mode }]) := by
    unfold replace
    rw [exec_bind, exec_readState hst]
    rfl
  refine Sim.step e1 ?_
  unfold Sim
  rw [exec_newObj]
  refine view_some.2 ⟨h.length, get_last _, viewState_ext (Ext.append _ _) ?_⟩
  refine viewState_some.2 ⟨_, D, A, U, get_last _, viewDict_ext (Ext.append _ _) hd,
    viewDict_ext (Ext.append _ _) ha, viewDict_ext (Ext.append _ _) hu, ?_⟩
  rw [hw]
  rfl

variable [Arith α]

omit [Arith α] in
/-- Copying a dictionary and setting an entry of the copy. -/
theorem copy_set {h : Heap α} {r : Ref} {d : Dict Val} {D : Dict (PyTree (Leaf α))}
    (hr : h[r]? = some (.dict d)) (hd : viewEntries h d = some D) (k : String) {v : Val}
    {t : PyTree (Leaf α)} (hv : viewTree h v = some t) {γ δ : Type} {f : Ref → M α γ} {p : Res δ}
    {S : Heap α → γ → δ → Prop}
    (hf : ∀ h' r', Ext h h' → viewDict h' r' = some (D.set k t) → Sim h' (f r') p S) :
    Sim h (do let r' ← copyDict r; setItem r' k v; f r') p S := by
  refine Sim.step (exec_copyDict hr) (Sim.step (exec_setItem (get_last _) _ _) (hf _ _ ?_ ?_))
  · exact (Ext.append h _).set le_rfl _
  · refine viewDict_some.2 ⟨d.set k v, ?_, ?_⟩
    · rw [List.getElem?_set_self (by simp)]
    · have e := Ext.append h [.dict d]
      exact viewEntries_set (viewTree_set (get_last _) (viewTree_ext e hv))
        (viewEntries_congr (fun _ _ => viewTree_set (get_last _)) (viewEntries_ext e hd))

omit [Arith α] in
theorem cacheUpdate_sim {h : Heap α} {self : Ref} {cls : Cls} {S : ACTStates α}
    (hself : view h self = some (cls, S)) (name : String) {item : Val} {t : PyTree (Leaf α)}
    (hitem : viewTree h item = some t) :
    Sim h (cacheUpdate self name item) ((Controller.mk S).cacheUpdate name t)
      (Gives .controller Controller.state) := by
  obtain ⟨st, h1, h2⟩ := view_some.1 hself
  obtain ⟨s, D, A, U, h3, h4, h5, h6, rfl⟩ := viewState_some.1 h2
  obtain ⟨u, h7, h8⟩ := viewDict_some.1 h6
  refine Sim.step (exec_getState h1) (Sim.step (exec_readState h3) (Sim.step (exec_readDict h7) ?_))
  rw [viewEntries_mem h8]
  refine Sim.ite (fun _ => Sim.raise _) fun hm => ?_
  rcases viewEntries_get? h8 name with ⟨v, cur, g1, g2, g3⟩ | ⟨g1, g2⟩
  swap
  · exact absurd (by simp [Dict.mem, g2]) hm
  have e1 : (getItem s.updates name : M α _).exec h = (.ok v, h) := by
    rw [exec_getItem h7]; unfold Dict.getItem; rw [g1]
  refine Sim.step e1 (Sim.step (exec_readTree g3) ?_)
  have e2 : Dict.getItem (s.value D A U).updates name = .ok cur := by
    show Dict.getItem U name = .ok cur
    unfold Dict.getItem
    rw [g2]
  rw [e2]
  refine Sim.ite (fun _ => Sim.raise _) fun _ => ?_
  refine copy_set h7 h8 name hitem fun h' r' e hr' => ?_
  exact sim_finish (e _ _ h3) (d := none) (a := none) (u := some r') (viewDict_ext e h4)
    (viewDict_ext e h5) hr' _ rfl

/-! ### Looking up and setting -/

omit [Arith α] in
theorem getItem_sim {h : Heap α} {r : Ref} {D : Dict (PyTree (Leaf α))}
    (hr : viewDict h r = some D) (k : String) :
    Sim h (getItem r k : M α _) (D.getItem k) (fun h' v t => h' = h ∧ viewTree h v = some t) := by
  obtain ⟨d, h1, h2⟩ := viewDict_some.1 hr
  unfold Sim
  rw [exec_getItem h1]
  unfold Dict.getItem
  rcases viewEntries_get? h2 k with ⟨v, t, g1, g2, g3⟩ | ⟨g1, g2⟩ <;> rw [g1, g2]
  exact ⟨rfl, g3⟩

/-- What setting an entry of a dictionary does. -/
structure Stored (h h' : Heap α) (r : Ref) (D : Dict (PyTree (Leaf α))) : Prop where
  self : viewDict h' r = some D
  other : ∀ r' E, r' ≠ r → viewDict h r' = some E → viewDict h' r' = some E
  tree : ∀ v t, viewTree h v = some t → viewTree h' v = some t
  old : ∀ h0 : Heap α, Ext h0 h → h0.length ≤ r → Ext h0 h'

omit [Arith α] in
theorem stored_of {h : Heap α} {r : Ref} {d d' : Dict Val} {D' : Dict (PyTree (Leaf α))}
    (h1 : h[r]? = some (.dict d)) (h2 : viewEntries h d' = some D') :
    Stored h (h.set r (.dict d')) r D' where
  self := viewDict_some.2 ⟨d', by rw [List.getElem?_set_self (lt_of_some h1)],
    viewEntries_congr (fun _ _ => viewTree_set h1) h2⟩
  other r' E hne hE := by
    obtain ⟨e, g1, g2⟩ := viewDict_some.1 hE
    exact viewDict_some.2 ⟨e, by rw [List.getElem?_set_ne (Ne.symm hne)]; exact g1,
      viewEntries_congr (fun _ _ => viewTree_set h1) g2⟩
  tree _ _ := viewTree_set h1
  old _ e hle := e.set hle _

omit [Arith α] in
theorem setItem_spec {h : Heap α} {r : Ref} {D : Dict (PyTree (Leaf α))}
    (hr : viewDict h r = some D) (k : String) {v : Val} {t : PyTree (Leaf α)}
    (hv : viewTree h v = some t) :
    ∃ h', (setItem r k v : M α _).exec h = (.ok (), h') ∧ Stored h h' r (D.set k t) := by
  obtain ⟨d, h1, h2⟩ := viewDict_some.1 hr
  exact ⟨_, exec_setItem h1 k v, stored_of h1 (viewEntries_set hv h2)⟩

omit [Arith α] in
theorem popItem_sim {h : Heap α} {r : Ref} {D : Dict (PyTree (Leaf α))}
    (hr : viewDict h r = some D) (k : String) :
    Sim h (popItem r k : M α _) (D.pop k) (fun h' _ D' => Stored h h' r D') := by
  obtain ⟨d, h1, h2⟩ := viewDict_some.1 hr
  unfold Sim M.exec popItem
  rw [h1]
  simp only
  unfold Dict.pop
  rw [viewEntries_mem h2]
  by_cases hm : D.mem k = true
  · rw [if_pos hm, if_pos hm]
    exact stored_of h1 (viewEntries_erase h2)
  · rw [if_neg hm, if_neg hm]

omit [Arith α] in
theorem copyDict_spec {h : Heap α} {r : Ref} {D : Dict (PyTree (Leaf α))}
    (hr : viewDict h r = some D) :
    ∃ h', (copyDict r : M α _).exec h = (.ok h.length, h') ∧ Ext h h' ∧
      viewDict h' h.length = some D ∧ h'.length = h.length + 1 := by
  obtain ⟨d, h1, h2⟩ := viewDict_some.1 hr
  exact ⟨_, exec_copyDict h1, Ext.append _ _, viewDict_some.2 ⟨d, get_last _,
    viewEntries_ext (Ext.append _ _) h2⟩, by simp⟩

/-! ### Controller -/

/-- The two dictionaries being filled in by `iterate_act`. -/
structure Filling (h0 h : Heap α) (a u : Ref) (A U : Dict (PyTree (Leaf α))) : Prop where
  ext : Ext h0 h
  ha : h0.length ≤ a
  hu : h0.length ≤ u
  ne : a ≠ u
  va : viewDict h a = some A
  vu : viewDict h u = some U

theorem commitBody_sim {h0 h : Heap α} {a u : Ref} {A U : Dict (PyTree (Leaf α))}
    (hf : Filling h0 h a u A U) (c : Controller α) (halting : Tensor α) (name : String) :
    Sim h (commitBody c halting a u name) (c.commitOne halting A U name)
      (fun h' _ t => Filling h0 h' a u (A.set name t) (U.set name .none)) := by
  refine Sim.bind (getItem_sim hf.va name) ?_
  rintro _ va ta ⟨rfl, hva⟩
  refine Sim.bind (getItem_sim hf.vu name) ?_
  rintro h vu tu ⟨rfl, hvu⟩
  refine Sim.step (exec_readTree hva) (Sim.step (exec_readTree hvu) ?_)
  refine Sim.ite (fun _ => Sim.raise _) fun _ => ?_
  refine Sim.bindR (Sim.pureRes _ _) ?_
  rintro h t _ ⟨rfl, rfl⟩
  refine Sim.step (exec_alloc _) ?_
  have e := Ext.append h [.tree t]
  obtain ⟨h1, x1, s1⟩ := setItem_spec (viewDict_ext e hf.va) name (v := some h.length) (t := t)
    (by simp [viewTree])
  refine Sim.step x1 ?_
  obtain ⟨h2, x2, s2⟩ := setItem_spec (s1.other u U hf.ne.symm (viewDict_ext e hf.vu)) name
    (v := none) (t := .none) rfl
  unfold Sim
  rw [x2]
  exact ⟨s2.old _ (s1.old _ (hf.ext.trans e) hf.ha) hf.hu, hf.ha, hf.hu, hf.ne,
    s2.other _ _ hf.ne s1.self, s2.self⟩

theorem commitLoop_sim {h0 : Heap α} {a u : Ref} (c : Controller α) (halting : Tensor α) :
    ∀ (names : List String) {h : Heap α} {A U : Dict (PyTree (Leaf α))}, Filling h0 h a u A U →
    Sim h (commitLoop c halting a u names) (c.commitLoop halting names A U)
      (fun h' _ AU => Filling h0 h' a u AU.1 AU.2)
  | [], _, _, _, hf => hf
  | name :: names, h, A, U, hf => by
    have e : c.commitLoop halting (name :: names) A U =
        (wrapRuntime (c.commitOne halting A U name) >>= fun t =>
          c.commitLoop halting names (A.set name t) (U.set name .none)) := by
      rw [Controller.commitLoop]
      cases wrapRuntime (c.commitOne halting A U name) <;> rfl
    rw [e]
    refine Sim.bind (Sim.tryRuntime (commitBody_sim hf c halting name)) ?_
    intro h' _ t hf'
    exact commitLoop_sim c halting names hf'

theorem commitLoop_core (s : StateObj α) (D A U : Dict (PyTree (Leaf α))) (halting : Tensor α) :
    ∀ (names : List String) (A' U' : Dict (PyTree (Leaf α))),
    (Controller.mk (s.value D A U)).commitLoop halting names A' U' =
      (Controller.mk s.core).commitLoop halting names A' U'
  | [], _, _ => rfl
  | name :: names, A', U' => by
    have e : (Controller.mk (s.value D A U)).commitOne halting A' U' name =
      (Controller.mk s.core).commitOne halting A' U' name := rfl
    simp only [Controller.commitLoop, e]
    split
    · rfl
    · exact commitLoop_core s D A U halting names _ _

theorem iterateAct_sim {h : Heap α} {self : Ref} {cls : Cls} {S : ACTStates α}
    (hself : view h self = some (cls, S)) (halting : Tensor α) :
    Sim h (iterateAct self halting) ((Controller.mk S).iterateAct halting)
      (Gives .controller Controller.state) := by
  obtain ⟨st, h1, h2⟩ := view_some.1 hself
  obtain ⟨s, D, A, U, h3, h4, h5, h6, rfl⟩ := viewState_some.1 h2
  refine Sim.step (exec_getState h1) (Sim.step (exec_readState h3) ?_)
  refine Sim.ite (fun _ => Sim.raise _) fun _ => ?_
  refine Sim.bind (Sim.pureRes _ _) ?_
  rintro _ ⟨halt, res, prob⟩ _ ⟨rfl, rfl⟩
  obtain ⟨ha, xa, ea, va, la⟩ := copyDict_spec h5
  obtain ⟨hu, xu, eu, vu, lu⟩ := copyDict_spec (viewDict_ext ea h6)
  refine Sim.step xa (Sim.step xu ?_)
  obtain ⟨da, g1, g2⟩ := viewDict_some.1 (viewDict_ext eu va)
  refine Sim.step (exec_readDict g1) ?_
  rw [viewEntries_keys g2]
  have hf : Filling _ hu _ ha.length A U :=
    ⟨ea.trans eu, le_rfl, by omega, Nat.ne_of_lt (by omega), viewDict_ext eu va, vu⟩
  simp only [commitLoop_core]
  refine Sim.bind (commitLoop_sim _ halt A.keys hf) ?_
  rintro h' _ ⟨A', U'⟩ hf'
  refine Sim.bind (Sim.pureRes _ _) ?_
  rintro _ it _ ⟨rfl, rfl⟩
  exact sim_finish (hf'.ext _ _ h3) (d := none) (a := some _) (u := some _)
    (viewDict_ext hf'.ext h4) hf'.va hf'.vu _ rfl

omit [Arith α] in
theorem checkPending_exec {h : Heap α} : ∀ {d : Dict Val} {D : Dict (PyTree (Leaf α))},
    viewEntries h d = some D → (checkPending d : M α _).exec h =
      (if D.any fun kv => !kv.2.isNone then .error .runtimeError else .ok (), h)
  | [], D, hd => by cases hd; rfl
  | (k, v) :: d, D, hd => by
    obtain ⟨t, E, h1, h2, rfl⟩ := viewEntries_cons.1 hd
    unfold checkPending
    rw [exec_bind, exec_readTree h1]
    have e : (List.any ((k, t) :: E) fun kv => !kv.2.isNone) =
        ((!t.isNone) || E.any fun kv => !kv.2.isNone) := rfl
    rw [e]
    by_cases ht : t.isNone = true
    · have e2 : ((!t.isNone) || E.any fun kv => !kv.2.isNone) = E.any fun kv => !kv.2.isNone := by
        rw [ht]; rfl
      rw [e2]
      simp only [ht, not_true_eq_false, if_false]
      exact checkPending_exec h2
    · have e2 : ((!t.isNone) || E.any fun kv => !kv.2.isNone) = true := by
        rw [Bool.eq_false_iff.2 ht]; rfl
      rw [e2]
      simp only [if_true, if_pos ht]
      rfl

omit [Arith α] in
theorem resetLoop_sim {h0 : Heap α} {accs defs out : Ref} (unhalted : Arr Bool)
    {A D : Dict (PyTree (Leaf α))} (ha : viewDict h0 accs = some A)
    (hd : viewDict h0 defs = some D) (ho : h0.length ≤ out) :
    ∀ (rest : Dict (PyTree (Leaf α))) {h : Heap α} {O : Dict (PyTree (Leaf α))},
    (∀ kv ∈ rest, A.get? kv.1 = some kv.2) → Ext h0 h → viewDict h out = some O →
    Sim h (resetLoop unhalted accs defs out (Dict.keys rest))
      (Controller.resetLoop unhalted D rest O)
      (fun h' _ O' => Ext h0 h' ∧ viewDict h' out = some O')
  | [], h, O, _, e, hO => ⟨e, hO⟩
  | (name, acc) :: rest, h, O, hin, e, hO => by
    have g1 : A.get? name = some acc := hin (name, acc) (by simp)
    obtain ⟨dA, g2, g3⟩ := viewDict_some.1 (viewDict_ext e ha)
    rcases viewEntries_get? g3 name with ⟨v, t, g4, g5, g6⟩ | ⟨g4, g5⟩
    swap
    · rw [g1] at g5; cases g5
    rw [g1] at g5; cases g5
    have x1 : (getItem accs name : M α _).exec h = (.ok v, h) := by
      rw [exec_getItem g2]; unfold Dict.getItem; rw [g4]
    refine Sim.step x1 ?_
    refine Sim.bind (getItem_sim (viewDict_ext e hd) name) ?_
    rintro _ vd td ⟨rfl, hvd⟩
    refine Sim.step (exec_readTree g6) (Sim.step (exec_readTree hvd) ?_)
    refine Sim.bind (Sim.pureRes _ _) ?_
    rintro h t _ ⟨rfl, rfl⟩
    refine Sim.step (exec_alloc _) ?_
    have e' := Ext.append h [.tree t]
    obtain ⟨h1, x2, s1⟩ := setItem_spec (viewDict_ext e' hO) name (v := some h.length) (t := t)
      (by simp [viewTree])
    refine Sim.step x2 ?_
    exact resetLoop_sim unhalted ha hd ho rest (fun kv hkv => hin kv (by simp [hkv]))
      (s1.old _ (e.trans e') ho) s1.self

theorem get?_of_mem_nodup {V : Type} : ∀ {d : Dict V}, d.WF → ∀ kv ∈ d, d.get? kv.1 = some kv.2
  | [], _, _, h => by cases h
  | (k, v) :: d, hw, kv, h => by
    rcases List.mem_cons.1 h with rfl | h
    · simp [Dict.get?]
    · have hw' : (k :: Dict.keys d).Nodup := hw
      have hk : k ≠ kv.1 := by
        intro hk
        exact (List.nodup_cons.1 hw').1 (List.mem_map.2 ⟨kv, h, hk.symm⟩)
      simp only [Dict.get?, if_neg hk]
      exact get?_of_mem_nodup (List.nodup_cons.1 hw').2 kv h

theorem resetBatches_sim {h : Heap α} {self : Ref} {cls : Cls} {S : ACTStates α}
    (hself : view h self = some (cls, S)) (hwf : S.accumulators.WF) :
    Sim h (resetBatches self) ((Controller.mk S).resetBatches)
      (Gives .controller Controller.state) := by
  obtain ⟨st, h1, h2⟩ := view_some.1 hself
  obtain ⟨s, D, A, U, h3, h4, h5, h6, rfl⟩ := viewState_some.1 h2
  obtain ⟨u, h7, h8⟩ := viewDict_some.1 h6
  refine Sim.step (exec_getState h1) (Sim.step (exec_readState h3) (Sim.step (exec_readDict h7) ?_))
  unfold Controller.resetBatches
  have hp := checkPending_exec h8
  by_cases hany : (U.any fun kv => !kv.2.isNone) = true
  · rw [if_pos hany] at hp
    rw [if_pos (by exact hany)]
    unfold Sim
    rw [exec_bind, hp]
  · rw [if_neg hany] at hp
    rw [if_neg (by exact hany)]
    refine Sim.step hp ?_
    refine Sim.bind (Sim.pureRes _ _) ?_
    rintro _ it _ ⟨rfl, rfl⟩
    refine Sim.bind (Sim.pureRes _ _) ?_
    rintro _ pr _ ⟨rfl, rfl⟩
    refine Sim.bind (Sim.pureRes _ _) ?_
    rintro h re _ ⟨rfl, rfl⟩
    refine Sim.step (exec_alloc _) ?_
    have e := Ext.append h [.dict []]
    obtain ⟨da, g1, g2⟩ := viewDict_some.1 (viewDict_ext e h5)
    refine Sim.step (exec_readDict g1) ?_
    rw [viewEntries_keys g2]
    refine Sim.bind (resetLoop_sim _ h5 h4 le_rfl A (get?_of_mem_nodup hwf) e
      (viewDict_some.2 ⟨[], get_last _, rfl⟩)) ?_
    rintro h' _ A' ⟨e', hA'⟩
    exact sim_finish (e' _ _ h3) (d := none) (a := some _) (u := none)
      (viewDict_ext e' h4) hA' (viewDict_ext e' h6) _ rfl

omit [Arith α] in
/-- Making another object with the same state: `make_viewer`, `build`, `edit_controller`. -/
theorem share_sim {h : Heap α} {self : Ref} {cls : Cls} {S : ACTStates α}
    (hself : view h self = some (cls, S)) (c : Cls) {γ : Type} {g : γ → ACTStates α} {w : γ}
    (hw : g w = S) :
    Sim h (do let st ← getState self; newObj c st : M α Ref) (.ok w) (Gives c g) := by
  obtain ⟨st, h1, h2⟩ := view_some.1 hself
  refine Sim.step (exec_getState h1) ?_
  unfold Sim
  rw [exec_newObj]
  rw [← hw] at h2
  exact view_some.2 ⟨st, get_last _, viewState_ext (Ext.append _ _) h2⟩

/-! ### Builder -/

omit [Arith α] in
theorem define_sim {h : Heap α} {self : Ref} {cls : Cls} {S : ACTStates α}
    (hself : view h self = some (cls, S)) (name : String) {d : Val} {t : PyTree (Leaf α)}
    (hd : viewTree h d = some t) :
    Sim h (define self name d) ((Builder.mk S).define name t) (Gives .builder Builder.state) := by
  obtain ⟨st, h1, h2⟩ := view_some.1 hself
  obtain ⟨s, D, A, U, h3, h4, h5, h6, rfl⟩ := viewState_some.1 h2
  refine Sim.step (exec_getState h1) (Sim.step (exec_readState h3) (Sim.step (exec_readTree hd) ?_))
  refine Sim.bind (Sim.pureRes _ _) ?_
  rintro h _ _ ⟨rfl, rfl⟩
  obtain ⟨hD, xD, eD, vD, lD⟩ := copyDict_spec h4
  obtain ⟨hA, xA, eA, vA, lA⟩ := copyDict_spec (viewDict_ext eD h5)
  obtain ⟨hU, xU, eU, vU, lU⟩ := copyDict_spec (viewDict_ext (eD.trans eA) h6)
  refine Sim.step xD (Sim.step xA (Sim.step xU ?_))
  have e := (eD.trans eA).trans eU
  have n1 : h.length ≠ hD.length := by omega
  have n2 : h.length ≠ hA.length := by omega
  have n3 : hD.length ≠ hA.length := by omega
  obtain ⟨k1, y1, s1⟩ := setItem_spec (viewDict_ext (eA.trans eU) vD) name (viewTree_ext e hd)
  obtain ⟨k2, y2, s2⟩ := setItem_spec (s1.other _ _ n1.symm (viewDict_ext eU vA)) name
    (s1.tree _ _ (viewTree_ext e hd))
  obtain ⟨k3, y3, s3⟩ := setItem_spec (s2.other _ _ n3.symm (s1.other _ _ n2.symm vU)) name
    (v := none) (t := .none) rfl
  refine Sim.step y1 (Sim.step y2 (Sim.step y3 ?_))
  have e3 : Ext h k3 := s3.old _ (s2.old _ (s1.old _ e le_rfl) (by omega)) (by omega)
  exact sim_finish (e3 _ _ h3) (d := some _) (a := some _) (u := some _)
    (s3.other _ _ n2 (s2.other _ _ n1 s1.self)) (s3.other _ _ n3 s2.self)
    s3.self _ rfl

omit [Arith α] in
theorem deleteDefinition_sim {h : Heap α} {self : Ref} {cls : Cls} {S : ACTStates α}
    (hself : view h self = some (cls, S)) (name : String) :
    Sim h (deleteDefinition self name) ((Builder.mk S).deleteDefinition name)
      (Gives .builder Builder.state) := by
  obtain ⟨st, h1, h2⟩ := view_some.1 hself
  obtain ⟨s, D, A, U, h3, h4, h5, h6, rfl⟩ := viewState_some.1 h2
  refine Sim.step (exec_getState h1) (Sim.step (exec_readState h3) ?_)
  obtain ⟨hD, xD, eD, vD, lD⟩ := copyDict_spec h4
  obtain ⟨hA, xA, eA, vA, lA⟩ := copyDict_spec (viewDict_ext eD h5)
  obtain ⟨hU, xU, eU, vU, lU⟩ := copyDict_spec (viewDict_ext (eD.trans eA) h6)
  refine Sim.step xD (Sim.step xA (Sim.step xU ?_))
  have e := (eD.trans eA).trans eU
  have n1 : h.length ≠ hD.length := by omega
  have n2 : h.length ≠ hA.length := by omega
  have n3 : hD.length ≠ hA.length := by omega
  refine Sim.bind (popItem_sim (viewDict_ext (eA.trans eU) vD) name) ?_
  intro k1 _ D' s1
  refine Sim.bind (popItem_sim (s1.other _ _ n1.symm (viewDict_ext eU vA)) name) ?_
  intro k2 _ A' s2
  refine Sim.bind (popItem_sim (s2.other _ _ n3.symm (s1.other _ _ n2.symm vU)) name) ?_
  intro k3 _ U' s3
  have e3 : Ext h k3 := s3.old _ (s2.old _ (s1.old _ e le_rfl) (by omega)) (by omega)
  exact sim_finish (e3 _ _ h3) (d := some _) (a := some _) (u := some _)
    (s3.other _ _ n2 (s2.other _ _ n1 s1.self)) (s3.other _ _ n3 s2.self)
    s3.self _ rfl

theorem defineByShape_sim {h : Heap α} {self : Ref} {cls : Cls} {S : ACTStates α}
    (hself : view h self = some (cls, S)) (name : String) (shapes : PyTree ShapeItem)
    (dtype : DType) (fill : α) :
    Sim h (defineByShape self name shapes dtype fill)
      ((Builder.mk S).defineAccumulatorByShape name shapes dtype fill)
      (Gives .builder Builder.state) := by
  refine Sim.bind (Sim.pureRes _ _) ?_
  rintro h t _ ⟨rfl, rfl⟩
  refine Sim.step (exec_alloc _) ?_
  exact define_sim (view_ext (Ext.append _ _) hself) name (by simp [viewTree])

theorem newBuilder_sim (h : Heap α) (batchShape : List Nat) (coreDtype : Option DType)
    (epsilon depression : α) :
    Sim h (newBuilder batchShape coreDtype epsilon depression)
      (Builder.newBuilder batchShape coreDtype epsilon depression)
      (Gives .builder Builder.state) := by
  refine Sim.ite (fun _ => Sim.raise _) fun _ => Sim.ite (fun _ => Sim.raise _) fun _ => ?_
  exact Sim.step (exec_alloc _) (Sim.step (exec_alloc _) (Sim.step (exec_alloc _) (Sim.raise _)))

/-! ### Viewer -/

omit [Arith α] in
theorem transformDict_sim (f : Tensor α → Res (Tensor α)) {h0 : Heap α} :
    ∀ {d : Dict Val} {D : Dict (PyTree (Leaf α))}, viewEntries h0 d = some D →
    ∀ {h : Heap α}, Ext h0 h →
    Sim h (transformDict f d) (Dict.mapM (PyTree.treeMap (Viewer.onLeaf f)) D)
      (fun h' d' D' => Ext h h' ∧ viewEntries h' d' = some D')
  | [], D, hd, h, e => by cases hd; exact ⟨Ext.refl _, rfl⟩
  | (k, v) :: d, D, hd, h, e => by
    obtain ⟨t, E, h1, h2, rfl⟩ := viewEntries_cons.1 hd
    refine Sim.step (exec_readTree (viewTree_ext e h1)) ?_
    refine Sim.bind (Sim.pureRes _ _) ?_
    rintro h t _ ⟨rfl, rfl⟩
    refine Sim.step (exec_alloc _) ?_
    have e' := Ext.append h [.tree t]
    refine Sim.bind (transformDict_sim f h2 (e.trans e')) ?_
    rintro h' d' D' ⟨e'', hd'⟩
    refine ⟨e'.trans e'', viewEntries_cons.2 ⟨t, D', viewTree_ext e'' ?_, hd', rfl⟩⟩
    simp [viewTree]

omit [Arith α] in
theorem transformRef_sim (f : Tensor α → Res (Tensor α)) {h0 h : Heap α} (e : Ext h0 h) {r : Ref}
    {D : Dict (PyTree (Leaf α))} (hr : viewDict h0 r = some D) :
    Sim h (transformRef f r) (Dict.mapM (PyTree.treeMap (Viewer.onLeaf f)) D)
      (fun h' r' D' => Ext h h' ∧ viewDict h' r' = some D') := by
  obtain ⟨d, h1, h2⟩ := viewDict_some.1 hr
  refine Sim.step (exec_readDict (e _ _ h1)) ?_
  refine Sim.bindR (transformDict_sim f h2 e) ?_
  rintro h' d' D' ⟨e', hd'⟩
  exact ⟨e'.trans (Ext.append _ _), viewDict_some.2 ⟨d', get_last _,
    viewEntries_ext (Ext.append _ _) hd'⟩⟩

omit [Arith α] in
theorem transform_sim {h : Heap α} {self : Ref} {cls : Cls} {S : ACTStates α}
    (hself : view h self = some (cls, S)) (f : Tensor α → Res (Tensor α)) :
    Sim h (transform self f) ((Viewer.mk S).transform f) (Gives .viewer Viewer.state) := by
  obtain ⟨st, h1, h2⟩ := view_some.1 hself
  obtain ⟨s, D, A, U, h3, h4, h5, h6, rfl⟩ := viewState_some.1 h2
  refine Sim.step (exec_getState h1) (Sim.step (exec_readState h3) ?_)
  refine Sim.bind (R := fun h' x y => Ext h h' ∧ x.1 = y.1 ∧ x.2.1 = y.2.1 ∧ x.2.2.1 = y.2.2.1 ∧
    viewDict h' x.2.2.2.1 = some y.2.2.2.1 ∧ viewDict h' x.2.2.2.2.1 = some y.2.2.2.2.1 ∧
    viewDict h' x.2.2.2.2.2 = some y.2.2.2.2.2) (Sim.tryRuntime ?_) ?_
  · refine Sim.bind (Sim.pureRes _ _) ?_
    rintro _ it _ ⟨rfl, rfl⟩
    refine Sim.bind (Sim.pureRes _ _) ?_
    rintro _ re _ ⟨rfl, rfl⟩
    refine Sim.bind (Sim.pureRes _ _) ?_
    rintro h pr _ ⟨rfl, rfl⟩
    refine Sim.bind (transformRef_sim f (Ext.refl _) h5) ?_
    rintro k1 a A' ⟨e1, v1⟩
    refine Sim.bind (transformRef_sim f e1 h4) ?_
    rintro k2 d D' ⟨e2, v2⟩
    refine Sim.bind (transformRef_sim f (e1.trans e2) h4) ?_
    rintro k3 u U' ⟨e3, v3⟩
    exact ⟨(e1.trans e2).trans e3, rfl, rfl, rfl, viewDict_ext (e2.trans e3) v1,
      viewDict_ext e3 v2, v3⟩
  · rintro h' ⟨it, re, pr, a, d, u⟩ ⟨_, _, _, A', D', U'⟩ ⟨e, rfl, rfl, rfl, va, vd, vu⟩
    exact sim_finish (e _ _ h3) (d := some _) (a := some _) (u := some _) vd va vu _ rfl

theorem maskData_sim {h : Heap α} {self : Ref} {cls : Cls} {S : ACTStates α}
    (hself : view h self = some (cls, S)) (mask : Tensor α) :
    Sim h (maskData self mask) ((Viewer.mk S).maskData mask) (Gives .viewer Viewer.state) := by
  obtain ⟨st, h1, h2⟩ := view_some.1 hself
  obtain ⟨s, D, A, U, h3, h4, h5, h6, hS⟩ := viewState_some.1 h2
  refine Sim.step (exec_getState h1) (Sim.step (exec_readState h3) ?_)
  refine Sim.ite (fun _ => Sim.raise _) fun _ => ?_
  have hp : S.probabilities = s.probabilities := by rw [hS]; rfl
  rw [← hp]
  exact Sim.ite (fun _ => Sim.raise _) fun _ => transform_sim hself _

theorem unhaltedOnly_sim {h : Heap α} {self : Ref} {cls : Cls} {S : ACTStates α}
    (hself : view h self = some (cls, S)) :
    Sim h (unhaltedOnly self) ((Viewer.mk S).unhaltedOnly) (Gives .viewer Viewer.state) := by
  obtain ⟨st, h1, h2⟩ := view_some.1 hself
  obtain ⟨s, D, A, U, h3, h4, h5, h6, hS⟩ := viewState_some.1 h2
  refine Sim.step (exec_getState h1) (Sim.step (exec_readState h3) ?_)
  have hp : (Viewer.mk s.core).haltedBatches = (Viewer.mk S).haltedBatches := by rw [hS]; rfl
  rw [hp]
  exact maskData_sim hself _

theorem haltedOnly_sim {h : Heap α} {self : Ref} {cls : Cls} {S : ACTStates α}
    (hself : view h self = some (cls, S)) :
    Sim h (haltedOnly self) ((Viewer.mk S).haltedOnly) (Gives .viewer Viewer.state) := by
  obtain ⟨st, h1, h2⟩ := view_some.1 hself
  obtain ⟨s, D, A, U, h3, h4, h5, h6, hS⟩ := viewState_some.1 h2
  refine Sim.step (exec_getState h1) (Sim.step (exec_readState h3) ?_)
  have hp : (Viewer.mk s.core).haltedBatches = (Viewer.mk S).haltedBatches := by rw [hS]; rfl
  rw [hp]
  exact maskData_sim hself _

/-! ### Editor -/

omit [Arith α] in
theorem sim_finish_editor {γ : Type} {h : Heap α} {self st : Ref} {s : StateObj α} {mode : String}
    {o : Option Ref} (hself : h[self]? = some (.obj (.editor mode) o))
    (hst : h[st]? = some (.state s)) {e : Option α} {i r p : Option (Tensor α)}
    {a d u : Option Ref} {D A U : Dict (PyTree (Leaf α))}
    (hd : viewDict h (d.getD s.defaults) = some D)
    (ha : viewDict h (a.getD s.accumulators) = some A)
    (hu : viewDict h (u.getD s.updates) = some U) {g : γ → ACTStates α} {w : γ}
    (hw : g w = { epsilon := e.getD s.epsilon
                  iterations := i.getD s.iterations
                  residuals := r.getD s.residuals
                  probabilities := p.getD s.probabilities
                  defaults := D
                  accumulators := A
                  updates := U
                  depression_constant := s.depression_constant
                  error_mode := s.error_mode }) :
    Sim h (do
        let state ← replace st e i r p a d u none none
        let mode ← getErrorMode self
        newObj (.editor mode) state : M α Ref) (.ok w) (Gives (.editor mode) g) := by
  have := sim_finish hst (e := e) (i := i) (r := r) (p := p) hd ha hu (.editor mode) hw
  unfold Sim at this ⊢
  rw [exec_bind] at this ⊢
  have e1 : ∃ c, (replace st e i r p a d u none none : M α Ref).exec h =
      (.ok h.length, h ++ [c]) := by
    unfold replace
    rw [exec_bind, exec_readState hst]
    exact ⟨_, rfl⟩
  obtain ⟨c, e1⟩ := e1
  rw [e1] at this ⊢
  simp only at this ⊢
  rw [exec_bind, exec_getErrorMode (Ext.append h [c] _ _ hself)]
  exact this

omit [Arith α] in
theorem validate_sim {h : Heap α} {self : Ref} {mode : String} {o : Option Ref}
    (hself : h[self]? = some (.obj (.editor mode) o)) (S : ACTStates α) {checks : M α Bool}
    {p : Res Bool} (hc : Sim h checks p (fun h' b b' => h' = h ∧ b = b')) :
    Sim h (validate self checks) (Editor.executeValidation ⟨S, mode⟩ p) (fun h' _ _ => h' = h) := by
  refine Sim.step (exec_getErrorMode hself) ?_
  have e : ∀ p : Res Bool, Editor.executeValidation ⟨S, mode⟩ p = if mode = "standard" then
      (p >>= fun b => if b then .ok () else raise .jaxRuntimeError) else .ok () := by
    intro p
    unfold Editor.executeValidation
    rcases p with e | (_ | _) <;> rfl
  rw [e]
  refine Sim.ite (fun _ => ?_) (fun _ => rfl)
  refine Sim.bind hc ?_
  rintro _ b _ ⟨rfl, rfl⟩
  exact Sim.ite (fun _ => rfl) (fun _ => Sim.raise _)

omit [Arith α] in
theorem pure_sim {β : Type} (h : Heap α) (b : β) :
    Sim h (pure b : M α β) (.ok b) (fun h' b b' => h' = h ∧ b = b') := ⟨rfl, rfl⟩

theorem setProbabilities_sim {h : Heap α} {self : Ref} {mode : String} {S : ACTStates α}
    (hself : view h self = some (.editor mode, S)) (values : Tensor α) :
    Sim h (setProbabilities self values) (Editor.setProbabilities ⟨S, mode⟩ values)
      (Gives (.editor mode) Editor.state) := by
  obtain ⟨st, h1, h2⟩ := view_some.1 hself
  obtain ⟨s, D, A, U, h3, h4, h5, h6, rfl⟩ := viewState_some.1 h2
  refine Sim.step (exec_getState h1) (Sim.step (exec_readState h3) ?_)
  refine Sim.bind (validate_sim h1 _ (pure_sim _ _)) ?_
  rintro _ _ _ rfl
  exact sim_finish_editor h1 h3 (d := none) (a := none) (u := none) h4 h5 h6 rfl

theorem setResiduals_sim {h : Heap α} {self : Ref} {mode : String} {S : ACTStates α}
    (hself : view h self = some (.editor mode, S)) (values : Tensor α) :
    Sim h (setResiduals self values) (Editor.setResiduals ⟨S, mode⟩ values)
      (Gives (.editor mode) Editor.state) := by
  obtain ⟨st, h1, h2⟩ := view_some.1 hself
  obtain ⟨s, D, A, U, h3, h4, h5, h6, rfl⟩ := viewState_some.1 h2
  refine Sim.step (exec_getState h1) (Sim.step (exec_readState h3) ?_)
  refine Sim.bind (validate_sim h1 _ (pure_sim _ _)) ?_
  rintro _ _ _ rfl
  exact sim_finish_editor h1 h3 (d := none) (a := none) (u := none) h4 h5 h6 rfl

theorem setIterations_sim {h : Heap α} {self : Ref} {mode : String} {S : ACTStates α}
    (hself : view h self = some (.editor mode, S)) (values : Tensor α) :
    Sim h (setIterations self values) (Editor.setIterations ⟨S, mode⟩ values)
      (Gives (.editor mode) Editor.state) := by
  obtain ⟨st, h1, h2⟩ := view_some.1 hself
  obtain ⟨s, D, A, U, h3, h4, h5, h6, rfl⟩ := viewState_some.1 h2
  refine Sim.step (exec_getState h1) (Sim.step (exec_readState h3) ?_)
  refine Sim.bind (validate_sim h1 _ (pure_sim _ _)) ?_
  rintro _ _ _ rfl
  exact sim_finish_editor h1 h3 (d := none) (a := none) (u := none) h4 h5 h6 rfl

theorem setEpsilon_sim {h : Heap α} {self : Ref} {mode : String} {S : ACTStates α}
    (hself : view h self = some (.editor mode, S)) (epsilon : α) :
    Sim h (setEpsilon self epsilon) (Editor.setEpsilon ⟨S, mode⟩ epsilon)
      (Gives (.editor mode) Editor.state) := by
  obtain ⟨st, h1, h2⟩ := view_some.1 hself
  obtain ⟨s, D, A, U, h3, h4, h5, h6, rfl⟩ := viewState_some.1 h2
  refine Sim.step (exec_getState h1) ?_
  refine Sim.bind (validate_sim h1 _ (pure_sim _ _)) ?_
  rintro _ _ _ rfl
  exact sim_finish_editor h1 h3 (d := none) (a := none) (u := none) h4 h5 h6 rfl

omit [Arith α] in
theorem checkAgainstAccumulator_sim {h : Heap α} {s : StateObj α} {D A U : Dict (PyTree (Leaf α))}
    (hd : viewDict h s.defaults = some D) (ha : viewDict h s.accumulators = some A) (mode : String)
    (name : String) {v : Val} {t : PyTree (Leaf α)} (hv : viewTree h v = some t) :
    Sim h (checkAgainstAccumulator s name v)
      (Editor.checkAgainstAccumulator ⟨s.value D A U, mode⟩ name t)
      (fun h' b b' => h' = h ∧ b = b') := by
  obtain ⟨d, h1, h2⟩ := viewDict_some.1 hd
  obtain ⟨a, h3, h4⟩ := viewDict_some.1 ha
  refine Sim.step (exec_readDict h1) (Sim.step (exec_readDict h3) ?_)
  rw [viewEntries_mem h2, viewEntries_mem h4]
  refine Sim.ite (fun _ => ?_) (fun _ => ⟨rfl, rfl⟩)
  refine Sim.bind (getItem_sim ha name) ?_
  rintro _ va ta ⟨rfl, hva⟩
  refine Sim.step (exec_readTree hva) (Sim.step (exec_readTree hv) ?_)
  refine Sim.bind (Sim.pureRes _ _) ?_
  rintro h b _ ⟨rfl, rfl⟩
  exact ⟨rfl, rfl⟩

omit [Arith α] in
theorem checkUpdate_sim {h : Heap α} {s : StateObj α} {D A U : Dict (PyTree (Leaf α))}
    (hd : viewDict h s.defaults = some D) (mode : String)
    (name : String) {v : Val} {t : PyTree (Leaf α)} (hv : viewTree h v = some t) :
    Sim h (checkUpdate s name v) (Editor.checkUpdate ⟨s.value D A U, mode⟩ name t)
      (fun h' b b' => h' = h ∧ b = b') := by
  obtain ⟨d, h1, h2⟩ := viewDict_some.1 hd
  refine Sim.step (exec_readDict h1) (Sim.step (exec_readTree hv) ?_)
  rw [viewEntries_mem h2]
  refine Sim.ite (fun _ => ⟨rfl, rfl⟩) (fun _ => ?_)
  refine Sim.bind (getItem_sim hd name) ?_
  rintro _ va ta ⟨rfl, hva⟩
  refine Sim.step (exec_readTree hva) ?_
  refine Sim.bind (Sim.pureRes _ _) ?_
  rintro h b _ ⟨rfl, rfl⟩
  exact ⟨rfl, rfl⟩

omit [Arith α] in
theorem setAccumulator_sim {h : Heap α} {self : Ref} {mode : String} {S : ACTStates α}
    (hself : view h self = some (.editor mode, S)) (name : String) {v : Val} {t : PyTree (Leaf α)}
    (hv : viewTree h v = some t) :
    Sim h (setAccumulator self name v) (Editor.setAccumulator ⟨S, mode⟩ name t)
      (Gives (.editor mode) Editor.state) := by
  obtain ⟨st, h1, h2⟩ := view_some.1 hself
  obtain ⟨s, D, A, U, h3, h4, h5, h6, rfl⟩ := viewState_some.1 h2
  refine Sim.step (exec_getState h1) (Sim.step (exec_readState h3) ?_)
  refine Sim.bind (validate_sim h1 _ (checkAgainstAccumulator_sim h4 h5 mode name hv)) ?_
  rintro _ _ _ rfl
  obtain ⟨a, g1, g2⟩ := viewDict_some.1 h5
  refine copy_set g1 g2 name hv fun h' r' e hr' => ?_
  exact sim_finish_editor (e _ _ h1) (e _ _ h3) (d := none) (a := some _) (u := none)
    (viewDict_ext e h4) hr' (viewDict_ext e h6) rfl

omit [Arith α] in
theorem setDefaults_sim {h : Heap α} {self : Ref} {mode : String} {S : ACTStates α}
    (hself : view h self = some (.editor mode, S)) (name : String) {v : Val} {t : PyTree (Leaf α)}
    (hv : viewTree h v = some t) :
    Sim h (setDefaults self name v) (Editor.setDefaults ⟨S, mode⟩ name t)
      (Gives (.editor mode) Editor.state) := by
  obtain ⟨st, h1, h2⟩ := view_some.1 hself
  obtain ⟨s, D, A, U, h3, h4, h5, h6, rfl⟩ := viewState_some.1 h2
  refine Sim.step (exec_getState h1) (Sim.step (exec_readState h3) ?_)
  refine Sim.bind (validate_sim h1 _ (checkAgainstAccumulator_sim h4 h5 mode name hv)) ?_
  rintro _ _ _ rfl
  obtain ⟨a, g1, g2⟩ := viewDict_some.1 h4
  refine copy_set g1 g2 name hv fun h' r' e hr' => ?_
  exact sim_finish_editor (e _ _ h1) (e _ _ h3) (d := some _) (a := none) (u := none)
    hr' (viewDict_ext e h5) (viewDict_ext e h6) rfl

omit [Arith α] in
theorem setUpdates_sim {h : Heap α} {self : Ref} {mode : String} {S : ACTStates α}
    (hself : view h self = some (.editor mode, S)) (name : String) {v : Val} {t : PyTree (Leaf α)}
    (hv : viewTree h v = some t) :
    Sim h (setUpdates self name v) (Editor.setUpdates ⟨S, mode⟩ name t)
      (Gives (.editor mode) Editor.state) := by
  obtain ⟨st, h1, h2⟩ := view_some.1 hself
  obtain ⟨s, D, A, U, h3, h4, h5, h6, rfl⟩ := viewState_some.1 h2
  refine Sim.step (exec_getState h1) (Sim.step (exec_readState h3) ?_)
  refine Sim.bind (validate_sim h1 _ (checkUpdate_sim h4 mode name hv)) ?_
  rintro _ _ _ rfl
  obtain ⟨a, g1, g2⟩ := viewDict_some.1 h6
  refine copy_set g1 g2 name hv fun h' r' e hr' => ?_
  exact sim_finish_editor (e _ _ h1) (e _ _ h3) (d := none) (a := none) (u := some _)
    (viewDict_ext e h4) (viewDict_ext e h5) hr' rfl

omit [Arith α] in
theorem editController_sim {h : Heap α} {self : Ref} {cls : Cls} {S : ACTStates α}
    (hself : view h self = some (cls, S)) (mode : String) :
    Sim h (editController self mode : M α _) (Editor.editController (Controller.mk S) mode)
      (Gives (.editor mode) Editor.state) := by
  obtain ⟨st, h1, h2⟩ := view_some.1 hself
  refine Sim.step (exec_getState h1) (Sim.ite (fun _ => ?_) fun _ => Sim.raise _)
  unfold Sim
  rw [exec_newObj]
  exact view_some.2 ⟨st, get_last _, viewState_ext (Ext.append _ _) h2⟩

end JaxAct.Mem
