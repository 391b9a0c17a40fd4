import Verif.Spec.History
import Verif.Lemmas.Reset

/-! # Induction over call histories -/

namespace JaxAct
variable {α : Type} [Arith α]

/-- The relation between the state before and after a successful `cache_update`. -/
structure CacheStep (s : ACTStates α) (n : String) (t : PyTree (Leaf α)) (s' : ACTStates α) :
    Prop where
  empty : s.updates.get? n = some .none
  eq : s' = { s with updates := s.updates.set n t }

omit [Arith α] in
theorem PyTree.isNone_iff {β : Type} {t : PyTree β} : t.isNone = true ↔ t = .none := by
  cases t <;> simp [PyTree.isNone]

namespace Controller

omit [Arith α] in
theorem cacheUpdate_ok_iff {s : ACTStates α} {n : String} {t : PyTree (Leaf α)}
    {c' : Controller α} : cacheUpdate ⟨s⟩ n t = .ok c' ↔ CacheStep s n t c'.state := by
  unfold cacheUpdate
  simp only
  constructor
  · intro h
    split at h
    · cases h
    · rename_i hm
      simp only [bind_ok, Dict.getItem_ok] at h
      obtain ⟨cur, hc, h⟩ := h
      split at h
      · cases h
      · rename_i hn
        rw [not_not, PyTree.isNone_iff] at hn
        subst hn
        simp only [ACTStates.replace_core, ok_bind] at h
        cases h
        exact ⟨hc, rfl⟩
  · rintro ⟨h1, h2⟩
    have hm : s.updates.mem n = true := Dict.mem_iff.2 (Dict.mem_keys_iff.2 ⟨_, h1⟩)
    rw [if_neg (by simp [hm]), Dict.getItem_ok.2 h1, ok_bind, if_neg (by simp [PyTree.isNone])]
    simp only [ACTStates.replace_core, ok_bind]
    rw [pure_eq_ok]
    cases c'
    simp only at h2
    rw [h2]
    rfl

omit [Arith α] in
theorem CacheStep.wf {s s' : ACTStates α} {n : String} {t : PyTree (Leaf α)} (hwf : s.WF)
    (st : CacheStep s n t s') : s'.WF := by
  obtain ⟨h1, rfl⟩ := st
  have hk : n ∈ s.updates.keys := Dict.mem_keys_iff.2 ⟨_, h1⟩
  exact { hwf with
    upd_keys := hwf.upd_keys.set _ _
    upd_iff := by intro m; simp only; rw [Dict.keys_set_of_mem hk]; exact hwf.upd_iff m }

end Controller

/-- Induction principle: an invariant of well-formed states preserved by each successful call holds
at the end of each successful history. -/
theorem run_induction {Inv : ACTStates α → Prop}
    (hcache : ∀ s n t s', s.WF → CacheStep s n t s' → Inv s → Inv s')
    (hiter : ∀ s h s', s.WF → IterStep s h s' → Inv s → Inv s')
    (hreset : ∀ s s', s.WF → ResetStep s s' → Inv s → Inv s') :
    ∀ (ops : List (Op α)) {s : ACTStates α} {c' : Controller α}, s.WF → Inv s →
      run ⟨s⟩ ops = .ok c' → c'.state.WF ∧ Inv c'.state
  | [], s, c', hwf, hi, h => by cases h; exact ⟨hwf, hi⟩
  | op :: ops, s, c', hwf, hi, h => by
    simp only [run, bind_ok] at h
    obtain ⟨⟨s1⟩, h1, h2⟩ := h
    cases op with
    | cache n t =>
      have st := Controller.cacheUpdate_ok_iff.1 h1
      exact run_induction hcache hiter hreset ops (Controller.CacheStep.wf hwf st)
        (hcache _ _ _ _ hwf st hi) h2
    | iterate h =>
      have st := Controller.iterateAct_ok hwf h1
      exact run_induction hcache hiter hreset ops (Controller.IterStep.wf hwf st)
        (hiter _ _ _ hwf st hi) h2
    | reset =>
      have st := Controller.resetBatches_ok hwf h1
      exact run_induction hcache hiter hreset ops (Controller.ResetStep.wf hwf st)
        (hreset _ _ hwf st hi) h2

/-- The same for histories without resets. -/
theorem run_induction_noReset {Inv : ACTStates α → Prop}
    (hcache : ∀ s n t s', s.WF → CacheStep s n t s' → Inv s → Inv s')
    (hiter : ∀ s h s', s.WF → IterStep s h s' → Inv s → Inv s') :
    ∀ (ops : List (Op α)) {s : ACTStates α} {c' : Controller α}, (∀ op ∈ ops, op.NotReset) →
      s.WF → Inv s → run ⟨s⟩ ops = .ok c' → c'.state.WF ∧ Inv c'.state
  | [], s, c', _, hwf, hi, h => by cases h; exact ⟨hwf, hi⟩
  | op :: ops, s, c', hn, hwf, hi, h => by
    simp only [run, bind_ok] at h
    obtain ⟨⟨s1⟩, h1, h2⟩ := h
    cases op with
    | cache n t =>
      have st := Controller.cacheUpdate_ok_iff.1 h1
      exact run_induction_noReset hcache hiter ops (fun o ho => hn o (by simp [ho]))
        (Controller.CacheStep.wf hwf st) (hcache _ _ _ _ hwf st hi) h2
    | iterate h =>
      have st := Controller.iterateAct_ok hwf h1
      exact run_induction_noReset hcache hiter ops (fun o ho => hn o (by simp [ho]))
        (Controller.IterStep.wf hwf st) (hiter _ _ _ hwf st hi) h2
    | reset => exact absurd (hn .reset (by simp)) (by simp [Op.NotReset])

theorem run_wf {ops : List (Op α)} {s : ACTStates α} {c' : Controller α} (hwf : s.WF)
    (h : run ⟨s⟩ ops = .ok c') : c'.state.WF :=
  (run_induction (Inv := fun _ => True) (fun _ _ _ _ _ _ _ => trivial)
    (fun _ _ _ _ _ _ => trivial) (fun _ _ _ _ _ => trivial) ops hwf trivial h).1

theorem run_append (c : Controller α) (o1 o2 : List (Op α)) :
    run c (o1 ++ o2) = (run c o1 >>= fun c' => run c' o2) := by
  induction o1 generalizing c with
  | nil => rfl
  | cons op o1 ih =>
    simp only [List.cons_append, run]
    cases op.call c with
    | error e => rfl
    | ok c1 => exact ih c1

/-! ### Observing cells -/

namespace ACTStates

omit [Arith α] in
/-- In a well-formed state, an index with a probability has a residual and a counter. -/
theorem WF.cell {s : ACTStates α} (hwf : s.WF) {b : List Nat} {p : α}
    (hp : s.probabilities.at? b = some p) :
    ∃ r n, s.residuals.at? b = some r ∧ s.iterations.at? b = some n := by
  obtain ⟨r, hr⟩ := Controller.at?_some_of_shape (b := s.residuals) hwf.res_shape hp
  obtain ⟨n, hn⟩ := Controller.at?_some_of_shape (b := s.iterations) hwf.it_shape hp
  exact ⟨r, n, hr, hn⟩

end ACTStates

omit [Arith α] in
theorem at?_of_shape_eq {a b : Tensor α} {i : List Nat} {x : α} (hs : a.shape = b.shape)
    (hx : a.at? i = some x) : ∃ y, b.at? i = some y :=
  Controller.at?_some_of_shape (b := b) hs.symm hx

end JaxAct
