import Verif.Spec.Restrict
import Verif.Lemmas.Controller
import Verif.Lemmas.Reset

/-! # Restricting a controller to some of its accumulators -/

namespace JaxAct
variable {α : Type} [Arith α]

namespace Dict
variable {V : Type} {p : String → Bool}

theorem get?_keep (p : String → Bool) (k : String) : ∀ d : Dict V,
    (d.keep p).get? k = if p k then d.get? k else none
  | [] => by simp [keep, get?]
  | (k', v) :: d => by
    have ih := get?_keep p k d
    unfold keep at ih ⊢
    by_cases hp : p k' = true
    · rw [List.filter_cons_of_pos (by simpa using hp)]
      simp only [get?]
      by_cases hk : k' = k
      · subst hk; simp [hp]
      · rw [if_neg hk, if_neg hk, ih]
    · rw [List.filter_cons_of_neg (by simpa using hp), ih]
      simp only [get?]
      by_cases hk : k' = k
      · subst hk; simp [hp]
      · rw [if_neg hk]

theorem set_keep (p : String → Bool) (k : String) (v : V) : ∀ d : Dict V,
    (d.set k v).keep p = if p k then (d.keep p).set k v else d.keep p
  | [] => by
    unfold keep
    by_cases hp : p k = true <;> simp [set, hp]
  | (k', v') :: d => by
    have ih := set_keep p k v d
    unfold keep at ih ⊢
    by_cases hk : k' = k
    · subst hk
      by_cases hp : p k' = true <;> simp [set, hp]
    · simp only [set, if_neg hk]
      by_cases hp : p k' = true
      · rw [List.filter_cons_of_pos (by simpa using hp), List.filter_cons_of_pos (by simpa using hp),
          ih]
        split
        · simp only [set, if_neg hk]
        · rfl
      · rw [List.filter_cons_of_neg (by simpa using hp), List.filter_cons_of_neg (by simpa using hp),
          ih]

theorem keys_keep (p : String → Bool) : ∀ d : Dict V, (d.keep p).keys = d.keys.filter p
  | [] => rfl
  | (k', v') :: d => by
    have ih := keys_keep p d
    unfold keep keys at ih ⊢
    by_cases hp : p k' = true
    · rw [List.filter_cons_of_pos (by simpa using hp), List.map_cons, List.map_cons,
        List.filter_cons_of_pos (by simpa using hp), ih]
    · rw [List.filter_cons_of_neg (by simpa using hp), List.map_cons,
        List.filter_cons_of_neg (by simpa using hp), ih]

theorem getItem_keep {k : String} (hk : p k = true) (d : Dict V) :
    (d.keep p).getItem k = d.getItem k := by
  unfold getItem
  rw [get?_keep, if_pos hk]

theorem mem_keep {k : String} (hk : p k = true) (d : Dict V) : (d.keep p).mem k = d.mem k := by
  unfold mem
  rw [get?_keep, if_pos hk]

end Dict

namespace Controller
variable {p : String → Bool}

theorem commitOne_keep (s : ACTStates α) (h : Tensor α) (A U : Dict (PyTree (Leaf α)))
    {name : String} (hn : p name = true) :
    commitOne ⟨s.restrict p⟩ h (A.keep p) (U.keep p) name = commitOne ⟨s⟩ h A U name := by
  unfold commitOne
  rw [Dict.getItem_keep hn, Dict.getItem_keep hn]
  rfl

theorem commitLoop_keep (s : ACTStates α) (h : Tensor α) :
    ∀ (names : List String) {A U A' U' : Dict (PyTree (Leaf α))},
    commitLoop ⟨s⟩ h names A U = .ok (A', U') →
    commitLoop ⟨s.restrict p⟩ h (names.filter p) (A.keep p) (U.keep p) = .ok (A'.keep p, U'.keep p)
  | [], A, U, A', U', hh => by cases hh; rfl
  | name :: names, A, U, A', U', hh => by
    unfold commitLoop at hh
    split at hh
    · cases hh
    · next new hnew =>
      have ih := commitLoop_keep s h names hh
      rw [Dict.set_keep, Dict.set_keep] at ih
      by_cases hn : p name = true
      · rw [List.filter_cons_of_pos hn]
        unfold commitLoop
        rw [commitOne_keep s h A U hn, hnew]
        simpa only [hn, if_true] using ih
      · rw [List.filter_cons_of_neg hn]
        rwa [if_neg hn, if_neg hn] at ih

omit [Arith α] in
theorem resetLoop_keep (unhalted : Arr Bool) (D : Dict (PyTree (Leaf α))) :
    ∀ (A : Dict (PyTree (Leaf α))) {out out' : Dict (PyTree (Leaf α))},
    resetLoop unhalted D A out = .ok out' →
    resetLoop unhalted (D.keep p) (A.keep p) (out.keep p) = .ok (out'.keep p)
  | [], out, out', hh => by cases hh; rfl
  | (name, a) :: A, out, out', hh => by
    unfold resetLoop at hh
    simp only [bind_ok] at hh
    obtain ⟨d, h1, new, h2, h3⟩ := hh
    have ih := resetLoop_keep unhalted D A h3
    rw [Dict.set_keep] at ih
    unfold Dict.keep at ih ⊢
    by_cases hn : p name = true
    · rw [List.filter_cons_of_pos (by simpa using hn)]
      unfold resetLoop
      simp only [bind_ok]
      refine ⟨d, ?_, new, h2, ?_⟩
      · exact (Dict.getItem_keep hn D).trans h1
      · simpa only [hn, if_true, Dict.keep] using ih
    · rw [List.filter_cons_of_neg (by simpa using hn)]
      rwa [if_neg hn] at ih

end Controller


/-- One call that concerns the restriction. -/
theorem call_restrict (p : String → Bool) {s : ACTStates α} {op : Op α} {c : Controller α}
    (hp : op.concerns p = true) (h : op.call ⟨s⟩ = .ok c) :
    op.call ⟨s.restrict p⟩ = .ok ⟨c.state.restrict p⟩ := by
  cases op with
  | cache n t =>
    simp only [Op.concerns] at hp
    simp only [Op.call, Controller.cacheUpdate] at h ⊢
    have e1 : (s.restrict p).updates = s.updates.keep p := rfl
    rw [e1, Dict.mem_keep hp, Dict.getItem_keep hp]
    split at h
    · cases h
    · next hm =>
      rw [if_neg hm]
      simp only [bind_ok] at h ⊢
      obtain ⟨cur, h1, h2⟩ := h
      refine ⟨cur, h1, ?_⟩
      split at h2
      · cases h2
      · next hc =>
        rw [if_neg hc]
        simp only [ACTStates.replace, ok_bind, pure_eq_ok] at h2 ⊢
        cases h2
        simp only [ACTStates.restrict, Option.getD, Dict.set_keep, if_pos hp]
  | iterate hh =>
    simp only [Op.call, Controller.iterateAct] at h ⊢
    split at h
    · cases h
    · next hs =>
      refine (if_neg hs).trans ?_
      simp only [bind_ok, Prod.exists] at h ⊢
      obtain ⟨x, y, z, h1, A, U, h2, it, h3, s', h4, h5⟩ := h
      refine ⟨x, y, z, h1, A.keep p, U.keep p, ?_, it, h3, s'.restrict p, ?_, ?_⟩
      · have := Controller.commitLoop_keep (p := p) s x _ h2
        rw [← Dict.keys_keep] at this
        exact this
      · simp only [ACTStates.replace] at h4 ⊢
        cases h4
        rfl
      · cases h5; rfl
  | reset =>
    simp only [Op.call, Controller.resetBatches] at h ⊢
    split at h
    · cases h
    · next hu =>
      rw [if_neg]
      · simp only [bind_ok] at h ⊢
        obtain ⟨it, h1, pr, h2, re, h3, A, h4, s', h5, h6⟩ := h
        refine ⟨it, h1, pr, h2, re, h3, A.keep p, Controller.resetLoop_keep _ _ _ h4, s'.restrict p,
          ?_, ?_⟩
        · simp only [ACTStates.replace] at h5 ⊢
          cases h5
          rfl
        · cases h6; rfl
      · intro hk
        refine hu ?_
        rw [List.any_eq_true] at hk ⊢
        obtain ⟨kv, h1, h2⟩ := hk
        exact ⟨kv, (List.mem_filter.1 h1).1, h2⟩

/-- A call that does not concern the restriction leaves it unchanged. -/
theorem call_restrict_other (p : String → Bool) {s : ACTStates α} {op : Op α} {c : Controller α}
    (hp : op.concerns p = false) (h : op.call ⟨s⟩ = .ok c) :
    c.state.restrict p = s.restrict p := by
  cases op with
  | iterate _ => cases hp
  | reset => cases hp
  | cache n t =>
    simp only [Op.concerns] at hp
    simp only [Op.call, Controller.cacheUpdate] at h
    split at h
    · cases h
    · simp only [bind_ok] at h
      obtain ⟨cur, h1, h2⟩ := h
      split at h2
      · cases h2
      · simp only [ACTStates.replace, ok_bind, pure_eq_ok] at h2
        cases h2
        simp only [ACTStates.restrict, Option.getD, Dict.set_keep, hp, Bool.false_eq_true, if_false]

/-- The dictionaries of a state have distinct keys, as Python dictionaries do. -/
structure ACTStates.Dicts (s : ACTStates α) : Prop where
  acc : s.accumulators.WF
  upd : s.updates.WF

theorem commitLoop_dicts (c : Controller α) (h : Tensor α) :
    ∀ (names : List String) {A U A' U' : Dict (PyTree (Leaf α))},
    c.commitLoop h names A U = .ok (A', U') → A.WF → U.WF → A'.WF ∧ U'.WF
  | [], A, U, A', U', hh, ha, hu => by cases hh; exact ⟨ha, hu⟩
  | name :: names, A, U, A', U', hh, ha, hu => by
    unfold Controller.commitLoop at hh
    split at hh
    · cases hh
    · exact commitLoop_dicts c h names hh (ha.set _ _) (hu.set _ _)

omit [Arith α] in
theorem resetLoop_dicts (u : Arr Bool) (D : Dict (PyTree (Leaf α))) :
    ∀ (A : Dict (PyTree (Leaf α))) {out out' : Dict (PyTree (Leaf α))},
    Controller.resetLoop u D A out = .ok out' → out.WF → out'.WF
  | [], out, out', hh, ho => by cases hh; exact ho
  | (name, a) :: A, out, out', hh, ho => by
    unfold Controller.resetLoop at hh
    simp only [bind_ok] at hh
    obtain ⟨d, h1, new, h2, h3⟩ := hh
    exact resetLoop_dicts u D A h3 (ho.set _ _)

theorem call_dicts {c c' : Controller α} {op : Op α} (h : op.call c = .ok c')
    (hd : c.state.Dicts) : c'.state.Dicts := by
  cases op with
  | cache n t =>
    simp only [Op.call, Controller.cacheUpdate] at h
    split at h
    · cases h
    · simp only [bind_ok] at h
      obtain ⟨cur, h1, h2⟩ := h
      split at h2
      · cases h2
      · simp only [ACTStates.replace, ok_bind, pure_eq_ok] at h2
        cases h2
        exact ⟨hd.acc, hd.upd.set _ _⟩
  | iterate hh =>
    simp only [Op.call, Controller.iterateAct] at h
    split at h
    · cases h
    · simp only [bind_ok, Prod.exists] at h
      obtain ⟨x, y, z, h1, A, U, h2, it, h3, s', h4, h5⟩ := h
      obtain ⟨h6, h7⟩ := commitLoop_dicts _ _ _ h2 hd.acc hd.upd
      cases h4
      cases h5
      exact ⟨h6, h7⟩
  | reset =>
    simp only [Op.call, Controller.resetBatches] at h
    split at h
    · cases h
    · simp only [bind_ok] at h
      obtain ⟨it, h1, pr, h2, re, h3, A, h4, s', h5, h6⟩ := h
      have := resetLoop_dicts _ _ _ h4 Dict.WF.nil
      cases h5
      cases h6
      exact ⟨this, hd.upd⟩

/-- If a call succeeds with every accumulator on its own, it succeeds with all of them. -/
theorem call_of_restrict {s : ACTStates α} (hd : s.Dicts) {op : Op α}
    (h : ∀ n, op.concerns (· == n) = true → ∃ c, op.call ⟨s.restrict (· == n)⟩ = .ok c) :
    ∃ c, op.call ⟨s⟩ = .ok c := by
  cases op with
  | cache n t =>
    obtain ⟨c, h⟩ := h n (by simp [Op.concerns])
    simp only [Op.call, Controller.cacheUpdate] at h ⊢
    have e1 : (s.restrict (· == n)).updates = s.updates.keep (· == n) := rfl
    rw [e1, Dict.mem_keep (by simp), Dict.getItem_keep (by simp)] at h
    split at h
    · cases h
    · next hm =>
      rw [if_neg hm]
      simp only [bind_ok] at h ⊢
      obtain ⟨cur, h1, h2⟩ := h
      split at h2
      · cases h2
      · next hc => exact ⟨_, cur, h1, by rw [if_neg hc]; rfl⟩
  | iterate hh =>
    simp only [Op.call, Controller.iterateAct] at h ⊢
    have key : ∀ n, hh.shape = s.probabilities.shape ∧ ∃ x y z it,
        (Controller.mk s).processProbabilities hh.clip01 = .ok (x, y, z) ∧
        Tensor.select (Controller.mk s).haltedBatches s.iterations s.iterations.addOne = .ok it ∧
        (n ∈ s.accumulators.keys →
          ∃ t, (Controller.mk s).commitOne x s.accumulators s.updates n = .ok t) := by
      intro n
      obtain ⟨c, h⟩ := h n rfl
      split at h
      · cases h
      · next hs =>
        simp only [bind_ok, Prod.exists] at h
        obtain ⟨x, y, z, h1, A, U, h2, it, h3, s', h4, h5⟩ := h
        refine ⟨not_not.1 hs, x, y, z, it, h1, h3, fun hn => ?_⟩
        have e1 : (s.restrict (· == n)).accumulators = s.accumulators.keep (· == n) := rfl
        have e2 : (s.restrict (· == n)).updates = s.updates.keep (· == n) := rfl
        simp only [Controller.accumulators, e1, e2] at h2
        have hnd : (s.accumulators.keep (· == n)).keys.Nodup := by
          rw [Dict.keys_keep]; exact hd.acc.filter _
        obtain ⟨h6, -⟩ := Controller.commitLoop_ok _ _ _ _ _ _ _ hnd h2
        obtain ⟨t, h7, -⟩ := h6 n (by rw [Dict.keys_keep]; simp [hn])
        rw [Controller.commitOne_keep s x _ _ (by simp)] at h7
        exact ⟨t, h7⟩
    obtain ⟨hs, x, y, z, it, h1, h3, -⟩ := key ""
    obtain ⟨⟨A, U⟩, h2⟩ := Controller.commitLoop_of ⟨s⟩ x s.accumulators.keys s.accumulators s.updates
      hd.acc fun n hn => by
        obtain ⟨-, x', y', z', it', h1', -, h4⟩ := key n
        rw [h1] at h1'
        cases h1'
        exact h4 hn
    rw [if_neg (by simpa [Controller.probabilities] using hs)]
    simp only [bind_ok, Prod.exists]
    exact ⟨_, x, y, z, h1, A, U, h2, it, h3, _, rfl, rfl⟩
  | reset =>
    simp only [Op.call, Controller.resetBatches] at h ⊢
    have key : ∀ n, ((s.updates.keep (· == n)).any fun kv => !kv.2.isNone) = false ∧ ∃ it pr re,
        Tensor.binop Arith.mul s.iterations
          (Tensor.ofMask ((Controller.mk s).haltedBatches.map (!·))) = .ok it ∧
        Tensor.binop Arith.mul s.probabilities
          (Tensor.ofMask ((Controller.mk s).haltedBatches.map (!·))) = .ok pr ∧
        Tensor.binop Arith.mul s.residuals
          (Tensor.ofMask ((Controller.mk s).haltedBatches.map (!·))) = .ok re ∧
        ∀ a, (n, a) ∈ s.accumulators → ∃ d t, s.defaults.get? n = some d ∧
          Utils.mergePytrees (Controller.resetLeaf ((Controller.mk s).haltedBatches.map (!·)) a) a d =
            .ok t := by
      intro n
      obtain ⟨c, h⟩ := h n rfl
      split at h
      · cases h
      · next hu =>
        simp only [bind_ok] at h
        obtain ⟨it, h1, pr, h2, re, h3, A, h4, s', h5, h6⟩ := h
        refine ⟨Bool.eq_false_iff.2 hu, it, pr, re, h1, h2, h3, fun a ha => ?_⟩
        have hnd : (Dict.keys (s.accumulators.keep (· == n))).Nodup := by
          rw [Dict.keys_keep]; exact hd.acc.filter _
        obtain ⟨-, -, h7⟩ := Controller.resetLoop_ok _ _ _ [] _ hnd h4
        obtain ⟨d, t, h8, h9, -⟩ := h7 n a (List.mem_filter.2 ⟨ha, by simp⟩)
        have h8' : (s.defaults.keep (· == n)).get? n = some d := h8
        rw [Dict.get?_keep, if_pos (by simp)] at h8'
        exact ⟨d, t, h8', h9⟩
    have hu : ¬ (s.updates.any fun kv => !kv.2.isNone) = true := by
      intro hk
      rw [List.any_eq_true] at hk
      obtain ⟨kv, h1, h2⟩ := hk
      have := (key kv.1).1
      rw [List.any_eq_false] at this
      exact this kv (List.mem_filter.2 ⟨h1, by simp⟩) h2
    rw [if_neg hu]
    obtain ⟨-, it, pr, re, h1, h2, h3, -⟩ := key ""
    obtain ⟨r, h4⟩ := Controller.resetLoop_of ((Controller.mk s).haltedBatches.map (!·)) s.defaults
      s.accumulators [] fun n a ha => by
        obtain ⟨-, -, -, -, -, -, -, h5⟩ := key n
        exact h5 a ha
    simp only [bind_ok]
    exact ⟨_, it, h1, pr, h2, re, h3, r, h4, _, rfl, rfl⟩

end JaxAct
