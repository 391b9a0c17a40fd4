import Verif.Lemmas.Entry
import Verif.Lemmas.Exact
import Verif.Props.Fixtures

/-! # C15 reset_batches restores halted elements and only those -/

namespace JaxAct
open ACTStates

section AnyArith
variable {α : Type} [Arith α]

/-- C15, accumulators, any arithmetic: entries under a halted batch element become the default
entries, all others are unchanged; no entry appears or disappears; names are unchanged. -/
theorem C15_reset_accumulators {s : ACTStates α} (hwf : s.WF) {c' : Controller α}
    (ok : Controller.resetBatches ⟨s⟩ = .ok c') (name : String) (k : Nat) (i : List Nat) :
    c'.accumulators.keys = s.accumulators.keys ∧
    (entry? s.accumulators name k i = none → entry? c'.accumulators name k i = none) ∧
    ∀ a, entry? s.accumulators name k i = some a →
      let halted := (Controller.haltedBatches ⟨s⟩).at? (i.take s.probabilities.shape.length)
      (halted = some true ∧ entry? c'.accumulators name k i = entry? s.defaults name k i ∧
        entry? s.defaults name k i ≠ none) ∨
      (halted = some false ∧ entry? c'.accumulators name k i = some a) := by
  have st := Controller.resetBatches_ok hwf ok
  refine ⟨st.akeys, st.entry_none, fun a ha => ?_⟩
  obtain ⟨x, p, h1, h2, h3⟩ := st.entry hwf ha
  have hh : (Controller.haltedBatches ⟨s⟩).at? (i.take s.probabilities.shape.length) =
      some (Spec.isHalted s.probabilities.dtype s.epsilon p) :=
    (halted_iff hwf.floating).2 ⟨p, h2, rfl⟩
  simp only
  rw [hh]
  cases hc : Spec.isHalted s.probabilities.dtype s.epsilon p with
  | true =>
    left
    refine ⟨rfl, ?_, by rw [h1]; simp⟩
    show entry? c'.state.accumulators name k i = _
    rw [h3, h1, Spec.resetEntry, if_pos hc]
  | false =>
    right
    refine ⟨rfl, ?_⟩
    show entry? c'.state.accumulators name k i = _
    rw [h3, Spec.resetEntry, if_neg (by simp [hc])]

/-- C15: with a pending update `reset_batches` raises `RuntimeError`, whatever the controller. -/
theorem C15_pending_raises (c : Controller α) (h : c.hasCachedUpdates = true) :
    c.resetBatches = .error .runtimeError := by
  unfold Controller.resetBatches
  unfold Controller.hasCachedUpdates at h
  rw [if_pos h]

end AnyArith

variable {K : Type} [Field K] [LinearOrder K] [IsStrictOrderedRing K]
attribute [local instance] Arith.exact

omit [IsStrictOrderedRing K] in
/-- C15, bookkeeping: probability, residual and iteration count become 0 for a halted element and are
unchanged for all others; everything else in the state is unchanged. -/
theorem C15_reset_bookkeeping {s : ACTStates K} (hwf : s.WF) {c' : Controller K}
    (ok : Controller.resetBatches ⟨s⟩ = .ok c') :
    (∀ b, (Controller.haltedBatches ⟨s⟩).at? b = some true →
      c'.probabilities.at? b = some 0 ∧ c'.residuals.at? b = some 0 ∧
      c'.iterations.at? b = some 0) ∧
    (∀ b, (Controller.haltedBatches ⟨s⟩).at? b ≠ some true →
      c'.probabilities.at? b = s.probabilities.at? b ∧ c'.residuals.at? b = s.residuals.at? b ∧
      c'.iterations.at? b = s.iterations.at? b) ∧
    c'.state.defaults = s.defaults ∧ c'.state.updates = s.updates ∧
    c'.state.epsilon = s.epsilon ∧ c'.state.depression_constant = s.depression_constant ∧
    c'.state.error_mode = s.error_mode := by
  have st := Controller.resetBatches_ok hwf ok
  refine ⟨fun b hb => ?_, fun b hb => ?_, st.defaults, st.updates, st.epsilon, st.depression,
    st.error_mode⟩
  · obtain ⟨p, hp, hh⟩ := (halted_iff hwf.floating).1 hb
    obtain ⟨r, n, hr, hn⟩ := hwf.cell hp
    have := st.cell b p r n hp hr hn
    simp only [Spec.resetCell, Spec.keepIf_eq, hh] at this
    exact this
  · cases hp : s.probabilities.at? b with
    | none =>
      have no : ∀ (t u : Tensor K), u.shape = t.shape → s.probabilities.shape = t.shape →
          u.at? b = t.at? b := by
        intro t u h1 h2
        have hn : ¬ InB s.probabilities.shape b := fun h => by
          have := Arr.at?_isSome.2 h
          simp only [Tensor.at?] at hp
          rw [hp] at this
          cases this
        simp only [Tensor.at?, Tensor.shape] at *
        rw [Arr.at?_of_not (by rw [h1, ← h2]; exact hn), Arr.at?_of_not (by rw [← h2]; exact hn)]
      exact ⟨(no _ _ st.pshape rfl).trans hp, no _ _ st.rshape hwf.res_shape.symm,
        no _ _ st.ishape hwf.it_shape.symm⟩
    | some p =>
      have hh : Spec.isHalted s.probabilities.dtype s.epsilon p = false := by
        by_contra hc
        exact hb ((halted_iff hwf.floating).2 ⟨p, hp, by simpa using hc⟩)
      obtain ⟨r, n, hr, hn⟩ := hwf.cell hp
      have := st.cell b p r n hp hr hn
      rw [hr, hn]
      simp only [Spec.resetCell, Spec.keepIf_eq, hh] at this
      exact this

omit [IsStrictOrderedRing K] in
/-- Resetting a state in which nothing is halted and whose trees are in key order changes nothing. -/
theorem reset_eq_of_none_halted {s : ACTStates K} (hwf : s.WF) {c' : Controller K}
    (ok : Controller.resetBatches ⟨s⟩ = .ok c')
    (hcan : ∀ n a, s.accumulators.get? n = some a → a.canon = a)
    (hno : ∀ b, (Controller.haltedBatches ⟨s⟩).at? b ≠ some true) : c'.state = s := by
  have st := Controller.resetBatches_ok hwf ok
  obtain ⟨-, hcell, e1, e2, e3, e4, e5⟩ := C15_reset_bookkeeping hwf ok
  have hp := Tensor.ext_at st.pdtype st.pshape fun b => (hcell b (hno b)).1
  have hr := Tensor.ext_at st.rdtype st.rshape fun b => (hcell b (hno b)).2.1
  have hi := Tensor.ext_at st.idtype st.ishape fun b => (hcell b (hno b)).2.2
  have hacc : c'.state.accumulators = s.accumulators := by
    refine Dict.ext_get? (hd := hwf.acc_keys) st.akeys fun n => ?_
    cases ha : s.accumulators.get? n with
    | none =>
      rw [Dict.get?_eq_none_iff] at ha ⊢
      rw [st.akeys]; exact ha
    | some a =>
      obtain ⟨d, a', hd, ha', hs, hc, hl⟩ := st.tree n a ha
      rw [ha']
      congr 1
      refine PyTree.eq_of_struct_leaves ?_ ?_
      · rw [← hc, ← hcan n a ha]; exact hs
      · rw [← hc, ← hcan n a ha]
        show a'.treeLeaves = a.treeLeaves
        refine List.ext_getElem? fun k => ?_
        cases hk : a.treeLeaves[k]? with
        | none =>
          rw [List.getElem?_eq_none_iff] at hk ⊢
          rw [← PyTree.treeStructure_leaves_length, hs, PyTree.treeStructure_leaves_length]
          exact hk
        | some l =>
          obtain ⟨ta, td, ta', rfl, f2, f3, f4⟩ := hl k l hk
          rw [f3]
          congr 2
          refine Tensor.ext_at f4.dtype f4.shape fun i => ?_
          have hent : entry? s.accumulators n k i = ta.at? i := by
            simp only [entry?, leaf?, ha, hk, Leaf.at?]
          have hent' : entry? c'.state.accumulators n k i = ta'.at? i := by
            simp only [entry?, leaf?, ha', f3, Leaf.at?]
          obtain ⟨-, g1, g2⟩ := C15_reset_accumulators hwf ok n k i
          cases hx : ta.at? i with
          | none => rw [← hent']; exact g1 (hent.trans hx)
          | some x =>
            rcases g2 x (hent.trans hx) with ⟨q, -⟩ | ⟨-, q⟩
            · exact absurd q (hno _)
            · rw [← hent']; exact q
  cases s
  cases hcs : c'.state
  simp only [hcs] at *
  subst hp; subst hr; subst hi; subst hacc; subst e1; subst e2; subst e3; subst e4; subst e5
  rfl

omit [Field K] [LinearOrder K] [IsStrictOrderedRing K] in
theorem resettable_of_same {batch : List Nat} {a a' : PyTree (Leaf K)}
    (hs : a'.treeStructure = a.treeStructure) (hr : Controller.Resettable batch a) :
    Controller.Resettable batch a' := by
  rcases hr with h | h | ⟨l, rfl⟩
  · exact .inl h
  · right; left
    rw [← List.length_eq_zero_iff, ← PyTree.treeStructure_leaves_length, hs,
      PyTree.treeStructure_leaves_length, h]; rfl
  · right; right
    cases a' with
    | leaf x => exact ⟨x, rfl⟩
    | none => cases hs
    | node k cs => cases k <;> cases hs

/-- After a reset nothing is halted (`epsilon ≤ 1`). -/
theorem reset_none_halted {s : ACTStates K} (hwf : s.WF)
    (he : s.epsilon ≤ 1) {c' : Controller K}
    (ok : Controller.resetBatches ⟨s⟩ = .ok c') : ∀ b, c'.haltedBatches.at? b ≠ some true := by
  have st := Controller.resetBatches_ok hwf ok
  have hwf' := Controller.ResetStep.wf hwf st
  obtain ⟨h1, h2, -, -, e3, -⟩ := C15_reset_bookkeeping hwf ok
  intro b hb
  obtain ⟨p', hp', hh⟩ := (halted_iff (s := c'.state) hwf'.floating).1 hb
  rw [Spec.isHalted_iff, e3] at hh
  obtain ⟨p, hp⟩ := st.index hp'
  by_cases hb0 : (Controller.haltedBatches ⟨s⟩).at? b = some true
  · have := (h1 b hb0).1
    have : some p' = some 0 := hp'.symm.trans this
    cases this
    linarith
  · have := (h2 b hb0).1
    have : some p' = some p := hp'.symm.trans (this.trans hp)
    cases this
    exact hb0 ((halted_iff hwf.floating).2 ⟨p', hp, Spec.isHalted_iff.2 hh⟩)

/-- C15: `reset_batches` is idempotent: on its own result it succeeds and returns the very same
state. -/
theorem C15_reset_idempotent {s : ACTStates K} (hwf : s.WF) (he : s.epsilon ≤ 1)
    {c' : Controller K} (ok : Controller.resetBatches ⟨s⟩ = .ok c') :
    c'.resetBatches = .ok c' := by
  have st := Controller.resetBatches_ok hwf ok
  have hwf' := Controller.ResetStep.wf hwf st
  have hcan : ∀ n a, c'.state.accumulators.get? n = some a → a.canon = a := by
    intro n a' ha'
    have hn : n ∈ s.accumulators.keys := by
      rw [← st.akeys]; exact Dict.mem_keys_iff.2 ⟨a', ha'⟩
    obtain ⟨a, ha⟩ := Dict.mem_keys_iff.1 hn
    obtain ⟨d, a'', -, h2, -, h4, -⟩ := st.tree n a ha
    rw [ha'] at h2; cases h2
    exact h4
  have hex : ∃ c'', Controller.resetBatches ⟨c'.state⟩ = .ok c'' := by
    rcases Controller.resetBatches_result hwf' with ⟨⟨n, u, h1, h2⟩, -⟩ | ⟨-, ⟨-, h⟩ | ⟨⟨n, a', ha', hnr⟩, -⟩⟩
    · rw [st.updates] at h1
      rw [st.idle n u h1] at h2; cases h2
    · exact h
    · exfalso
      have hn : n ∈ s.accumulators.keys := by
        rw [← st.akeys]; exact Dict.mem_keys_iff.2 ⟨a', ha'⟩
      obtain ⟨a, ha⟩ := Dict.mem_keys_iff.1 hn
      obtain ⟨d, a'', -, h2, h3, -, -⟩ := st.tree n a ha
      rw [ha'] at h2; cases h2
      refine hnr ?_
      rw [st.pshape]
      refine resettable_of_same h3 ?_
      rcases Controller.resetBatches_result hwf with ⟨-, h⟩ | ⟨-, ⟨h, -⟩ | ⟨-, h⟩⟩
      · rw [ok] at h; cases h
      · exact h n a ha
      · rw [ok] at h; cases h
  obtain ⟨c'', hc''⟩ := hex
  have := reset_eq_of_none_halted hwf' hc'' hcan (reset_none_halted hwf he ok)
  obtain ⟨t⟩ := c'
  obtain ⟨t''⟩ := c''
  simp only at this
  subst this
  exact hc''

section Example
open Fixtures

/-- Element 1 is halted by the first round and reset, element 0 keeps its values. -/
example : simple.WF ∧ simple.epsilon ≤ 1 ∧
    obs (run ⟨simple⟩ (roundOps [sround [1/2, 1] 4 6])) (fun c => c.haltedBatches.at? [1]) =
      some true ∧
    obs (run ⟨simple⟩ (roundOps [sround [1/2, 1] 4 6] ++ [.reset])) (fun c =>
      some (c.probabilities.at? [0], c.probabilities.at? [1],
        entry? c.accumulators "out" 0 [0, 0], entry? c.accumulators "out" 0 [1, 0])) =
      some (some (1/2), some 0, some 2, some 0) :=
  ⟨simple_wf, by decide +kernel, by decide +kernel, by decide +kernel⟩

/-- A pending update. -/
example : raised (run ⟨simple⟩ [.cache "out" (bare (col 1 2)), .reset]) = some .runtimeError := by
  decide +kernel

end Example
end JaxAct
