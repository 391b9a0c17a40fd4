import Verif.Props.C02
import Mathlib.Data.List.Induction

/-! # C06 Residual is the remainder at the halting step -/

namespace JaxAct
open ACTStates
variable {K : Type} [Field K] [LinearOrder K] [IsStrictOrderedRing K]
attribute [local instance] Arith.exact

/-- C06.  Start with an element that is not halted and has residual 0.  After any history (resets
included): while it is not halted its residual is 0; if it is halted, then there is a moment in the
history, after the last reset, at which an `iterate_act` halted it, and the residual is one minus the
cumulative probability held just before that call. -/
theorem C06_residual_is_remainder {s : ACTStates K} (hwf : s.WF)
    (he0 : 0 < s.epsilon) (he1 : s.epsilon ≤ 1) (hdep : 0 ≤ s.depression_constant)
    {b : List Nat} (hb : (Controller.haltedBatches ⟨s⟩).at? b = some false)
    (hres : s.residuals.at? b = some 0)
    (ops : List (Op K)) {c' : Controller K} (hrun : run ⟨s⟩ ops = .ok c') :
    (c'.haltedBatches.at? b = some false ∧ c'.residuals.at? b = some 0) ∨
    (c'.haltedBatches.at? b = some true ∧
      ∃ pre h post before after p, ops = pre ++ Op.iterate h :: post ∧
        (∀ op ∈ post, op.NotReset) ∧
        run ⟨s⟩ pre = .ok before ∧ before.haltedBatches.at? b = some false ∧
        before.iterateAct h = .ok after ∧ after.haltedBatches.at? b = some true ∧
        before.probabilities.at? b = some p ∧ c'.residuals.at? b = some (1 - p)) := by
  suffices H : ∀ (ops : List (Op K)) {c' : Controller K}, run ⟨s⟩ ops = .ok c' →
      (0 < c'.state.epsilon ∧ c'.state.epsilon ≤ 1 ∧ 0 ≤ c'.state.depression_constant) ∧
      ((c'.haltedBatches.at? b = some false ∧ c'.residuals.at? b = some 0) ∨
      (c'.haltedBatches.at? b = some true ∧
        ∃ pre h post before after p, ops = pre ++ Op.iterate h :: post ∧
          (∀ op ∈ post, op.NotReset) ∧
          run ⟨s⟩ pre = .ok before ∧ before.haltedBatches.at? b = some false ∧
          before.iterateAct h = .ok after ∧ after.haltedBatches.at? b = some true ∧
          before.probabilities.at? b = some p ∧ c'.residuals.at? b = some (1 - p))) from
    (H ops hrun).2
  intro ops
  induction ops using List.reverseRecOn with
  | nil =>
    intro c' h
    cases h
    exact ⟨⟨he0, he1, hdep⟩, .inl ⟨hb, hres⟩⟩
  | append_singleton ops op ih =>
    intro c' h
    rw [run_append, bind_ok] at h
    obtain ⟨⟨s1⟩, h1, h2⟩ := h
    obtain ⟨⟨k0, k1, k2⟩, hcase⟩ := ih h1
    have hwf1 : s1.WF := run_wf hwf h1
    simp only [run, bind_ok] at h2
    obtain ⟨⟨s2⟩, h2, h3⟩ := h2
    cases h3
    cases op with
    | cache n t =>
      obtain ⟨-, heq⟩ := Controller.cacheUpdate_ok_iff.1 h2
      simp only at heq
      subst heq
      refine ⟨⟨k0, k1, k2⟩, ?_⟩
      rcases hcase with h | ⟨h, pre, hh, post, before, after, p, e1, e2, e3, e4, e5, e6, e7, e8⟩
      · exact .inl h
      · refine .inr ⟨h, pre, hh, post ++ [.cache n t], before, after, p, by simp [e1], ?_,
          e3, e4, e5, e6, e7, e8⟩
        intro op hop
        rcases List.mem_append.1 hop with ho | ho
        · exact e2 op ho
        · rw [List.mem_singleton] at ho; subst ho; trivial
    | iterate h =>
      have st := Controller.iterateAct_ok hwf1 h2
      simp only at st k0 k1 k2
      refine ⟨⟨by simp only [st.epsilon]; exact k0, by simp only [st.epsilon]; exact k1,
        by simp only [st.depression]; exact k2⟩, ?_⟩
      rcases hcase with ⟨hh, hr⟩ | ⟨hhalt, pre, hh, post, before, after, p, e1, e2, e3, e4, e5, e6, e7, e8⟩
      · have hh' := hh
        rw [halted_iff hwf1.floating] at hh
        obtain ⟨p, hp, hnh⟩ := hh
        obtain ⟨r, n, x, hr', hn, hx, c1, c2, c3⟩ := st.cellAt hwf1 hp
        have : r = 0 := by
          have := hr'.symm.trans hr
          exact Option.some.inj this
        subst this
        by_cases hcr : Spec.crosses s1.probabilities.dtype s1.epsilon s1.depression_constant p
            (convS h.dtype s1.probabilities.dtype x) = true
        · right
          have hhalted : (Controller.haltedBatches ⟨s2⟩).at? b = some true := by
            rw [halted_iff (by rw [st.pdtype]; exact hwf1.floating)]
            refine ⟨_, c1, ?_⟩
            rw [st.pdtype, st.epsilon, Spec.halted_step_iff k0]
            exact hcr
          refine ⟨hhalted, ops, h, [], ⟨s1⟩, ⟨s2⟩, p, rfl, by simp, h1, hh', h2, hhalted, hp, ?_⟩
          show s2.residuals.at? b = _
          rw [c2]
          simp only [Spec.step, hcr, hnh]
          rfl
        · left
          have hcr' := Bool.eq_false_iff.2 hcr
          constructor
          · rw [halted_iff (by rw [st.pdtype]; exact hwf1.floating)]
            refine ⟨_, c1, ?_⟩
            rw [st.pdtype, st.epsilon]
            rw [← Bool.not_eq_true, Spec.halted_step_iff k0]
            exact hcr
          · show s2.residuals.at? b = _
            rw [c2]
            simp only [Spec.step, hcr']
            rfl
      · right
        have hstay := C02_halted_stays_halted hwf1 k0 k2 hhalt [.iterate h]
          (by intro o ho; rw [List.mem_singleton] at ho; subst ho; trivial) (c' := ⟨s2⟩)
          (by simp only [run, h2, ok_bind])
        refine ⟨hstay, pre, hh, post ++ [.iterate h], before, after, p, by simp [e1], ?_,
          e3, e4, e5, e6, e7, ?_⟩
        · intro op hop
          rcases List.mem_append.1 hop with ho | ho
          · exact e2 op ho
          · rw [List.mem_singleton] at ho; subst ho; trivial
        · rw [halted_iff hwf1.floating] at hhalt
          obtain ⟨q, hq, hhq⟩ := hhalt
          obtain ⟨r, n, x, hr', hn, hx, c1, c2, c3⟩ := st.cellAt hwf1 hq
          show s2.residuals.at? b = _
          rw [c2]
          simp only [Spec.step, hhq]
          rw [← e8]
          simp only [Controller.residuals, hr']
          simp
    | reset =>
      have st := Controller.resetBatches_ok hwf1 h2
      simp only at st k0 k1 k2
      refine ⟨⟨by simp only [st.epsilon]; exact k0, by simp only [st.epsilon]; exact k1,
        by simp only [st.depression]; exact k2⟩, .inl ?_⟩
      have hany : ∃ x, (Controller.haltedBatches ⟨s1⟩).at? b = some x ∧
          (x = false → s1.residuals.at? b = some 0) := by
        rcases hcase with ⟨hh, hr⟩ | ⟨hh, -⟩
        · exact ⟨_, hh, fun _ => hr⟩
        · exact ⟨_, hh, fun h => by cases h⟩
      obtain ⟨x, hx, hxr⟩ := hany
      rw [halted_iff hwf1.floating] at hx
      obtain ⟨p, hp, hhp⟩ := hx
      obtain ⟨r, n, hr, hn⟩ := hwf1.cell hp
      obtain ⟨c1, c2, c3⟩ := st.cell b p r n hp hr hn
      constructor
      · rw [halted_iff (by rw [st.pdtype]; exact hwf1.floating)]
        refine ⟨_, c1, ?_⟩
        rw [st.pdtype, st.epsilon, Spec.isHalted_false_iff]
        simp only [Spec.resetCell, Spec.keepIf_eq]
        split
        · rename_i hnot
          rw [Bool.not_eq_true', Spec.isHalted_false_iff] at hnot
          exact hnot
        · linarith
      · show s2.residuals.at? b = _
        rw [c2]
        simp only [Spec.resetCell, Spec.keepIf_eq, hhp]
        cases x with
        | true => rfl
        | false =>
          have := hxr rfl
          rw [hr] at this
          cases this
          rfl

section Example
open Fixtures

/-- Element 1 halts in the second round, after having reached 2/3: residual 1/3. -/
example : obs (run ⟨fresh⟩ (roundOps [round [1/2, 2/3] 4 6, round [1/4, 2/3] 8 3]))
      (fun c => some (c.residuals.at? [0], c.residuals.at? [1])) =
    some (some 0, some (1/3)) := by decide +kernel

end Example

end JaxAct
