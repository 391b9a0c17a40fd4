import Verif.Lemmas.Editor
import Verif.Props.Fixtures

/-! # C28 Editor setters keep the edited state sane -/

namespace JaxAct
open Editor
variable {α : Type} [Arith α]

omit [Arith α] in
/-- The outcome of a checked setter: `new` if the condition holds, `JaxRuntimeError` otherwise. -/
def CheckedOutcome (r : Res (Editor α)) (P : Prop) (new : Editor α) : Prop :=
  (r = .ok new ↔ P) ∧ (r = .error .jaxRuntimeError ↔ ¬ P)

omit [Arith α] in
theorem checkedOutcome_of {e : Editor α} (hm : e.errorMode = "standard") (b : Bool)
    (s' : ACTStates α) (P : Prop) (hb : b = true ↔ P) :
    CheckedOutcome (do e.executeValidation (.ok b); let st ← (Except.ok s' : Res (ACTStates α)); pure (Editor.mk st e.errorMode))
      P ⟨s', e.errorMode⟩ := by
  rw [executeValidation_standard hm]
  cases b
  · have : ¬ P := by rw [← hb]; simp
    simp [CheckedOutcome, this, bind, Except.bind]
  · have : P := hb.1 rfl
    simp [CheckedOutcome, this, bind, Except.bind, pure, Except.pure]

/-- C28 `set_probabilities`, standard mode: succeeds, changing exactly the probabilities, iff the new
tensor has the old shape and dtype and no entry below 0 or above 1; otherwise `JaxRuntimeError`.
Any arithmetic (a NaN is neither below 0 nor above 1). -/
theorem C28_set_probabilities {e : Editor α} (hwf : e.state.WF) (hm : e.errorMode = "standard")
    (v : Tensor α) :
    CheckedOutcome (e.setProbabilities v)
      (v.shape = e.state.probabilities.shape ∧ v.dtype = e.state.probabilities.dtype ∧
        ∀ i x, v.at? i = some x → Arith.lt x Arith.zero = false ∧ Arith.lt Arith.one x = false)
      ⟨{ e.state with probabilities := v }, e.errorMode⟩ := by
  refine checkedOutcome_of hm _ _ _ ?_
  rw [Bool.and_eq_true, Bool.and_eq_true, sameShape, sameDtype, decide_eq_true_iff,
    decide_eq_true_iff]
  constructor
  · rintro ⟨⟨h1, h2⟩, h3⟩
    exact ⟨h1.symm, h2.symm, (isProbability_iff (h2 ▸ hwf.floating)).1 h3⟩
  · rintro ⟨h1, h2, h3⟩
    exact ⟨⟨h1.symm, h2.symm⟩, (isProbability_iff (h2 ▸ hwf.floating)).2 h3⟩

/-- C28 `set_residuals`, standard mode. -/
theorem C28_set_residuals {e : Editor α} (hwf : e.state.WF) (hm : e.errorMode = "standard")
    (v : Tensor α) :
    CheckedOutcome (e.setResiduals v)
      (v.shape = e.state.residuals.shape ∧ v.dtype = e.state.residuals.dtype ∧
        ∀ i x, v.at? i = some x → Arith.lt x Arith.zero = false ∧ Arith.lt Arith.one x = false)
      ⟨{ e.state with residuals := v }, e.errorMode⟩ := by
  refine checkedOutcome_of hm _ _ _ ?_
  have hfl : e.state.residuals.dtype.isFloating = true := hwf.res_dtype ▸ hwf.floating
  rw [Bool.and_eq_true, Bool.and_eq_true, sameShape, sameDtype, decide_eq_true_iff,
    decide_eq_true_iff]
  constructor
  · rintro ⟨⟨h1, h2⟩, h3⟩
    exact ⟨h1.symm, h2.symm, (isProbability_iff (h2 ▸ hfl)).1 h3⟩
  · rintro ⟨h1, h2, h3⟩
    exact ⟨⟨h1.symm, h2.symm⟩, (isProbability_iff (h2 ▸ hfl)).2 h3⟩

/-- C28 `set_iterations`, standard mode. -/
theorem C28_set_iterations {e : Editor α} (hwf : e.state.WF) (hm : e.errorMode = "standard")
    (v : Tensor α) :
    CheckedOutcome (e.setIterations v)
      (v.shape = e.state.iterations.shape ∧ v.dtype = e.state.iterations.dtype ∧
        ∀ i x, v.at? i = some x → Arith.le Arith.zero x = true)
      ⟨{ e.state with iterations := v }, e.errorMode⟩ := by
  refine checkedOutcome_of hm _ _ _ ?_
  rw [Bool.and_eq_true, Bool.and_eq_true, sameShape, sameDtype, decide_eq_true_iff,
    decide_eq_true_iff]
  constructor
  · rintro ⟨⟨h1, h2⟩, h3⟩
    exact ⟨h1.symm, h2.symm, (isNatural_iff (h2 ▸ hwf.it_dtype)).1 h3⟩
  · rintro ⟨h1, h2, h3⟩
    exact ⟨⟨h1.symm, h2.symm⟩, (isNatural_iff (h2 ▸ hwf.it_dtype)).2 h3⟩

/-- C28 `set_epsilon`, standard mode. -/
theorem C28_set_epsilon {e : Editor α} (hm : e.errorMode = "standard") (v : α) :
    CheckedOutcome (e.setEpsilon v)
      (Arith.le Arith.zero v = true ∧ Arith.le v Arith.one = true)
      ⟨{ e.state with epsilon := v }, e.errorMode⟩ := by
  refine checkedOutcome_of hm _ _ _ ?_
  rw [Bool.and_eq_true]

/-- C28: outside standard mode every value is accepted and exactly the field is changed. -/
theorem C28_silence {e : Editor α} (hm : e.errorMode ≠ "standard") :
    (∀ v, e.setProbabilities v = .ok ⟨{ e.state with probabilities := v }, e.errorMode⟩) ∧
    (∀ v, e.setResiduals v = .ok ⟨{ e.state with residuals := v }, e.errorMode⟩) ∧
    (∀ v, e.setIterations v = .ok ⟨{ e.state with iterations := v }, e.errorMode⟩) ∧
    (∀ v, e.setEpsilon v = .ok ⟨{ e.state with epsilon := v }, e.errorMode⟩) := by
  refine ⟨fun v => ?_, fun v => ?_, fun v => ?_, fun v => ?_⟩
  · unfold setProbabilities; rw [executeValidation_silent hm]; rfl
  · unfold setResiduals; rw [executeValidation_silent hm]; rfl
  · unfold setIterations; rw [executeValidation_silent hm]; rfl
  · unfold setEpsilon; rw [executeValidation_silent hm]; rfl

/-- C28: a state edited in standard mode by any of the four setters is still well formed. -/
theorem C28_wf_preserved {e e' : Editor α} (hwf : e.state.WF) (hm : e.errorMode = "standard")
    (h : (∃ v, e.setProbabilities v = .ok e') ∨ (∃ v, e.setResiduals v = .ok e') ∨
      (∃ v, e.setIterations v = .ok e') ∨ ∃ v, e.setEpsilon v = .ok e') :
    e'.state.WF ∧ e'.errorMode = e.errorMode := by
  have key : ∀ {r : Res (Editor α)} {P : Prop} {n : Editor α}, CheckedOutcome r P n → r = .ok e' →
      P ∧ e' = n := by
    intro r P n hc hr
    by_cases hp : P
    · have := hc.1.2 hp
      rw [hr] at this
      exact ⟨hp, by cases this; rfl⟩
    · have := hc.2.2 hp
      rw [hr] at this
      cases this
  rcases h with ⟨v, h⟩ | ⟨v, h⟩ | ⟨v, h⟩ | ⟨v, h⟩
  · obtain ⟨⟨h1, h2, -⟩, rfl⟩ := key (C28_set_probabilities hwf hm v) h
    refine ⟨⟨h2 ▸ hwf.floating, hwf.res_shape.trans h1.symm, hwf.res_dtype.trans h2.symm,
      hwf.it_shape.trans h1.symm, hwf.it_dtype, hwf.acc_keys, hwf.def_keys, hwf.upd_keys, hwf.def_iff,
      hwf.upd_iff, ?_, hwf.same⟩, rfl⟩
    intro n t ht
    show Batched v.shape t
    rw [h1]
    exact hwf.batched n t ht
  · obtain ⟨⟨h1, h2, -⟩, rfl⟩ := key (C28_set_residuals hwf hm v) h
    exact ⟨⟨hwf.floating, h1.trans hwf.res_shape, h2.trans hwf.res_dtype, hwf.it_shape, hwf.it_dtype,
      hwf.acc_keys, hwf.def_keys, hwf.upd_keys, hwf.def_iff, hwf.upd_iff, hwf.batched, hwf.same⟩, rfl⟩
  · obtain ⟨⟨h1, h2, -⟩, rfl⟩ := key (C28_set_iterations hwf hm v) h
    refine ⟨⟨hwf.floating, hwf.res_shape, hwf.res_dtype, h1.trans hwf.it_shape, ?_,
      hwf.acc_keys, hwf.def_keys, hwf.upd_keys, hwf.def_iff, hwf.upd_iff, hwf.batched, hwf.same⟩, rfl⟩
    show v.dtype ≠ _
    rw [h2]; exact hwf.it_dtype
  · obtain ⟨-, rfl⟩ := key (C28_set_epsilon hm v) h
    exact ⟨⟨hwf.floating, hwf.res_shape, hwf.res_dtype, hwf.it_shape, hwf.it_dtype,
      hwf.acc_keys, hwf.def_keys, hwf.upd_keys, hwf.def_iff, hwf.upd_iff, hwf.batched, hwf.same⟩, rfl⟩

section Exact
variable {K : Type} [Field K] [LinearOrder K]
attribute [local instance] Arith.exact

/-- C28 in exact arithmetic: `set_probabilities` and `set_residuals` succeed iff shape and dtype are
kept and every entry is in `[0, 1]`. -/
theorem C28_exact_probability {e : Editor K} (hwf : e.state.WF) (hm : e.errorMode = "standard")
    (v : Tensor K) :
    ((∃ e', e.setProbabilities v = .ok e') ↔
      v.shape = e.state.probabilities.shape ∧ v.dtype = e.state.probabilities.dtype ∧
        ∀ i x, v.at? i = some x → 0 ≤ x ∧ x ≤ 1) ∧
    ((∃ e', e.setResiduals v = .ok e') ↔
      v.shape = e.state.residuals.shape ∧ v.dtype = e.state.residuals.dtype ∧
        ∀ i x, v.at? i = some x → 0 ≤ x ∧ x ≤ 1) := by
  have key : ∀ {r : Res (Editor K)} {P : Prop} {n : Editor K}, CheckedOutcome r P n →
      ((∃ e', r = .ok e') ↔ P) := by
    intro r P n hc
    constructor
    · rintro ⟨e', he⟩
      by_contra hp
      rw [hc.2.2 hp] at he
      cases he
    · exact fun hp => ⟨n, hc.1.2 hp⟩
  have h1 := key (C28_set_probabilities hwf hm v)
  have h2 := key (C28_set_residuals hwf hm v)
  have e1 : ∀ x : K, (Arith.lt x Arith.zero = false ∧ Arith.lt Arith.one x = false) ↔
      (0 ≤ x ∧ x ≤ 1) := by
    intro x
    show (decide (x < 0) = false ∧ decide (1 < x) = false) ↔ _
    simp
  simp only [e1] at h1 h2
  exact ⟨h1, h2⟩

end Exact

section Example
open Fixtures
attribute [local instance] Arith.exact

/-- A setter that succeeds, one that fails by value, one that fails by shape, and the silent mode. -/
example : fresh.WF ∧
    (Editor.setProbabilities ⟨fresh, "standard"⟩ (vec [1/2, 1])).toOption.bind
      (fun e => e.state.probabilities.at? [0]) = some (1/2) ∧
    raised (Editor.setProbabilities ⟨fresh, "standard"⟩ (vec [1/2, 3/2])) = some .jaxRuntimeError ∧
    raised (Editor.setResiduals ⟨fresh, "standard"⟩ (vec [1/2])) = some .jaxRuntimeError ∧
    raised (Editor.setIterations ⟨fresh, "standard"⟩ (vec [-1, 0])) = some .jaxRuntimeError ∧
    raised (Editor.setEpsilon ⟨fresh, "standard"⟩ 2) = some .jaxRuntimeError ∧
    raised (Editor.setProbabilities ⟨fresh, "silence"⟩ (vec [7])) = none :=
  ⟨fresh_wf, by decide +kernel, by decide +kernel, by decide +kernel, by decide +kernel,
    by decide +kernel, by decide +kernel⟩

end Example
end JaxAct
