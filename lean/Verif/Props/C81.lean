import Verif.Props.C54
import Mathlib.Data.List.Induction

/-!
# C81 The residual under rounding

C06 in floating point arithmetic.  The residual is the rounded remainder of the halting step: within
half a spacing of the true remainder, equal to it from one half on, and never zero.  Without the
assumption that the threshold is below one (C18) an element that does not halt gets a residual as well,
and loses it again.
-/

namespace JaxAct
open Fmt ACTStates

section Theorems
variable {F : DType → Fmt} [A : Arith ℚ]

omit A in
/-- From one half on, the remainder is a number of the format. -/
theorem rnd_remainder_half {f : Fmt} (hf : f.Valid) {p : ℚ} (hr : f.Rep p) (h0 : 1 / 2 ≤ p)
    (h1 : p ≤ 1) : f.rnd (1 - p) = 1 - p := by
  rcases h1.lt_or_eq with h1 | rfl
  · have hu := ulpExp_half hf h0 h1
    have hk : p = rne (p / f.ulp p) * f.ulp p := hr.symm
    unfold ulp at hk
    rw [hu] at hk
    have hinv : ((2 ^ f.prec : ℤ) : ℚ) * (2 : ℚ) ^ (-(f.prec : ℤ)) = 1 := by
      rw [zpow_neg, zpow_natCast]; push_cast
      exact mul_inv_cancel₀ (by positivity)
    refine rnd_exact hf.1 (g := -(f.prec : ℤ))
      (k := 2 ^ f.prec - rne (p / (2 : ℚ) ^ (-(f.prec : ℤ)))) hf.2 ?_ ?_
    · rw [Int.cast_sub, sub_mul, hinv, ← hk]
    · rw [neg_add_cancel, zpow_zero, abs_le]
      constructor <;> linarith
  · rw [sub_self, rnd_zero]

omit A in
/-- C81, the size of the rounded remainder of a number of the format between 0 and 1: it is between 0
and 1, within half a spacing of the true remainder, equal to it from one half on, it is zero for one
only, and it completes the number to exactly one. -/
theorem C81_remainder {f : Fmt} (hf : f.Valid) {p : ℚ} (hr : f.rnd p = p) (h0 : 0 ≤ p) (h1 : p ≤ 1) :
    0 ≤ f.rnd (1 - p) ∧ f.rnd (1 - p) ≤ 1 ∧
    |f.rnd (1 - p) - (1 - p)| ≤ (2 : ℚ) ^ (-(f.prec : ℤ)) / 2 ∧
    (1 / 2 ≤ p → f.rnd (1 - p) = 1 - p) ∧
    (f.rnd (1 - p) = 0 ↔ p = 1) ∧
    f.rnd (p + f.rnd (1 - p)) = 1 := by
  have hq0 : (0 : ℚ) < (2 : ℚ) ^ (-(f.prec : ℤ)) := zpow_pos (by norm_num) _
  have hqh : (2 : ℚ) ^ (-(f.prec : ℤ)) ≤ 1 / 2 := by
    have : (2 : ℚ) ^ (-(f.prec : ℤ)) ≤ (2 : ℚ) ^ (-1 : ℤ) :=
      zpow_le_zpow_right₀ (by norm_num) (by have := hf.1; omega)
    simpa using this
  have herr : |f.rnd (1 - p) - (1 - p)| ≤ (2 : ℚ) ^ (-(f.prec : ℤ)) / 2 := by
    rcases lt_or_ge p (1 / 2) with hh | hh
    · rcases h0.lt_or_eq with h0 | rfl
      · have := abs_rnd_sub_le (f := f) (1 - p)
        unfold ulp at this
        rwa [ulpExp_half hf (by linarith) (by linarith)] at this
      · rw [sub_zero, rnd_one hf, sub_self, abs_zero]
        linarith
    · rw [rnd_remainder_half hf hr hh h1, sub_self, abs_zero]
      linarith
  refine ⟨rnd_nonneg (by linarith), rnd_le_of_rep hf.1 (rnd_one hf) (by linarith), herr,
    fun h => rnd_remainder_half hf hr h h1, ⟨fun h => ?_, fun h => by rw [h, sub_self, rnd_zero]⟩,
    rnd_add_remainder hf hr h0 h1⟩
  rcases lt_or_ge p (1 / 2) with hh | hh
  · rw [h] at herr
    have := (abs_le.1 herr).1
    linarith
  · rw [rnd_remainder_half hf hr hh h1] at h
    linarith

/-- The residual of one step in rounded arithmetic. -/
theorem Spec.step_resid_rounded (hA : A = Arith.rounded F) {d : DType} (hd : d.isFloating = true)
    (dI : DType) (eps dep : ℚ) (c : Spec.Cell ℚ) (h : ℚ) : (Spec.step d dI eps dep c h).resid =
      if Spec.crosses d eps dep c.prob h && !Spec.isHalted d eps c.prob then (F d).rnd (1 - c.prob)
      else c.resid := by
  have hs : ∀ x : ℚ, Arith.sub d Arith.one x = (F d).rnd (1 - x) := fun x => by
    subst hA; exact Spec.roundTo_float hd _
  unfold Spec.step
  simp only [hs]

/-- C81.  Start with an element that is not halted and has residual 0, in rounded arithmetic and with
a threshold below one.  After any history (resets included): while it is not halted its residual is 0;
if it is halted, then there is a moment in the history, after the last reset, at which an
`iterate_act` halted it, and the residual is the rounded remainder of the cumulative probability `p`
held just before that call, which is a number of the format from 0 up to the threshold. -/
theorem C81_residual_under_rounding (hA : A = Arith.rounded F) (hF64 : (F .f64).Valid)
    {s : ACTStates ℚ} (hwf : s.WF) (hF : (F s.probabilities.dtype).Valid)
    (he0 : 0 ≤ s.epsilon) (he1 : s.epsilon ≤ 1) (hdep : 0 ≤ s.depression_constant)
    (hthr : (F s.probabilities.dtype).rnd ((F .f64).rnd (1 - s.epsilon)) < 1)
    (hcells : ∀ b p, s.probabilities.at? b = some p →
      (F s.probabilities.dtype).rnd p = p ∧ 0 ≤ p ∧ p ≤ 1)
    {b : List Nat} (hb : (Controller.haltedBatches ⟨s⟩).at? b = some false)
    (hres : s.residuals.at? b = some 0)
    (ops : List (Op ℚ)) {c' : Controller ℚ} (hrun : run ⟨s⟩ ops = .ok c') :
    (c'.haltedBatches.at? b = some false ∧ c'.residuals.at? b = some 0) ∨
    (c'.haltedBatches.at? b = some true ∧
      ∃ pre h post before after p, ops = pre ++ Op.iterate h :: post ∧
        (∀ op ∈ post, op.NotReset) ∧
        run ⟨s⟩ pre = .ok before ∧ before.haltedBatches.at? b = some false ∧
        before.iterateAct h = .ok after ∧ after.haltedBatches.at? b = some true ∧
        before.probabilities.at? b = some p ∧ (F s.probabilities.dtype).rnd p = p ∧ 0 ≤ p ∧
        p ≤ (F s.probabilities.dtype).rnd ((F .f64).rnd (1 - s.epsilon)) ∧
        c'.residuals.at? b = some ((F s.probabilities.dtype).rnd (1 - p))) := by
  suffices H : ∀ (ops : List (Op ℚ)) {c' : Controller ℚ}, run ⟨s⟩ ops = .ok c' →
      (RoundedInv F c'.state ∧ c'.state.epsilon = s.epsilon ∧
        c'.state.probabilities.dtype = s.probabilities.dtype) ∧
      ((c'.haltedBatches.at? b = some false ∧ c'.residuals.at? b = some 0) ∨
      (c'.haltedBatches.at? b = some true ∧
        ∃ pre h post before after p, ops = pre ++ Op.iterate h :: post ∧
          (∀ op ∈ post, op.NotReset) ∧
          run ⟨s⟩ pre = .ok before ∧ before.haltedBatches.at? b = some false ∧
          before.iterateAct h = .ok after ∧ after.haltedBatches.at? b = some true ∧
          before.probabilities.at? b = some p ∧ (F s.probabilities.dtype).rnd p = p ∧ 0 ≤ p ∧
          p ≤ (F s.probabilities.dtype).rnd ((F .f64).rnd (1 - s.epsilon)) ∧
          c'.residuals.at? b = some ((F s.probabilities.dtype).rnd (1 - p)))) from
    (H ops hrun).2
  intro ops
  induction ops using List.reverseRecOn with
  | nil =>
    intro c' h
    cases h
    exact ⟨⟨⟨hF, he0, hdep, hcells⟩, rfl, rfl⟩, .inl ⟨hb, hres⟩⟩
  | append_singleton ops op ih =>
    intro c' h
    rw [run_append, bind_ok] at h
    obtain ⟨⟨s1⟩, h1, h2⟩ := h
    obtain ⟨⟨inv, ke, kd⟩, hcase⟩ := ih h1
    have hwf1 : s1.WF := run_wf hwf h1
    simp only [run, bind_ok] at h2
    obtain ⟨⟨s2⟩, h2, h3⟩ := h2
    cases h3
    simp only at inv ke kd
    have hT : Spec.threshold s1.probabilities.dtype s1.epsilon =
        (F s.probabilities.dtype).rnd ((F .f64).rnd (1 - s.epsilon)) := by
      rw [Spec.threshold_rounded hA hwf1.floating, ke, kd]
    cases op with
    | cache n t =>
      have st := Controller.cacheUpdate_ok_iff.1 h2
      have inv2 := inv.cache st
      obtain ⟨-, heq⟩ := st
      simp only at heq
      subst heq
      refine ⟨⟨inv2, ke, kd⟩, ?_⟩
      rcases hcase with h | ⟨h, pre, hh, post, before, after, p, e1, e2, e3⟩
      · exact .inl h
      · refine .inr ⟨h, pre, hh, post ++ [.cache n t], before, after, p, by simp [e1], ?_, e3⟩
        intro op hop
        rcases List.mem_append.1 hop with ho | ho
        · exact e2 op ho
        · rw [List.mem_singleton] at ho; subst ho; trivial
    | iterate h =>
      have st := Controller.iterateAct_ok hwf1 h2
      simp only at st
      have inv2 := inv.iter hA hF64 hwf1 st
      refine ⟨⟨inv2, st.epsilon.trans ke, st.pdtype.trans kd⟩, ?_⟩
      rcases hcase with ⟨hh, hr⟩ |
        ⟨hhalt, pre, hh, post, before, after, p, e1, e2, e3, e4, e5, e6, e7, e8, e9, e10, e11⟩
      · have hh' := hh
        rw [halted_iff hwf1.floating] at hh
        obtain ⟨p, hp, hnh⟩ := hh
        obtain ⟨r, n, x, hr', hn, hx, c1, c2, c3⟩ := st.cellAt hwf1 hp
        obtain ⟨j1, j2, j3⟩ := inv.cells b p hp
        have : r = 0 := Option.some.inj (hr'.symm.trans hr)
        subst this
        have hple : p ≤ Spec.threshold s1.probabilities.dtype s1.epsilon := by
          rw [← not_lt, ← Spec.isHalted_rounded hA, hnh]
          simp
        have hsr := Spec.step_resid_rounded hA hwf1.floating s1.iterations.dtype s1.epsilon
          s1.depression_constant ⟨p, 0, n⟩ (convS h.dtype s1.probabilities.dtype x)
        rcases step_rounded_cases hA (dI := s1.iterations.dtype) (eps := s1.epsilon) hwf1.floating
          inv.fmt inv.dep (c := ⟨p, 0, n⟩) j1 j2 j3 (convS h.dtype s1.probabilities.dtype x)
          with ⟨hcr, k⟩ | ⟨hcr, -, -, k3⟩
        · right
          have hhalted : (Controller.haltedBatches ⟨s2⟩).at? b = some true := by
            rw [halted_iff (by rw [st.pdtype]; exact hwf1.floating)]
            refine ⟨_, c1, ?_⟩
            rw [st.pdtype, st.epsilon, Spec.isHalted_rounded hA, k, hT]
            exact hthr
          refine ⟨hhalted, ops, h, [], ⟨s1⟩, ⟨s2⟩, p, rfl, by simp, h1, hh', h2, hhalted, hp,
            by rw [← kd]; exact j1, j2, by rw [← hT]; exact hple, ?_⟩
          show s2.residuals.at? b = _
          rw [c2, hsr, hcr, hnh, kd]
          rfl
        · left
          constructor
          · rw [halted_iff (by rw [st.pdtype]; exact hwf1.floating)]
            refine ⟨_, c1, ?_⟩
            rw [st.pdtype, st.epsilon, ← Bool.not_eq_true, Spec.isHalted_rounded hA, not_lt]
            exact k3
          · show s2.residuals.at? b = _
            rw [c2, hsr, hcr]
            rfl
      · right
        have hstay := C54_halted_stays_halted hA hF64 hwf1 inv.fmt inv.eps inv.dep inv.cells hhalt
          [.iterate h] (by intro o ho; rw [List.mem_singleton] at ho; subst ho; trivial) (c' := ⟨s2⟩)
          (by simp only [run, h2, ok_bind])
        refine ⟨hstay, pre, hh, post ++ [.iterate h], before, after, p, by simp [e1], ?_,
          e3, e4, e5, e6, e7, e8, e9, e10, ?_⟩
        · intro op hop
          rcases List.mem_append.1 hop with ho | ho
          · exact e2 op ho
          · rw [List.mem_singleton] at ho; subst ho; trivial
        · rw [halted_iff hwf1.floating] at hhalt
          obtain ⟨q, hq, hhq⟩ := hhalt
          obtain ⟨r, n, x, hr', hn, hx, c1, c2, c3⟩ := st.cellAt hwf1 hq
          show s2.residuals.at? b = _
          rw [c2]
          simp only [Spec.step, hhq]
          rw [← e11]
          simp only [Controller.residuals, hr']
          simp
    | reset =>
      have st := Controller.resetBatches_ok hwf1 h2
      simp only at st
      have inv2 := inv.reset hA hwf1 st
      refine ⟨⟨inv2, st.epsilon.trans ke, st.pdtype.trans kd⟩, .inl ?_⟩
      have hany : ∃ x, (Controller.haltedBatches ⟨s1⟩).at? b = some x ∧
          (x = false → s1.residuals.at? b = some 0) := by
        rcases hcase with ⟨hh, hr⟩ | ⟨hh, -⟩
        · exact ⟨_, hh, fun _ => hr⟩
        · exact ⟨_, hh, fun h => by cases h⟩
      obtain ⟨x, hx, hxr⟩ := hany
      rw [halted_iff hwf1.floating] at hx
      obtain ⟨p, hp, hhp⟩ := hx
      obtain ⟨r, n, hr, hn⟩ := hwf1.cell hp
      obtain ⟨c1, c2, c3⟩ := st.cell b p r n hp hr hn
      obtain ⟨j1, j2, j3⟩ := inv.cells b p hp
      constructor
      · rw [halted_iff (by rw [st.pdtype]; exact hwf1.floating)]
        refine ⟨_, c1, ?_⟩
        rw [st.pdtype, st.epsilon, ← Bool.not_eq_true, Spec.isHalted_rounded hA, not_lt]
        simp only [Spec.resetCell]
        rw [Spec.keepIf_rounded hA hwf1.floating inv.fmt,
          show (F s1.probabilities.dtype).rnd p = p from j1]
        cases hx' : Spec.isHalted s1.probabilities.dtype s1.epsilon p with
        | true => simpa using Spec.threshold_nonneg hA hwf1.floating (by rw [ke]; exact he1)
        | false =>
          rw [← Bool.not_eq_true, Spec.isHalted_rounded hA, not_lt] at hx'
          simpa using hx'
      · show s2.residuals.at? b = _
        rw [c2]
        simp only [Spec.resetCell, hhp]
        rw [Spec.keepIf_rounded hA hwf1.floating inv.fmt]
        cases x with
        | true => rfl
        | false =>
          have := hxr rfl
          rw [hr] at this
          cases this
          simp [rnd_zero]

/-- C81: in rounded arithmetic a halted element never has a zero residual.  (The hypotheses are those of
`C81_residual_under_rounding`.) -/
theorem C81_residual_positive (hA : A = Arith.rounded F) (hF64 : (F .f64).Valid)
    {s : ACTStates ℚ} (hwf : s.WF) (hF : (F s.probabilities.dtype).Valid)
    (he0 : 0 ≤ s.epsilon) (he1 : s.epsilon ≤ 1) (hdep : 0 ≤ s.depression_constant)
    (hthr : (F s.probabilities.dtype).rnd ((F .f64).rnd (1 - s.epsilon)) < 1)
    (hcells : ∀ b p, s.probabilities.at? b = some p →
      (F s.probabilities.dtype).rnd p = p ∧ 0 ≤ p ∧ p ≤ 1)
    {b : List Nat} (hb : (Controller.haltedBatches ⟨s⟩).at? b = some false)
    (hres : s.residuals.at? b = some 0)
    (ops : List (Op ℚ)) {c' : Controller ℚ} (hrun : run ⟨s⟩ ops = .ok c') :
    c'.haltedBatches.at? b = some true ↔ ∃ r, c'.residuals.at? b = some r ∧ 0 < r ∧ r ≤ 1 := by
  rcases C81_residual_under_rounding hA hF64 hwf hF he0 he1 hdep hthr hcells hb hres ops hrun with
    ⟨h1, h2⟩ | ⟨h1, pre, h, post, before, after, p, -, -, -, -, -, -, -, e8, e9, e10, e11⟩
  · rw [h1, h2]
    constructor
    · intro h; cases h
    · rintro ⟨r, hr, h0, -⟩
      cases hr
      exact absurd h0 (lt_irrefl _)
  · refine ⟨fun _ => ⟨_, e11, ?_⟩, fun _ => h1⟩
    have hp1 : p < 1 := lt_of_le_of_lt e10 hthr
    obtain ⟨a1, a2, -, -, a5, -⟩ := C81_remainder hF e8 e9 hp1.le
    exact ⟨lt_of_le_of_ne a1 (fun h => hp1.ne (a5.1 h.symm)), a2⟩

end Theorems

section Example
open Fixtures
attribute [local instance] ieee

/-- The hypothesis on the threshold for the default configuration. -/
example : DType.f32.fmt.rnd (DType.f64.fmt.rnd (1 - 1/10000)) < 1 := by decide +kernel

/-- Element 0 is at the binary32 number nearest to 0.1 when it halts: its residual is `1 - p` rounded, which
is not `1 - p`.  Element 1 has not halted. -/
example : obs (run ⟨fresh⟩ (roundOps [round [13421773/134217728, 1/10] 1 2, round [1, 2/10] 1 2]))
    (fun c => some (c.residuals.at? [0], c.residuals.at? [1])) =
    some (some (15099494/16777216), some 0) ∧
    (15099494/16777216 : ℚ) ≠ 1 - 13421773/134217728 := by decide +kernel

/-- C81: with a threshold that rounds to one (`epsilon = 2^-26` in `float32`, C18), an element that is not
halted has residual 1/2 after the second iteration and residual 0 after the third: the residual of the step
that completed its probability is lost. -/
theorem C81_tiny_epsilon_loses_residual :
    obs (run ⟨baseState [1] .f32 (1 / 2 ^ 26) 1 Option.none⟩ [.iterate (vec [1/2]), .iterate (vec [3/4])])
      (fun c => some (c.residuals.at? [0], c.haltedBatches.at? [0])) =
        some (some (1/2), some false) ∧
    obs (run ⟨baseState [1] .f32 (1 / 2 ^ 26) 1 Option.none⟩ [.iterate (vec [1/2]), .iterate (vec [3/4]),
        .iterate (vec [3/4])])
      (fun c => some (c.residuals.at? [0], c.haltedBatches.at? [0])) =
        some (some 0, some false) := by
  decide +kernel

end Example

end JaxAct
