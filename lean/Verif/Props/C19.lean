import Verif.Lemmas.Rounded
import Verif.Props.Fixtures

/-! # C19 Total probability is exactly one under floating point rounding -/

namespace JaxAct
open Fmt

/-- The arithmetic fact behind C19: for every precision and every number `p` of the format in
`[0, 1]`, the rounded sum of `p` and the rounded remainder `1 - p` is exactly one. -/
theorem C19_remainder_exact {f : Fmt} (hf : f.Valid) {p : ℚ} (hr : f.Rep p) (h0 : 0 ≤ p)
    (h1 : p ≤ 1) : f.rnd (p + f.rnd (1 - p)) = 1 := rnd_add_remainder hf hr h0 h1

section Theorems
variable {F : DType → Fmt} [A : Arith ℚ]

/-- What is known of the cumulative probabilities after any history. -/
structure RoundedInv (F : DType → Fmt) (s : ACTStates ℚ) : Prop where
  fmt : (F s.probabilities.dtype).Valid
  eps : 0 ≤ s.epsilon
  dep : 0 ≤ s.depression_constant
  cells : ∀ b p, s.probabilities.at? b = some p →
    (F s.probabilities.dtype).Rep p ∧ 0 ≤ p ∧ p ≤ 1

/-- One iteration on one batch element. -/
theorem step_rounded_cases (hA : A = Arith.rounded F) {d dI : DType}
    (hd : d.isFloating = true) (hF : (F d).Valid) {eps dep : ℚ} (hdep : 0 ≤ dep)
    {c : Spec.Cell ℚ} (hr : (F d).Rep c.prob) (h0 : 0 ≤ c.prob) (h1 : c.prob ≤ 1) (h : ℚ) :
    (Spec.crosses d eps dep c.prob h = true ∧ (Spec.step d dI eps dep c h).prob = 1) ∨
    (Spec.crosses d eps dep c.prob h = false ∧ (F d).Rep (Spec.step d dI eps dep c h).prob ∧
      c.prob ≤ (Spec.step d dI eps dep c h).prob ∧
      (Spec.step d dI eps dep c h).prob ≤ Spec.threshold d eps) := by
  rw [Spec.step_rounded hA hd]
  cases hc : Spec.crosses d eps dep c.prob h with
  | true => exact .inl ⟨rfl, by rw [if_pos rfl]; exact rnd_add_remainder hF hr h0 h1⟩
  | false =>
    right
    refine ⟨rfl, ?_⟩
    rw [if_neg (by simp)]
    have := Spec.demand_rounded_nonneg hA hd (h := h) hdep
    refine ⟨rnd_rep hF.1 _, le_rnd_of_rep hF.1 hr (by linarith), ?_⟩
    by_contra hlt
    rw [not_le, ← Spec.crosses_rounded hA hd, hc] at hlt
    cases hlt

omit A in
theorem RoundedInv.cache {s s' : ACTStates ℚ} {n : String} {t : PyTree (Leaf ℚ)}
    (st : CacheStep s n t s') (inv : RoundedInv F s) : RoundedInv F s' := by
  obtain ⟨-, rfl⟩ := st
  exact ⟨inv.fmt, inv.eps, inv.dep, inv.cells⟩

theorem RoundedInv.iter (hA : A = Arith.rounded F) (hF64 : (F .f64).Valid) {s s' : ACTStates ℚ}
    {h : Tensor ℚ} (hwf : s.WF) (st : IterStep s h s') (inv : RoundedInv F s) :
    RoundedInv F s' := by
  obtain ⟨i1, i2, i3, i4⟩ := inv
  refine ⟨by rw [st.pdtype]; exact i1, by rw [st.epsilon]; exact i2,
    by rw [st.depression]; exact i3, fun b p' hp' => ?_⟩
  obtain ⟨p, hp⟩ := st.index hp'
  obtain ⟨r, n, x, -, -, -, hc, -, -⟩ := st.cellAt hwf hp
  rw [hp'] at hc
  cases hc
  obtain ⟨j1, j2, j3⟩ := i4 b p hp
  rw [st.pdtype]
  rcases step_rounded_cases hA (dI := s.iterations.dtype) (eps := s.epsilon) hwf.floating i1 i3
      (c := ⟨p, r, n⟩) j1 j2 j3 (convS h.dtype s.probabilities.dtype x) with ⟨-, k⟩ | ⟨-, k1, k2, k3⟩
  · rw [k]; exact ⟨rnd_one i1, zero_le_one, le_rfl⟩
  · exact ⟨k1, le_trans j2 k2, le_trans k3 (Spec.threshold_le_one hA hwf.floating i1 hF64 i2)⟩

/-- After a reset an element has its old probability if it was not halted, and 0 otherwise. -/
theorem reset_rounded (hA : A = Arith.rounded F) {s s' : ACTStates ℚ} (hwf : s.WF)
    (st : ResetStep s s') (inv : RoundedInv F s) {b : List Nat} {p' : ℚ}
    (hp' : s'.probabilities.at? b = some p') : ∃ p, s.probabilities.at? b = some p ∧
      p' = if Spec.isHalted s.probabilities.dtype s.epsilon p then 0 else p := by
  obtain ⟨p, hp⟩ := st.index hp'
  obtain ⟨r, n, hr, hn⟩ := hwf.cell hp
  obtain ⟨hc, -, -⟩ := st.cell b p r n hp hr hn
  rw [hp'] at hc
  cases hc
  refine ⟨p, hp, ?_⟩
  simp only [Spec.resetCell]
  rw [Spec.keepIf_rounded hA hwf.floating inv.fmt, show (F s.probabilities.dtype).rnd p = p from
    (inv.cells b p hp).1]
  cases Spec.isHalted s.probabilities.dtype s.epsilon p <;> simp

theorem RoundedInv.reset (hA : A = Arith.rounded F) {s s' : ACTStates ℚ} (hwf : s.WF)
    (st : ResetStep s s') (inv : RoundedInv F s) : RoundedInv F s' := by
  refine ⟨by rw [st.pdtype]; exact inv.fmt, by rw [st.epsilon]; exact inv.eps,
    by rw [st.depression]; exact inv.dep, fun b p' hp' => ?_⟩
  obtain ⟨p, hp, rfl⟩ := reset_rounded hA hwf st inv hp'
  rw [st.pdtype]
  split
  · exact ⟨rnd_zero _, le_rfl, zero_le_one⟩
  · exact inv.cells b p hp

theorem RoundedInv.run (hA : A = Arith.rounded F) (hF64 : (F .f64).Valid) {s : ACTStates ℚ}
    (hwf : s.WF) (inv : RoundedInv F s) (ops : List (Op ℚ)) {c' : Controller ℚ}
    (hrun : run ⟨s⟩ ops = .ok c') : RoundedInv F c'.state :=
  (run_induction (Inv := RoundedInv F) (fun _ _ _ _ _ st i => i.cache st)
    (fun _ _ _ hwf st i => i.iter hA hF64 hwf st) (fun _ _ hwf st i => i.reset hA hwf st)
    ops hwf inv hrun).2

/-- C19, bounds.  With round-to-nearest-even arithmetic in formats of any precision, after any
sequence of calls the cumulative probabilities are numbers of the format between 0 and 1. -/
theorem C19_probabilities_in_unit_interval (hA : A = Arith.rounded F) (hF64 : (F .f64).Valid)
    {s : ACTStates ℚ} (hwf : s.WF) (hF : (F s.probabilities.dtype).Valid)
    (he : 0 ≤ s.epsilon) (hdep : 0 ≤ s.depression_constant)
    (hp : ∀ b p, s.probabilities.at? b = some p →
      (F s.probabilities.dtype).rnd p = p ∧ 0 ≤ p ∧ p ≤ 1)
    (ops : List (Op ℚ)) {c' : Controller ℚ} (hrun : run ⟨s⟩ ops = .ok c') (b : List Nat) (p : ℚ)
    (hb : c'.probabilities.at? b = some p) : 0 ≤ p ∧ p ≤ 1 :=
  ((RoundedInv.run hA hF64 hwf ⟨hF, he, hdep, hp⟩ ops hrun).cells b p hb).2

/-- C19, exactness.  With rounding, an element that was not halted and is halted after some history
(resets included) has cumulative probability exactly one. -/
theorem C19_halted_probability_is_one (hA : A = Arith.rounded F) (hF64 : (F .f64).Valid)
    {s : ACTStates ℚ} (hwf : s.WF) (hF : (F s.probabilities.dtype).Valid)
    (he : 0 ≤ s.epsilon) (he1 : s.epsilon ≤ 1) (hdep : 0 ≤ s.depression_constant)
    (hp : ∀ b p, s.probabilities.at? b = some p →
      (F s.probabilities.dtype).rnd p = p ∧ 0 ≤ p ∧ p ≤ 1)
    {b : List Nat} (hb : (Controller.haltedBatches ⟨s⟩).at? b = some false)
    (ops : List (Op ℚ)) {c' : Controller ℚ} (hrun : run ⟨s⟩ ops = .ok c')
    (hb' : c'.haltedBatches.at? b = some true) : c'.probabilities.at? b = some 1 := by
  have := run_induction (Inv := fun t => RoundedInv F t ∧ t.epsilon ≤ 1 ∧
      ((Controller.haltedBatches ⟨t⟩).at? b = some true → t.probabilities.at? b = some 1))
      ?_ ?_ ?_ ops hwf ⟨⟨hF, he, hdep, hp⟩, he1, fun h => by rw [hb] at h; cases h⟩ hrun
  · exact this.2.2.2 hb'
  · rintro s n t s' - st ⟨inv, h1, h2⟩
    have := inv.cache st
    obtain ⟨-, rfl⟩ := st
    exact ⟨this, h1, h2⟩
  · rintro s h s' hwf st ⟨inv, h1, h2⟩
    refine ⟨inv.iter hA hF64 hwf st, by rw [st.epsilon]; exact h1, fun hb => ?_⟩
    rw [halted_iff (by rw [st.pdtype]; exact hwf.floating)] at hb
    obtain ⟨p', hp', hh⟩ := hb
    obtain ⟨p, hp⟩ := st.index hp'
    obtain ⟨r, n, x, -, -, -, hc, -, -⟩ := st.cellAt hwf hp
    rw [hp'] at hc
    cases hc
    obtain ⟨j1, j2, j3⟩ := inv.cells b p hp
    rcases step_rounded_cases hA (dI := s.iterations.dtype) (eps := s.epsilon) hwf.floating inv.fmt
      inv.dep (c := ⟨p, r, n⟩) j1 j2 j3 (convS h.dtype s.probabilities.dtype x)
      with ⟨-, k⟩ | ⟨-, k1, k2, k3⟩
    · rw [hp', k]
    · rw [st.pdtype, st.epsilon, Spec.isHalted_rounded hA] at hh
      linarith
  · rintro s s' hwf st ⟨inv, h1, h2⟩
    refine ⟨inv.reset hA hwf st, by rw [st.epsilon]; exact h1, fun hb => ?_⟩
    rw [halted_iff (by rw [st.pdtype]; exact hwf.floating)] at hb
    obtain ⟨p', hp', hh⟩ := hb
    obtain ⟨p, hp, rfl⟩ := reset_rounded hA hwf st inv hp'
    rw [st.pdtype, st.epsilon] at hh
    exfalso
    split at hh
    · rw [Spec.isHalted_rounded hA] at hh
      have := Spec.threshold_nonneg hA hwf.floating h1
      linarith
    · rename_i h; exact h hh

/-- C19, the crossing step.  If an iteration takes an element over the threshold (all quantities
computed with rounding), its new cumulative probability is exactly one; otherwise it is at most the
threshold. -/
theorem C19_crossing_gives_one (hA : A = Arith.rounded F)
    {s : ACTStates ℚ} (hwf : s.WF) (hF : (F s.probabilities.dtype).Valid)
    {h : Tensor ℚ} {c' : Controller ℚ}
    (hit : Controller.iterateAct ⟨s⟩ h = .ok c') {b : List Nat} {p x : ℚ}
    (hp : s.probabilities.at? b = some p) (hx : h.at? b = some x)
    (hr : (F s.probabilities.dtype).rnd p = p) (h0 : 0 ≤ p) (h1 : p ≤ 1) :
    let rnd := (F s.probabilities.dtype).rnd
    let threshold := rnd ((F .f64).rnd (1 - s.epsilon))
    let x' := if h.dtype = s.probabilities.dtype then x else rnd x
    let demand := rnd (rnd s.depression_constant * min 1 (max 0 x'))
    (threshold < rnd (p + demand) → c'.probabilities.at? b = some 1) ∧
    (rnd (p + demand) ≤ threshold → c'.probabilities.at? b = some (rnd (p + demand))) := by
  have st := Controller.iterateAct_ok hwf hit
  obtain ⟨r, n, y, -, -, hy, hc, -, -⟩ := st.cellAt hwf hp
  rw [hx] at hy
  cases hy
  have hconv : convS h.dtype s.probabilities.dtype x =
      if h.dtype = s.probabilities.dtype then x else (F s.probabilities.dtype).rnd x := by
    unfold convS
    split
    · rfl
    · have e : ∀ y : ℚ, Arith.cast s.probabilities.dtype y = (F s.probabilities.dtype).rnd y :=
        fun y => by subst hA; exact Spec.roundTo_float hwf.floating _
      exact e x
  have hcr := Spec.crosses_rounded hA hwf.floating (eps := s.epsilon)
    (dep := s.depression_constant) (p := p) (h := convS h.dtype s.probabilities.dtype x)
  have hst := Spec.step_rounded hA hwf.floating s.iterations.dtype s.epsilon s.depression_constant
    ⟨p, r, n⟩ (convS h.dtype s.probabilities.dtype x)
  rw [Spec.threshold_rounded hA hwf.floating] at hcr
  simp only [Spec.demand_rounded hA hwf.floating, hconv] at hcr hst hc
  refine ⟨fun hlt => ?_, fun hle => ?_⟩
  · refine hc.trans (congrArg some ?_)
    rw [hst, if_pos (hcr.2 hlt)]
    exact rnd_add_remainder hF hr h0 h1
  · refine hc.trans (congrArg some ?_)
    rw [hst, if_neg (fun h => absurd (hcr.1 h) (not_lt.2 hle))]

end Theorems

section Example
open Fixtures

/-- The formats of the floating dtypes are valid. -/
example : ∀ d : DType, d.fmt.Valid := by intro d; cases d <;> decide

/-- A three bit format where `1 - p` is inexact: `1 - 3/32` rounds to `7/8`, and `3/32 + 7/8`
rounds back to one (a tie, resolved by the even significand). -/
example : (⟨3, -10⟩ : Fmt).Valid ∧ (⟨3, -10⟩ : Fmt).Rep (3/32) ∧
    (⟨3, -10⟩ : Fmt).rnd (1 - 3/32) = 7/8 ∧ (⟨3, -10⟩ : Fmt).rnd (3/32 + 7/8) = 1 := by
  decide +kernel

attribute [local instance] ieee

/-- In IEEE arithmetic: 1/10 and 2/10 (as binary32 numbers), then a crossing. -/
example : obs (run ⟨fresh⟩ (roundOps [round [1/10, 9/10] 1 2, round [2/10, 9/10] 1 2,
    round [7/10, 9/10] 1 2])) (fun c => c.probabilities.at? [0]) = some 1 := by decide +kernel

end Example
end JaxAct
