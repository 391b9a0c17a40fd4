import Verif.Props.C17
import Verif.Props.C18

/-!
# C54 Halting is reached under rounding exactly when the steps are not lost

C17 in floating point arithmetic.  A step of at least one unit in the last place below one is never
lost, so halting is reached; a smaller one can be lost for ever.
-/

namespace JaxAct
open Fmt ACTStates

section Theorems
variable {F : DType → Fmt} [A : Arith ℚ]

omit A in
/-- A sum below one loses at most half of `2^-prec`. -/
theorem rnd_add_lower {f : Fmt} (hf : f.Valid) {y : ℚ} (h0 : 0 ≤ y) (h1 : y < 1) :
    y - (2 : ℚ) ^ (-(f.prec : ℤ)) / 2 ≤ f.rnd y := by
  have hq0 : (0 : ℚ) < (2 : ℚ) ^ (-(f.prec : ℤ)) := zpow_pos (by norm_num) _
  rcases h0.lt_or_eq with h0 | rfl
  · have hu : f.ulp y ≤ (2 : ℚ) ^ (-(f.prec : ℤ)) := by
      refine zpow_le_zpow_right₀ (by norm_num) ?_
      have h2 := hf.2
      have : Int.log 2 |y| < 0 := by
        rw [abs_of_pos h0, ← Int.lt_zpow_iff_log_lt (by norm_num) h0]; simpa using h1
      unfold ulpExp
      omega
    have := abs_le.1 (abs_rnd_sub_le (f := f) y)
    linarith [this.1]
  · rw [rnd_zero]; linarith

/-- With rounding, a halted element stays halted (without resets). -/
theorem C54_halted_stays_halted (hA : A = Arith.rounded F) (hF64 : (F .f64).Valid)
    {s : ACTStates ℚ} (hwf : s.WF) (hF : (F s.probabilities.dtype).Valid)
    (he : 0 ≤ s.epsilon) (hdep : 0 ≤ s.depression_constant)
    (hp : ∀ b p, s.probabilities.at? b = some p →
      (F s.probabilities.dtype).rnd p = p ∧ 0 ≤ p ∧ p ≤ 1)
    {b : List Nat} (hb : (Controller.haltedBatches ⟨s⟩).at? b = some true)
    (ops : List (Op ℚ)) (hn : ∀ op ∈ ops, op.NotReset) {c' : Controller ℚ}
    (hrun : run ⟨s⟩ ops = .ok c') : c'.haltedBatches.at? b = some true := by
  refine (run_induction_noReset (Inv := fun t => RoundedInv F t ∧
    (Controller.haltedBatches ⟨t⟩).at? b = some true) ?_ ?_ ops hn hwf
    ⟨⟨hF, he, hdep, hp⟩, hb⟩ hrun).2.2
  · rintro s n t s' - st ⟨inv, h⟩
    have := inv.cache st
    obtain ⟨-, rfl⟩ := st
    exact ⟨this, h⟩
  · rintro s h s' hwf st ⟨inv, hb⟩
    refine ⟨inv.iter hA hF64 hwf st, ?_⟩
    obtain ⟨p, hp, hh⟩ := (halted_iff hwf.floating).1 hb
    obtain ⟨r, n, x, -, -, -, hc, -, -⟩ := st.cellAt hwf hp
    rw [halted_iff (by rw [st.pdtype]; exact hwf.floating)]
    refine ⟨_, hc, ?_⟩
    rw [Spec.isHalted_rounded hA] at hh
    rw [st.pdtype, st.epsilon, Spec.isHalted_rounded hA]
    obtain ⟨j1, j2, j3⟩ := inv.cells b p hp
    rcases step_rounded_cases hA (dI := s.iterations.dtype) (eps := s.epsilon) hwf.floating inv.fmt
      inv.dep (c := ⟨p, r, n⟩) j1 j2 j3 (convS h.dtype s.probabilities.dtype x)
      with ⟨-, k⟩ | ⟨-, -, k2, -⟩
    · rw [k]; linarith
    · exact lt_of_lt_of_le hh k2

/-- Each iteration adds at least `q / 2` until the element is halted. -/
theorem potential_rounded (hA : A = Arith.rounded F) (hF64 : (F .f64).Valid) {b : List Nat} {q : ℚ} :
    ∀ (ops : List (Op ℚ)) {s : ACTStates ℚ} {c' : Controller ℚ}, s.WF → RoundedInv F s →
    (F s.probabilities.dtype).rnd ((F .f64).rnd (1 - s.epsilon)) < 1 →
    (2 : ℚ) ^ (-((F s.probabilities.dtype).prec : ℤ)) ≤ q →
    (∀ op ∈ ops, op.NotReset) →
    (∀ h x, Op.iterate h ∈ ops → h.at? b = some x →
      q ≤ Spec.demand s.probabilities.dtype s.depression_constant
        (convS h.dtype s.probabilities.dtype x)) →
    run ⟨s⟩ ops = .ok c' → ∀ p, s.probabilities.at? b = some p →
      c'.haltedBatches.at? b = some true ∨
      ∃ p', c'.probabilities.at? b = some p' ∧ p + countIterates ops * (q / 2) ≤ p'
  | [], s, c', hwf, _, _, _, _, _, hrun, p, hp => by
    cases hrun
    exact .inr ⟨p, hp, by simp [countIterates]⟩
  | .cache n t :: ops, s, c', hwf, inv, ht, hq, hn, hh, hrun, p, hp => by
    simp only [run, bind_ok, Op.call] at hrun
    obtain ⟨⟨s1⟩, h1, h2⟩ := hrun
    have st := Controller.cacheUpdate_ok_iff.1 h1
    have hwf1 := Controller.CacheStep.wf hwf st
    have inv1 := inv.cache st
    obtain ⟨-, rfl⟩ := st
    exact potential_rounded hA hF64 ops hwf1 inv1 ht hq (fun op ho => hn op (by simp [ho]))
      (fun h x hm => hh h x (by simp [hm])) h2 p hp
  | .iterate h :: ops, s, c', hwf, inv, ht, hq, hn, hh, hrun, p, hp => by
    simp only [run, bind_ok, Op.call] at hrun
    obtain ⟨⟨s1⟩, h1, h2⟩ := hrun
    have st := Controller.iterateAct_ok hwf h1
    have hwf1 := Controller.IterStep.wf hwf st
    have inv1 := inv.iter hA hF64 hwf st
    obtain ⟨r, n, x, -, -, hx, hc, -, -⟩ := st.cellAt hwf hp
    simp only at st hwf1 hc inv1
    have hn' : ∀ op ∈ ops, op.NotReset := fun op ho => hn op (by simp [ho])
    obtain ⟨j1, j2, j3⟩ := inv.cells b p hp
    rcases step_rounded_cases hA (dI := s.iterations.dtype) (eps := s.epsilon) hwf.floating inv.fmt
      inv.dep (c := ⟨p, r, n⟩) j1 j2 j3 (convS h.dtype s.probabilities.dtype x)
      with ⟨-, k⟩ | ⟨hcr, -, -, k3⟩
    · left
      refine C54_halted_stays_halted hA hF64 hwf1 inv1.fmt inv1.eps inv1.dep inv1.cells ?_ ops hn' h2
      rw [halted_iff hwf1.floating]
      refine ⟨_, hc, ?_⟩
      rw [k, st.pdtype, st.epsilon, Spec.isHalted_rounded hA, Spec.threshold_rounded hA hwf.floating]
      exact ht
    · have ih := potential_rounded (q := q) hA hF64 ops hwf1 inv1
        (by rw [st.pdtype, st.epsilon]; exact ht) (by rw [st.pdtype]; exact hq) hn'
        (fun h x hm hx => by rw [st.pdtype, st.depression]; exact hh h x (by simp [hm]) hx) h2 _ hc
      rcases ih with ih | ⟨p', hp', hle⟩
      · exact .inl ih
      · refine .inr ⟨p', hp', le_trans ?_ hle⟩
        have hdem := hh h x (by simp) hx
        rw [Spec.threshold_rounded hA hwf.floating] at k3
        rw [Spec.step_rounded hA hwf.floating, if_neg (by simp [hcr])] at k3 ⊢
        simp only at k3 ⊢
        have h0 : 0 ≤ p + Spec.demand s.probabilities.dtype s.depression_constant
            (convS h.dtype s.probabilities.dtype x) := by
          have : (0 : ℚ) < 2 ^ (-((F s.probabilities.dtype).prec : ℤ)) := zpow_pos (by norm_num) _
          linarith
        have h1 : p + Spec.demand s.probabilities.dtype s.depression_constant
            (convS h.dtype s.probabilities.dtype x) < 1 := by
          by_contra hge
          rw [not_lt] at hge
          have := le_rnd_of_rep inv.fmt.1 (rnd_one inv.fmt) hge
          linarith
        have := rnd_add_lower inv.fmt h0 h1
        simp only [countIterates, Nat.cast_add, Nat.cast_one]
        linarith
  | .reset :: ops, s, c', _, _, _, _, hn, _, _, _, _ =>
    absurd (hn .reset (by simp)) (by simp [Op.NotReset])

/-- C54, positive.  Rounded arithmetic, threshold that does not round to one, every halting
probability at `b` at least `c` (a number of the format), and the computed product
`q = depression * c` at least `2^-prec` (one unit in the last place just below one).  Then more than
`2 / q` iterations halt the element. -/
theorem C54_halting_reached (hA : A = Arith.rounded F) (hF64 : (F .f64).Valid)
    {s : ACTStates ℚ} (hwf : s.WF) (hF : (F s.probabilities.dtype).Valid)
    (he : 0 ≤ s.epsilon) (hdep : 0 ≤ s.depression_constant)
    (hp : ∀ b p, s.probabilities.at? b = some p →
      (F s.probabilities.dtype).rnd p = p ∧ 0 ≤ p ∧ p ≤ 1)
    (hthr : (F s.probabilities.dtype).rnd ((F .f64).rnd (1 - s.epsilon)) < 1)
    {c q : ℚ} (hc1 : c ≤ 1) (hcr : (F s.probabilities.dtype).rnd c = c)
    (hqd : q = (F s.probabilities.dtype).rnd
      ((F s.probabilities.dtype).rnd s.depression_constant * c))
    (hq : (2 : ℚ) ^ (-((F s.probabilities.dtype).prec : ℤ)) ≤ q)
    {ops : List (Op ℚ)} (hn : ∀ op ∈ ops, op.NotReset) {b : List Nat}
    (hh : ∀ h x, Op.iterate h ∈ ops → h.at? b = some x → c ≤ x)
    {c' : Controller ℚ} (hrun : run ⟨s⟩ ops = .ok c') (hb : (s.probabilities.at? b).isSome)
    (hN : 2 / q < countIterates ops) : c'.haltedBatches.at? b = some true := by
  obtain ⟨p, hpb⟩ := Option.isSome_iff_exists.1 hb
  have hq0 : 0 < q := lt_of_lt_of_le (zpow_pos (by norm_num) _) hq
  have inv : RoundedInv F s := ⟨hF, he, hdep, hp⟩
  have hd : ∀ h x, Op.iterate h ∈ ops → h.at? b = some x →
      q ≤ Spec.demand s.probabilities.dtype s.depression_constant
        (convS h.dtype s.probabilities.dtype x) := by
    intro h x hm hx
    rw [Spec.demand_rounded hA hwf.floating, hqd]
    refine rnd_mono hF.1 (mul_le_mul_of_nonneg_left ?_ (rnd_nonneg hdep))
    refine le_inf hc1 (le_trans ?_ le_sup_right)
    have hcx := hh h x hm hx
    unfold convS
    split
    · exact hcx
    · have e : ∀ y : ℚ, Arith.cast s.probabilities.dtype y = (F s.probabilities.dtype).rnd y :=
        fun y => by subst hA; exact Spec.roundTo_float hwf.floating _
      rw [e]
      exact le_rnd_of_rep hF.1 hcr hcx
  rcases potential_rounded hA hF64 ops hwf inv hthr hq hn hd hrun p hpb with h | ⟨p', hp', hle⟩
  · exact h
  · exfalso
    have h1 := ((RoundedInv.run hA hF64 hwf inv ops hrun).cells b p' hp').2
    have h2 := (hp b p hpb).2.1
    rw [div_lt_iff₀ hq0] at hN
    linarith [h1.2]

/-- C54, negative.  If the computed sum of `p` and each demand is `p` again (the step is lost to
rounding) and `p` is not halted, no number of iterations changes it: the element never halts, however
large the sum of its halting probabilities. -/
theorem C54_lost_steps_never_halt (hA : A = Arith.rounded F)
    {s : ACTStates ℚ} (hwf : s.WF) {b : List Nat} {p : ℚ}
    (hpb : s.probabilities.at? b = some p)
    (hnot : p ≤ (F s.probabilities.dtype).rnd ((F .f64).rnd (1 - s.epsilon)))
    {x : ℚ} (hlost : (F s.probabilities.dtype).rnd (p + (F s.probabilities.dtype).rnd
      ((F s.probabilities.dtype).rnd s.depression_constant * min 1 (max 0 x))) = p)
    {ops : List (Op ℚ)} (hn : ∀ op ∈ ops, op.NotReset)
    (hh : ∀ h, Op.iterate h ∈ ops → h.dtype = s.probabilities.dtype ∧ h.at? b = some x)
    {c' : Controller ℚ} (hrun : run ⟨s⟩ ops = .ok c') :
    c'.probabilities.at? b = some p ∧ c'.haltedBatches.at? b = some false := by
  suffices h : ∀ (ops : List (Op ℚ)) {t : ACTStates ℚ} {c' : Controller ℚ}, t.WF →
      t.epsilon = s.epsilon → t.depression_constant = s.depression_constant →
      t.probabilities.dtype = s.probabilities.dtype → t.probabilities.at? b = some p →
      (∀ op ∈ ops, op.NotReset) →
      (∀ h, Op.iterate h ∈ ops → h.dtype = s.probabilities.dtype ∧ h.at? b = some x) →
      run ⟨t⟩ ops = .ok c' →
      c'.probabilities.at? b = some p ∧ c'.haltedBatches.at? b = some false from
    h ops hwf rfl rfl rfl hpb hn hh hrun
  intro ops
  induction ops with
  | nil =>
    intro t c' hwf e1 e2 e3 hp _ _ hrun
    cases hrun
    refine ⟨hp, (halted_iff hwf.floating).2 ⟨p, hp, ?_⟩⟩
    rw [e1, e3, Bool.eq_false_iff]
    intro hc
    rw [Spec.isHalted_rounded hA, Spec.threshold_rounded hA (by rw [← e3]; exact hwf.floating)] at hc
    exact absurd hnot (not_le.2 hc)
  | cons op ops ih =>
    intro t c' hwf e1 e2 e3 hp hn hh hrun
    have hn' : ∀ op ∈ ops, op.NotReset := fun op ho => hn op (by simp [ho])
    cases op with
    | reset => exact absurd (hn .reset (by simp)) (by simp [Op.NotReset])
    | cache n u =>
      simp only [run, bind_ok, Op.call] at hrun
      obtain ⟨⟨s1⟩, h1, h2⟩ := hrun
      have st := Controller.cacheUpdate_ok_iff.1 h1
      have hwf1 := Controller.CacheStep.wf hwf st
      obtain ⟨-, rfl⟩ := st
      exact ih hwf1 e1 e2 e3 hp hn' (fun h hm => hh h (by simp [hm])) h2
    | iterate h =>
      simp only [run, bind_ok, Op.call] at hrun
      obtain ⟨⟨s1⟩, h1, h2⟩ := hrun
      have st := Controller.iterateAct_ok hwf h1
      have hwf1 := Controller.IterStep.wf hwf st
      obtain ⟨r, n, y, -, -, hy, hc, -, -⟩ := st.cellAt hwf hp
      obtain ⟨g1, g2⟩ := hh h (by simp)
      rw [g2] at hy
      cases hy
      simp only at st hwf1 hc
      refine ih hwf1 (st.epsilon.trans e1) (st.depression.trans e2) (st.pdtype.trans e3) ?_ hn'
        (fun h hm => hh h (by simp [hm])) h2
      rw [hc]
      have hfl : s.probabilities.dtype.isFloating = true := by rw [← e3]; exact hwf.floating
      have hcv : convS h.dtype t.probabilities.dtype x = x := by
        unfold convS; rw [if_pos (g1.trans e3.symm)]
      rw [hcv, e1, e2, e3, Spec.step_rounded hA hfl]
      have hnc : ¬ Spec.crosses s.probabilities.dtype s.epsilon s.depression_constant p x = true := by
        rw [Spec.crosses_rounded hA hfl, Spec.demand_rounded hA hfl, Spec.threshold_rounded hA hfl]
        exact not_lt.2 (le_trans (le_of_eq hlost) hnot)
      simp only [hnc]
      rw [Spec.demand_rounded hA hfl]
      exact congrArg some hlost

end Theorems

section Example
open Fixtures
attribute [local instance] ieee

/-- `float32`: at 1/2, halting probabilities of `2^-26` are lost for ever. -/
example : DType.f32.fmt.rnd (1/2 + DType.f32.fmt.rnd (DType.f32.fmt.rnd 1 *
    min 1 (max 0 (1 / 2 ^ 26)))) = 1/2 ∧
    (1/2 : ℚ) ≤ DType.f32.fmt.rnd (DType.f64.fmt.rnd (1 - 1/10000)) := by decide +kernel

/-- and they do stay where they are: three iterations of a controller at 1/2. -/
example : obs (run ⟨{ baseState [1] .f32 (1/10000) 1 none with probabilities := vec [1/2] }⟩
    [.iterate (vec [1 / 2 ^ 26]), .iterate (vec [1 / 2 ^ 26]), .iterate (vec [1 / 2 ^ 26])])
    (fun c => c.probabilities.at? [0]) = some (1/2) := by decide +kernel

/-- Hypotheses of the positive theorem for the default configuration and `c = 1/4`: nine iterations
are more than enough. -/
example : DType.f32.fmt.rnd (DType.f64.fmt.rnd (1 - 1/10000)) < 1 ∧ DType.f32.fmt.rnd (1/4) = 1/4 ∧
    (2 : ℚ) ^ (-(DType.f32.fmt.prec : ℤ)) ≤ DType.f32.fmt.rnd (DType.f32.fmt.rnd 1 * (1/4)) ∧
    2 / DType.f32.fmt.rnd (DType.f32.fmt.rnd 1 * (1/4)) < (9 : ℕ) := by decide +kernel

end Example
end JaxAct
