import Verif.Props.C07
import Verif.Props.C13
import Verif.Props.C18
import Verif.Props.C26

/-!
# C66 The iteration counter under rounding

C07 in floating point arithmetic.  The counter is stored in the core dtype, so it is exact up to
`2^precision` and stays there for ever after.
-/

namespace JaxAct
open Fmt ACTStates

/-- What a counter of dtype `d` shows after `n` steps: `n`, but not more than `2^precision` if the dtype
is floating. -/
def shownCount (F : DType → Fmt) (d : DType) (n : Nat) : ℚ :=
  if d.isFloating then min (n : ℚ) (2 ^ (F d).prec) else n

section Theorems
variable {F : DType → Fmt} [A : Arith ℚ]

omit A in
/-- Whole numbers up to `2^precision` are numbers of the format. -/
theorem rep_nat {f : Fmt} (hf : f.Valid) {n : Nat} (hn : n ≤ 2 ^ f.prec) : f.Rep (n : ℚ) := by
  have h := hf.2
  refine rnd_exact hf.1 (g := 0) (k := n) (by omega) (by simp) ?_
  rw [abs_of_nonneg (by positivity), zero_add, zpow_natCast]
  exact_mod_cast hn

omit A in
/-- One more than `2^precision` is rounded back. -/
theorem rnd_pow_succ {f : Fmt} (hf : f.Valid) (hp2 : 2 ≤ f.prec) : f.rnd (2 ^ f.prec + 1) = 2 ^ f.prec := by
  have hp := hf.1
  have h2 := hf.2
  have h0 : (0 : ℚ) < 2 ^ f.prec + 1 := by positivity
  have h1 : (1 : ℚ) < 2 ^ f.prec := one_lt_pow₀ (by norm_num) (by omega)
  have hlog : Int.log 2 |(2 ^ f.prec + 1 : ℚ)| = f.prec := by
    rw [abs_of_pos h0]
    have a : Int.log 2 (2 ^ f.prec + 1 : ℚ) < f.prec + 1 := by
      rw [← Int.lt_zpow_iff_log_lt (by norm_num) h0, zpow_add₀ (by norm_num), zpow_natCast]
      push_cast
      linarith
    have b : (f.prec : ℤ) ≤ Int.log 2 (2 ^ f.prec + 1 : ℚ) := by
      rw [← Int.zpow_le_iff_le_log (by norm_num) h0, zpow_natCast]
      push_cast
      linarith
    omega
  have hu : f.ulp (2 ^ f.prec + 1) = 2 := by
    unfold ulp ulpExp
    rw [hlog, max_eq_left (by omega)]
    norm_num
  unfold rnd
  rw [hu]
  obtain ⟨k, hk⟩ : ∃ k, f.prec = k + 1 := ⟨f.prec - 1, by omega⟩
  have hx : ((2 : ℚ) ^ f.prec + 1) / 2 = ((2 ^ k : ℤ) : ℚ) + 1 / 2 := by
    rw [hk, pow_succ]; push_cast; ring
  rw [hx]
  rw [rne_eq_of_le_even (n := 2 ^ k) ((even_two.pow_of_ne_zero (by omega)))]
  · rw [hk, pow_succ]; push_cast; ring
  · rw [show ((2 ^ k : ℤ) : ℚ) + 1 / 2 - ((2 ^ k : ℤ) : ℚ) = 1 / 2 by ring]
    norm_num

/-- Counting one more. -/
theorem shownCount_succ (hA : A = Arith.rounded F) {d : DType}
    (hF : d.isFloating = true → (F d).Valid ∧ 2 ≤ (F d).prec) (n : Nat) :
    Arith.add d (shownCount F d n) Arith.one = shownCount F d (n + 1) := by
  subst hA
  show Arith.roundTo F d (shownCount F d n + 1) = _
  unfold Arith.roundTo shownCount
  by_cases hd : d.isFloating = true
  · obtain ⟨hv, hp2⟩ := hF hd
    simp only [hd, if_true]
    rcases Nat.lt_or_ge n (2 ^ (F d).prec) with h | h
    · have h1 : (n : ℚ) ≤ 2 ^ (F d).prec := by exact_mod_cast h.le
      have h2 : ((n + 1 : ℕ) : ℚ) ≤ 2 ^ (F d).prec := by exact_mod_cast h
      rw [min_eq_left h1, min_eq_left h2]
      have := rep_nat hv (n := n + 1) h
      unfold Rep at this
      push_cast at this ⊢
      exact this
    · have h1 : (2 : ℚ) ^ (F d).prec ≤ n := by exact_mod_cast h
      have h2 : (2 : ℚ) ^ (F d).prec ≤ ((n + 1 : ℕ) : ℚ) := by push_cast; linarith
      rw [min_eq_right h1, min_eq_right h2]
      exact rnd_pow_succ hv hp2
  · simp only [hd]
    push_cast
    rfl

/-- A reset keeps the count or starts again at zero. -/
theorem keepIf_shownCount (hA : A = Arith.rounded F) {d : DType} (hb : d ≠ .bool)
    (hF : d.isFloating = true → (F d).Valid ∧ 2 ≤ (F d).prec) (k : Bool) (n : Nat) :
    Spec.keepIf d k (shownCount F d n) = shownCount F d (if k then n else 0) := by
  by_cases hd : d.isFloating = true
  · obtain ⟨hv, hp2⟩ := hF hd
    rw [Spec.keepIf_rounded hA hd hv]
    unfold shownCount
    simp only [hd, if_true]
    cases k
    · simp
    · simp only [if_true]
      rcases Nat.le_total n (2 ^ (F d).prec) with h | h
      · rw [min_eq_left (by exact_mod_cast h)]
        exact rep_nat hv h
      · rw [min_eq_right (by exact_mod_cast h)]
        have := rep_nat hv (n := 2 ^ (F d).prec) le_rfl
        unfold Rep at this
        push_cast at this
        exact this
  · have hd' : d.isFloating = false := by simpa using hd
    unfold Spec.keepIf convS shownCount
    rw [if_neg (Ne.symm hb)]
    have hm : ∀ x y : ℚ, Arith.mul d x y = x * y := fun x y => by
      subst hA; show Arith.roundTo F d _ = _; simp [Arith.roundTo, hd']
    have hc : ∀ x : ℚ, Arith.cast d x = x := fun x => by
      subst hA; show Arith.roundTo F d _ = _; simp [Arith.roundTo, hd']
    have h0 : ∀ k : Bool, (Arith.ofBool k : ℚ) = if k then 1 else 0 := fun k => by
      subst hA; cases k <;> rfl
    rw [hm, hc, h0]
    cases k <;> simp [hd']

/-- C66.  Rounded arithmetic with at least two bits of precision in the dtype of the counter.  If the
counter of an element shows the number `n`, then after any successful history it shows the number of
iterations made while the element was not halted since the start (plus `n`) or since its last reset:
exactly for an integer counter and up to `2^precision` for a floating one, and `2^precision` beyond. -/
theorem C66_counter_saturates (hA : A = Arith.rounded F) {s : ACTStates ℚ} (hwf : s.WF)
    (hF : s.iterations.dtype.isFloating = true →
      (F s.iterations.dtype).Valid ∧ 2 ≤ (F s.iterations.dtype).prec)
    {b : List Nat} {n : Nat}
    (hn : s.iterations.at? b = some (shownCount F s.iterations.dtype n)) (ops : List (Op ℚ))
    {c' : Controller ℚ} (hrun : run ⟨s⟩ ops = .ok c') :
    c'.iterations.at? b =
      some (shownCount F s.iterations.dtype (activeIterations b ⟨s⟩ n ops)) := by
  induction ops generalizing s n with
  | nil => cases hrun; exact hn
  | cons op ops ih =>
    simp only [run, bind_ok] at hrun
    obtain ⟨⟨s1⟩, h1, h2⟩ := hrun
    obtain ⟨p, hp⟩ := Controller.at?_some_of_shape (b := s.probabilities) hwf.it_shape.symm hn
    have hhb : ∀ x, (Controller.haltedBatches ⟨s⟩).at? b = some x ↔
        Spec.isHalted s.probabilities.dtype s.epsilon p = x := by
      intro x
      rw [halted_iff hwf.floating]
      constructor
      · rintro ⟨q, hq, h⟩; rw [hp] at hq; cases hq; exact h
      · intro h; exact ⟨p, hp, h⟩
    simp only [activeIterations, h1]
    cases op with
    | cache m t =>
      have st := Controller.cacheUpdate_ok_iff.1 h1
      have hwf1 := Controller.CacheStep.wf hwf st
      obtain ⟨-, heq⟩ := st
      simp only at heq
      subst heq
      exact ih hwf1 hF hn h2
    | iterate h =>
      have st := Controller.iterateAct_ok hwf h1
      obtain ⟨r, n', x, -, hn', -, -, -, c3⟩ := st.cellAt hwf hp
      rw [hn] at hn'
      cases hn'
      have hdt : s1.iterations.dtype = s.iterations.dtype := st.idtype
      rw [← hdt]
      refine ih (Controller.IterStep.wf hwf st) (by simpa only [hdt] using hF) ?_ h2
      show s1.iterations.at? b = _
      rw [c3, hdt]
      simp only [Spec.step, hhb]
      congr 1
      split
      · rfl
      · exact shownCount_succ hA hF n
    | reset =>
      have st := Controller.resetBatches_ok hwf h1
      obtain ⟨r, n', hr, hn'⟩ := hwf.cell hp
      obtain ⟨-, -, c3⟩ := st.cell b p r n' hp hr hn'
      rw [hn] at hn'
      cases hn'
      have hdt : s1.iterations.dtype = s.iterations.dtype := st.idtype
      rw [← hdt]
      refine ih (Controller.ResetStep.wf hwf st) (by simpa only [hdt] using hF) ?_ h2
      show s1.iterations.at? b = _
      rw [c3, hdt]
      simp only [Spec.resetCell, hhb]
      rw [keepIf_shownCount hA hwf.it_dtype hF]
      cases Spec.isHalted s.probabilities.dtype s.epsilon p <;> simp

/-- Iterating with halting probability zero goes on for ever, and every iteration counts. -/
theorem zero_steps (hA : A = Arith.rounded F) (k : Nat) {s : ACTStates ℚ} {n : Nat} (hwf : s.WF)
    (hacc : s.accumulators.keys = [])
    (hp : s.probabilities.at? [0] = some 0) (he : s.epsilon ≤ 1) {h : Tensor ℚ}
    (hs : h.shape = s.probabilities.shape) (hd : h.dtype = s.probabilities.dtype)
    (hh : h.at? [0] = some 0) :
    ∃ c', run ⟨s⟩ (List.replicate k (.iterate h)) = .ok c' ∧
      activeIterations [0] ⟨s⟩ n (List.replicate k (.iterate h)) = n + k := by
  induction k generalizing s n with
  | zero => exact ⟨⟨s⟩, rfl, rfl⟩
  | succ k ih =>
    obtain ⟨⟨s1⟩, h1⟩ := (C13_iterate_succeeds_iff hwf h).2
      ⟨hs, by rw [hd]; exact DType.withFloat_of hwf.floating, fun name acc hac => by
        have := Dict.mem_keys_iff.2 ⟨acc, hac⟩
        rw [hacc] at this; cases this⟩
    have st := Controller.iterateAct_ok hwf h1
    obtain ⟨r, n', x, -, -, hx, c1, -, -⟩ := st.cellAt hwf hp
    rw [hh] at hx
    cases hx
    rw [show convS h.dtype s.probabilities.dtype (0 : ℚ) = 0 by rw [hd]; simp [convS]] at c1
    have hnh : Spec.isHalted s.probabilities.dtype s.epsilon 0 ≠ true := by
      rw [Ne, Spec.isHalted_rounded hA, not_lt]
      exact Spec.threshold_nonneg hA hwf.floating he
    have hdem : Spec.demand s.probabilities.dtype s.depression_constant 0 = 0 := by
      rw [Spec.demand_rounded hA hwf.floating]; simp [rnd_zero]
    have hcr : Spec.crosses s.probabilities.dtype s.epsilon s.depression_constant 0 0 ≠ true := by
      rw [Ne, Spec.crosses_rounded hA hwf.floating, hdem, add_zero, rnd_zero, not_lt]
      exact Spec.threshold_nonneg hA hwf.floating he
    rw [Spec.step_rounded hA hwf.floating] at c1
    simp only [hcr, hdem, add_zero, rnd_zero] at c1
    obtain ⟨c', e1, e2⟩ := ih (n := n + 1) (Controller.IterStep.wf hwf st)
      (st.akeys.trans hacc) (by simpa using c1)
      (by rw [st.epsilon]; exact he) (by rw [st.pshape]; exact hs) (by rw [st.pdtype]; exact hd)
    refine ⟨c', ?_, ?_⟩
    · rw [List.replicate_succ]
      simp only [run, Op.call, h1, ok_bind]
      exact e1
    · rw [List.replicate_succ]
      have hnb : ¬ (Controller.haltedBatches ⟨s⟩).at? [0] = some true := by
        rw [halted_iff hwf.floating]
        rintro ⟨q, hq, h⟩
        rw [hp] at hq; cases hq; exact hnh h
      simp only [activeIterations, Op.call, h1, hnb, if_false]
      rw [e2]; omega

end Theorems

section Witness
attribute [local instance] ieee

theorem two_le_prec (d : DType) : 2 ≤ d.fmt.prec := by cases d <;> decide

/-- The exact count of C07 is false in every floating dtype: after `2^precision + 1` iterations with
halting probability zero (256 for bfloat16, 2048 for float16 and 2^24 for float32, plus one) the element
has never been halted, and the counter is one short. -/
theorem C66_exact_count_fails {d : DType} (hd : d.isFloating = true) {eps : ℚ} (he : eps ≤ 1)
    (dep : ℚ) (mode : Option String) :
    ∃ c', run ⟨baseState [1] d eps dep mode⟩
        (List.replicate (2 ^ d.fmt.prec + 1) (.iterate (Tensor.zeros [1] d))) = .ok c' ∧
      activeIterations [0] ⟨baseState [1] d eps dep mode⟩ 0
        (List.replicate (2 ^ d.fmt.prec + 1) (.iterate (Tensor.zeros [1] d))) = 2 ^ d.fmt.prec + 1 ∧
      c'.iterations.at? [0] = some (2 ^ d.fmt.prec) := by
  have hwf := baseState_wf (α := ℚ) [1] hd eps dep mode
  have hz : (Tensor.zeros [1] d : Tensor ℚ).at? [0] = some 0 := rfl
  obtain ⟨c', e1, e2⟩ := zero_steps (F := DType.fmt) rfl (2 ^ d.fmt.prec + 1) (n := 0) hwf rfl hz he
    (h := Tensor.zeros [1] d) rfl rfl hz
  rw [Nat.zero_add] at e2
  refine ⟨c', e1, e2, ?_⟩
  have h := C66_counter_saturates (F := DType.fmt) rfl hwf (b := [0]) (n := 0)
    (fun _ => ⟨fmt_valid d, two_le_prec d⟩)
    (by rw [show (baseState [1] d eps dep mode).iterations.at? [0] = some 0 from hz]
        simp [shownCount]) _ e1
  rw [h, e2]
  simp only [shownCount, show (baseState [1] d eps dep mode).iterations.dtype = d from rfl, hd, if_true]
  rw [min_eq_right]
  push_cast
  linarith

end Witness

section Example
open Fixtures
attribute [local instance] ieee

/-- The hypotheses on a fresh bfloat16 controller, whose counter shows zero. -/
example : (baseState [1] .bf16 (1/100) 1 Option.none : ACTStates ℚ).WF ∧
    (baseState [1] .bf16 (1/100) 1 Option.none : ACTStates ℚ).iterations.at? [0] =
      some (shownCount DType.fmt .bf16 0) ∧ DType.bf16.fmt.Valid ∧ 2 ≤ DType.bf16.fmt.prec :=
  ⟨baseState_wf [1] rfl _ _ _, by decide +kernel, fmt_valid _, by decide⟩

/-- A bfloat16 counter that shows 255 shows 256 after one more step, and 256 for ever after. -/
example :
    let at255 : ACTStates ℚ := { baseState [1] .bf16 (1/100) 1 Option.none with
      iterations := Tensor.full [1] .bf16 255 }
    (fun k => obs (run ⟨at255⟩ (List.replicate k (.iterate (Tensor.zeros [1] .bf16))))
      (fun c => c.iterations.at? [0])) <$> [0, 1, 2, 3] =
    [some 255, some 256, some 256, some 256] := by decide +kernel

end Example
end JaxAct
