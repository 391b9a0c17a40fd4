import Mathlib.Tactic.IntervalCases
import Verif.Props.C63
import Verif.Props.C66
import Verif.Lemmas.Ponder

/-!
# C85 Rounding changes the halting step only near the threshold

The floating point run compared with Graves' formulas in exact arithmetic.
-/

namespace JaxAct
open Fmt ACTStates

section Rounding
variable {f : Fmt}

/-- Rounding a number up to one in absolute value moves it by at most half of `2^-prec`. -/
theorem rnd_error_one (hf : f.Valid) {x : ℚ} (hx : |x| ≤ 1) :
    |f.rnd x - x| ≤ (2 : ℚ) ^ (-(f.prec : ℤ)) / 2 := by
  have hq : (0 : ℚ) < (2 : ℚ) ^ (-(f.prec : ℤ)) := zpow_pos (by norm_num) _
  rcases eq_or_ne x 0 with rfl | h0
  · rw [rnd_zero, sub_zero, abs_zero]; linarith
  rcases hx.lt_or_eq with hx | hx
  · have hu : f.ulp x ≤ (2 : ℚ) ^ (-(f.prec : ℤ)) := by
      refine zpow_le_zpow_right₀ (by norm_num) ?_
      have h2 := hf.2
      have : Int.log 2 |x| < 0 := by
        rw [← Int.lt_zpow_iff_log_lt (by norm_num) (abs_pos.2 h0)]; simpa using hx
      unfold ulpExp
      omega
    have := abs_rnd_sub_le (f := f) x
    linarith
  · have : f.rnd x = x := by
      rcases (abs_eq zero_le_one).1 hx with rfl | rfl
      · exact rnd_one hf
      · rw [rnd_neg, rnd_one hf]
    rw [this, sub_self, abs_zero]
    linarith

/-- The two roundings of the threshold. -/
theorem threshold_error {g : Fmt} (hf : f.Valid) (hg : g.Valid) {eps : ℚ} (h0 : 0 ≤ eps) (h1 : eps ≤ 1) :
    |f.rnd (g.rnd (1 - eps)) - (1 - eps)| ≤
      ((2 : ℚ) ^ (-(f.prec : ℤ)) + (2 : ℚ) ^ (-(g.prec : ℤ))) / 2 := by
  have a0 : 0 ≤ g.rnd (1 - eps) := rnd_nonneg (by linarith)
  have a1 : g.rnd (1 - eps) ≤ 1 := rnd_le_of_rep hg.1 (rnd_one hg) (by linarith)
  have e1 := rnd_error_one hg (x := 1 - eps) (by rw [abs_of_nonneg (by linarith)]; linarith)
  have e2 := rnd_error_one hf (x := g.rnd (1 - eps)) (by rw [abs_of_nonneg a0]; exact a1)
  rw [abs_le] at e1 e2 ⊢
  constructor <;> linarith [e1.1, e1.2, e2.1, e2.2]

namespace Rounded
variable {thr dep : ℚ} {h : Nat → ℚ}

/-- Rounding errors per step, in units: two for a depression constant of at most one, four for larger ones. -/
def errs (dep : ℚ) : ℚ := if dep ≤ 1 then 2 else 4

theorem errs_ge (dep : ℚ) : 2 ≤ errs dep := by unfold errs; split <;> norm_num

/-- The error of storing a depression constant above one. -/
theorem dep_error (hf : f.Valid) (hd1 : 1 < dep) :
    |f.rnd dep - dep| ≤ (2 : ℚ) ^ (-(f.prec : ℤ)) * dep ∧
    |f.rnd dep - dep| ≤ (2 : ℚ) ^ (-(f.prec : ℤ)) * f.rnd dep := by
  have h0 : (0 : ℚ) < dep := by linarith
  have hlog : 0 ≤ Int.log 2 dep := by
    rw [← Int.zpow_le_iff_le_log (by norm_num) h0]; simpa using hd1.le
  have hpow : (2 : ℚ) ^ Int.log 2 dep ≤ dep := Int.zpow_log_le_self (by norm_num) h0
  have hrep : f.rnd ((2 : ℚ) ^ Int.log 2 dep) = (2 : ℚ) ^ Int.log 2 dep := by
    have h2 := hf.2
    refine rnd_exact hf.1 (g := Int.log 2 dep) (k := 1) (by omega) (by simp) ?_
    rw [abs_of_pos (zpow_pos (by norm_num) _)]
    exact zpow_le_zpow_right₀ (by norm_num) (by omega)
  have hpow' : (2 : ℚ) ^ Int.log 2 dep ≤ f.rnd dep := by
    have := rnd_mono (f := f) hf.1 hpow
    rwa [hrep] at this
  have hu : f.ulp dep / 2 = (2 : ℚ) ^ (-(f.prec : ℤ)) * (2 : ℚ) ^ Int.log 2 dep := by
    have h1 := hf.1
    have h2 := hf.2
    have : f.ulpExp dep = -(f.prec : ℤ) + Int.log 2 dep + 1 := by
      unfold ulpExp
      rw [abs_of_pos h0]
      omega
    unfold ulp
    rw [this, zpow_add_one₀ (by norm_num), zpow_add₀ (by norm_num)]
    ring
  have hq : (0 : ℚ) ≤ (2 : ℚ) ^ (-(f.prec : ℤ)) := (zpow_pos (by norm_num) _).le
  have := abs_rnd_sub_le (f := f) dep
  rw [hu] at this
  exact ⟨this.trans (mul_le_mul_of_nonneg_left hpow hq), this.trans (mul_le_mul_of_nonneg_left hpow' hq)⟩

theorem demand_nonneg (hd0 : 0 ≤ dep) (x : ℚ) : 0 ≤ demand f dep x :=
  rnd_nonneg (mul_nonneg (rnd_nonneg hd0) (Graves.clip_nonneg x))

/-- The error of a demand of at most one. -/
theorem demand_close (hf : f.Valid) (hd0 : 0 ≤ dep) (x : ℚ) (hx : demand f dep x ≤ 1) :
    |demand f dep x - dep * Graves.clip x| ≤ (errs dep - 1) * (2 : ℚ) ^ (-(f.prec : ℤ)) := by
  have hq : (0 : ℚ) < (2 : ℚ) ^ (-(f.prec : ℤ)) := zpow_pos (by norm_num) _
  have c0 := Graves.clip_nonneg x
  have c1 := Graves.clip_le_one x
  have r0 : 0 ≤ f.rnd dep := rnd_nonneg hd0
  have m0 : 0 ≤ f.rnd dep * Graves.clip x := mul_nonneg r0 c0
  unfold errs
  split
  · rename_i hd1
    have r1 : f.rnd dep ≤ 1 := rnd_le_of_rep hf.1 (rnd_one hf) hd1
    have m1 : f.rnd dep * Graves.clip x ≤ 1 := mul_le_one₀ r1 c0 c1
    have e1 := rnd_error_one hf (x := dep) (by rw [abs_of_nonneg hd0]; exact hd1)
    have e2 := rnd_error_one hf (x := f.rnd dep * Graves.clip x) (by rw [abs_of_nonneg m0]; exact m1)
    have e3 : |f.rnd dep * Graves.clip x - dep * Graves.clip x| ≤ (2 : ℚ) ^ (-(f.prec : ℤ)) / 2 := by
      rw [← sub_mul, abs_mul, abs_of_nonneg c0]
      exact (mul_le_of_le_one_right (abs_nonneg _) c1).trans e1
    unfold demand
    rw [abs_le] at e2 e3 ⊢
    constructor <;> linarith [e2.1, e2.2, e3.1, e3.2]
  · rename_i hd1
    have hm : f.rnd dep * Graves.clip x < 2 := by
      by_contra hn
      have h2 : f.rnd 2 = 2 := rnd_two hf
      have := rnd_mono (f := f) hf.1 (not_lt.1 hn)
      rw [h2] at this
      unfold demand at hx
      linarith
    have e2 := rnd_error_two hf (x := f.rnd dep * Graves.clip x) (by rw [abs_of_nonneg m0]; exact hm)
    have e3 : |f.rnd dep * Graves.clip x - dep * Graves.clip x| ≤ 2 * (2 : ℚ) ^ (-(f.prec : ℤ)) := by
      rw [← sub_mul, abs_mul, abs_of_nonneg c0]
      refine (mul_le_mul_of_nonneg_right (dep_error hf (not_le.1 hd1)).2 c0).trans ?_
      rw [mul_assoc, mul_comm]
      exact mul_le_mul_of_nonneg_right hm.le hq.le
    unfold demand
    rw [abs_le] at e2 e3 ⊢
    constructor <;> linarith [e2.1, e2.2, e3.1, e3.2]

/-- A demand above one comes from an exact one that is not far below. -/
theorem demand_large (hf : f.Valid) (x : ℚ) (hx : 1 < demand f dep x) :
    1 - (2 : ℚ) ^ (-(f.prec : ℤ)) < dep * Graves.clip x := by
  have hq : (0 : ℚ) < (2 : ℚ) ^ (-(f.prec : ℤ)) := zpow_pos (by norm_num) _
  have c0 := Graves.clip_nonneg x
  have c1 := Graves.clip_le_one x
  have hm : 1 < f.rnd dep * Graves.clip x := by
    by_contra hn
    exact absurd (rnd_le_of_rep hf.1 (rnd_one hf) (not_lt.1 hn)) (not_le.2 hx)
  have hd1 : 1 < dep := by
    by_contra hn
    have r1 : f.rnd dep ≤ 1 := rnd_le_of_rep hf.1 (rnd_one hf) (not_lt.1 hn)
    exact absurd (mul_le_one₀ r1 c0 c1) (not_le.2 hm)
  have e3 : |f.rnd dep * Graves.clip x - dep * Graves.clip x| ≤
      (2 : ℚ) ^ (-(f.prec : ℤ)) * (dep * Graves.clip x) := by
    rw [← sub_mul, abs_mul, abs_of_nonneg c0, ← mul_assoc]
    exact mul_le_mul_of_nonneg_right (dep_error hf hd1).1 c0
  rw [abs_le] at e3
  by_contra hn
  have : (2 : ℚ) ^ (-(f.prec : ℤ)) * (dep * Graves.clip x) ≤ (2 : ℚ) ^ (-(f.prec : ℤ)) * 1 :=
    mul_le_mul_of_nonneg_left (by linarith) hq.le
  linarith [e3.2]

theorem prob_succ (t : Nat) : prob f thr dep h (t + 1) =
    f.rnd (prob f thr dep h t + weight f thr dep (prob f thr dep h t) (h t)) := rfl

/-- The cumulative probabilities are numbers of the format between 0 and 1, and 1 once halted. -/
theorem prob_range (hf : f.Valid) (ht0 : 0 ≤ thr) (ht1 : thr ≤ 1) (hd0 : 0 ≤ dep) : ∀ t,
    f.Rep (prob f thr dep h t) ∧ 0 ≤ prob f thr dep h t ∧ prob f thr dep h t ≤ 1 ∧
    (thr < prob f thr dep h t → prob f thr dep h t = 1)
  | 0 => ⟨rnd_zero _, le_rfl, zero_le_one, fun hx => absurd hx (not_lt.2 ht0)⟩
  | t + 1 => by
    obtain ⟨h1, h2, h3, h4⟩ := prob_range hf ht0 ht1 hd0 t
    rw [prob_succ]
    unfold weight
    have d0 : 0 ≤ demand f dep (h t) := rnd_nonneg (mul_nonneg (rnd_nonneg hd0) (Graves.clip_nonneg _))
    split
    · rw [add_zero, show f.rnd _ = _ from h1]
      exact ⟨h1, h2, h3, h4⟩
    · rename_i hx
      split
      · rw [rnd_add_remainder hf h1 h2 h3]
        exact ⟨rnd_one hf, zero_le_one, le_rfl, fun _ => rfl⟩
      · rename_i hy
        exact ⟨rnd_rep hf.1 _, rnd_nonneg (by linarith), by linarith [not_lt.1 hy], fun hz => absurd hz hy⟩

/-- A step that ends at or below the threshold adds the demand. -/
theorem prob_step (hf : f.Valid) (ht0 : 0 ≤ thr) (ht1 : thr < 1) (hd0 : 0 ≤ dep) {t : Nat}
    (hx : prob f thr dep h (t + 1) ≤ thr) :
    prob f thr dep h t ≤ thr ∧ ¬ thr < f.rnd (prob f thr dep h t + demand f dep (h t)) ∧
    prob f thr dep h (t + 1) = f.rnd (prob f thr dep h t + demand f dep (h t)) := by
  obtain ⟨h1, h2, h3, h4⟩ := prob_range (h := h) hf ht0 ht1.le hd0 t
  rw [prob_succ] at hx ⊢
  unfold weight at hx ⊢
  split at hx
  · rename_i hy
    rw [add_zero, show f.rnd _ = _ from h1] at hx
    exact absurd hx (not_le.2 hy)
  · rename_i hy
    split at hx
    · rw [rnd_add_remainder hf h1 h2 h3] at hx
      exact absurd hx (not_le.2 ht1)
    · rename_i hz
      rw [if_neg hy, if_neg hz]
      exact ⟨not_lt.1 hy, hz, rfl⟩

/-- A demand that does not cross the threshold is at most one. -/
theorem demand_le_one (hf : f.Valid) (ht1 : thr < 1) {p x : ℚ} (hp : 0 ≤ p)
    (hn : ¬ thr < f.rnd (p + demand f dep x)) : demand f dep x ≤ 1 := by
  by_contra hx
  have h1 : f.rnd 1 ≤ f.rnd (p + demand f dep x) := rnd_mono hf.1 (by linarith)
  rw [rnd_one hf] at h1
  linarith

theorem halted_mono (hf : f.Valid) (ht0 : 0 ≤ thr) (ht1 : thr < 1) (hd0 : 0 ≤ dep) {t t' : Nat}
    (hle : t ≤ t') (hx : thr < prob f thr dep h t) : thr < prob f thr dep h t' := by
  induction hle with
  | refl => exact hx
  | step _ ih =>
    by_contra hn
    exact absurd ih (not_lt.2 (prob_step hf ht0 ht1 hd0 (not_lt.1 hn)).1)

/-- While not halted, the cumulative probability is close to the exact running sum. -/
theorem prob_close (hf : f.Valid) (ht0 : 0 ≤ thr) (ht1 : thr < 1) (hd0 : 0 ≤ dep) :
    ∀ {t : Nat}, prob f thr dep h t ≤ thr →
      |prob f thr dep h t - Graves.cumDemand dep h t| ≤ errs dep * t * (2 : ℚ) ^ (-(f.prec : ℤ))
  | 0, _ => by simp [prob, Graves.cumDemand]
  | t + 1, hx => by
    obtain ⟨h1, h2, h3⟩ := prob_step hf ht0 ht1 hd0 hx
    have ih := prob_close hf ht0 ht1 hd0 h1
    obtain ⟨-, p0, p1, -⟩ := prob_range (h := h) hf ht0 ht1.le hd0 t
    have d0 := demand_nonneg (f := f) hd0 (h t)
    have d1 := demand_le_one hf ht1 p0 h2
    have de := demand_close hf hd0 (h t) d1
    have hlt : prob f thr dep h t + demand f dep (h t) < 2 := by linarith
    have e := rnd_error_two hf (x := prob f thr dep h t + demand f dep (h t))
      (by rw [abs_of_nonneg (by linarith)]; exact hlt)
    rw [h3, Graves.cumDemand_succ]
    push_cast
    rw [abs_le] at ih de e ⊢
    constructor <;> linarith [ih.1, ih.2, de.1, de.2, e.1, e.2]

/-- Once halted, the exact running sum is not far below the threshold. -/
theorem halted_close (hf : f.Valid) (ht0 : 0 ≤ thr) (ht1 : thr < 1) (hd0 : 0 ≤ dep) :
    ∀ {t : Nat}, thr < prob f thr dep h t →
      thr - errs dep * t * (2 : ℚ) ^ (-(f.prec : ℤ)) < Graves.cumDemand dep h t
  | 0, hx => absurd hx (not_lt.2 ht0)
  | t + 1, hx => by
    have hq : (0 : ℚ) < (2 : ℚ) ^ (-(f.prec : ℤ)) := zpow_pos (by norm_num) _
    have hk := errs_ge dep
    have hkq : 2 * (2 : ℚ) ^ (-(f.prec : ℤ)) ≤ errs dep * (2 : ℚ) ^ (-(f.prec : ℤ)) :=
      mul_le_mul_of_nonneg_right hk hq.le
    have hkt : 0 ≤ errs dep * t * (2 : ℚ) ^ (-(f.prec : ℤ)) :=
      mul_nonneg (mul_nonneg (by linarith) (Nat.cast_nonneg t)) hq.le
    rw [Graves.cumDemand_succ]
    push_cast
    have hc : 0 ≤ dep * Graves.clip (h t) := mul_nonneg hd0 (Graves.clip_nonneg _)
    by_cases hy : thr < prob f thr dep h t
    · have ih := halted_close hf ht0 ht1 hd0 hy
      linarith
    · have ih := prob_close hf ht0 ht1 hd0 (not_lt.1 hy)
      obtain ⟨hr, p0, p1, -⟩ := prob_range (h := h) hf ht0 ht1.le hd0 t
      have d0 := demand_nonneg (f := f) hd0 (h t)
      have hcr : thr < f.rnd (prob f thr dep h t + demand f dep (h t)) := by
        by_contra hn
        rw [prob_succ] at hx
        unfold weight at hx
        rw [if_neg hy, if_neg hn] at hx
        exact hn hx
      rcases le_or_gt (demand f dep (h t)) 1 with d1 | d1
      · have de := demand_close hf hd0 (h t) d1
        have hlt : prob f thr dep h t + demand f dep (h t) < 2 := by linarith [not_lt.1 hy]
        have e := rnd_error_two hf (x := prob f thr dep h t + demand f dep (h t))
          (by rw [abs_of_nonneg (by linarith)]; exact hlt)
        rw [abs_le] at ih de e
        linarith [ih.1, ih.2, de.1, de.2, e.1, e.2]
      · have := demand_large hf (h t) d1
        have hcum : 0 ≤ Graves.cumDemand dep h t := by
          simpa [Graves.cumDemand] using Graves.cumDemand_mono hd0 h (Nat.zero_le t)
        linarith

/-- How close the exact running sum has to be to `1 - epsilon` for rounding to matter, after `n` steps:
rounding errors of the sum, and of the threshold (first computed in the format `g`). -/
def margin (f g : Fmt) (dep : ℚ) (n : Nat) : ℚ :=
  errs dep * n * (2 : ℚ) ^ (-(f.prec : ℤ)) + ((2 : ℚ) ^ (-(f.prec : ℤ)) + (2 : ℚ) ^ (-(g.prec : ℤ))) / 2

theorem margin_mono {g : Fmt} {m n : Nat} (hle : m ≤ n) : margin f g dep m ≤ margin f g dep n := by
  have hq : (0 : ℚ) < (2 : ℚ) ^ (-(f.prec : ℤ)) := zpow_pos (by norm_num) _
  have hmn : (m : ℚ) ≤ n := by exact_mod_cast hle
  have : errs dep * m * (2 : ℚ) ^ (-(f.prec : ℤ)) ≤ errs dep * n * (2 : ℚ) ^ (-(f.prec : ℤ)) :=
    mul_le_mul_of_nonneg_right (mul_le_mul_of_nonneg_left hmn (by linarith [errs_ge dep])) hq.le
  unfold margin
  linarith

theorem margin_nonneg {g : Fmt} (n : Nat) : 0 ≤ margin f g dep n := by
  have hq : (0 : ℚ) < (2 : ℚ) ^ (-(f.prec : ℤ)) := zpow_pos (by norm_num) _
  have hq' : (0 : ℚ) < (2 : ℚ) ^ (-(g.prec : ℤ)) := zpow_pos (by norm_num) _
  have : (0 : ℚ) ≤ errs dep * n * (2 : ℚ) ^ (-(f.prec : ℤ)) :=
    mul_nonneg (mul_nonneg (by linarith [errs_ge dep]) (Nat.cast_nonneg n)) hq.le
  unfold margin
  linarith

section Agree
variable {g : Fmt} {eps : ℚ} (hf : f.Valid) (hg : g.Valid) (he0 : 0 ≤ eps) (he1 : eps ≤ 1)
  (hthr : thr = f.rnd (g.rnd (1 - eps))) (ht1 : thr < 1) (hd0 : 0 ≤ dep)
include hf hg he0 he1 hthr ht1 hd0

theorem near {t : Nat} :
    (thr < prob f thr dep h t → 1 - eps - margin f g dep t < Graves.cumDemand dep h t) ∧
    (¬ thr < prob f thr dep h t → Graves.cumDemand dep h t ≤ 1 - eps + margin f g dep t) := by
  have ht0 : 0 ≤ thr := hthr ▸ rnd_nonneg (rnd_nonneg (by linarith))
  have e := threshold_error hf hg he0 he1
  rw [← hthr, abs_le] at e
  unfold margin
  refine ⟨fun hx => ?_, fun hx => ?_⟩
  · have := halted_close hf ht0 ht1 hd0 hx
    linarith [e.1]
  · have := prob_close hf ht0 ht1 hd0 (not_lt.1 hx)
    rw [abs_le] at this
    linarith [e.2, this.1, not_lt.1 hx]

variable {n : Nat} (hm : ∀ j ≤ n, margin f g dep n < |Graves.cumDemand dep h j - (1 - eps)|)
include hm

/-- Away from the threshold the rounded run halts exactly when the exact one does. -/
theorem agree {j : Nat} (hj : j ≤ n) :
    thr < prob f thr dep h j ↔ Graves.Crossed eps dep h j := by
  obtain ⟨h1, h2⟩ := near (h := h) hf hg he0 he1 hthr ht1 hd0 (t := j)
  have hmj := hm j hj
  have hmm := margin_mono (f := f) (g := g) (dep := dep) hj
  rw [Graves.crossed_iff hd0]
  rw [lt_abs] at hmj
  constructor
  · intro hx
    have := h1 hx
    rcases hmj with hmj | hmj
    · have : 0 ≤ margin f g dep n := margin_nonneg n
      linarith
    · linarith
  · intro hx
    by_contra hn
    have := h2 hn
    have : 0 ≤ margin f g dep n := margin_nonneg n
    rcases hmj with hmj | hmj <;> linarith

/-- Step by step, the rounded weights are close to Graves'. -/
theorem weights_close {t : Nat} (ht : t < n) :
    |weights f thr dep h t - Graves.weight eps dep h t| ≤
      if Graves.Crossed eps dep h t then 0
      else if Graves.Crossed eps dep h (t + 1) then
        errs dep * t * (2 : ℚ) ^ (-(f.prec : ℤ)) + (2 : ℚ) ^ (-(f.prec : ℤ)) / 2
      else (errs dep - 1) * (2 : ℚ) ^ (-(f.prec : ℤ)) := by
  have ht0 : 0 ≤ thr := hthr ▸ rnd_nonneg (rnd_nonneg (by linarith))
  have a1 := agree hf hg he0 he1 hthr ht1 hd0 hm (show t ≤ n by omega)
  have a2 := agree hf hg he0 he1 hthr ht1 hd0 hm (show t + 1 ≤ n by omega)
  unfold weights weight Graves.weight
  by_cases hc : Graves.Crossed eps dep h t
  · rw [if_pos hc, if_pos (a1.2 hc), if_neg (not_not.2 (hc.mono (Nat.le_succ t))), if_neg (not_not.2 hc)]
    simp
  have hp := not_lt.1 (mt a1.1 hc)
  rw [if_neg hc, if_neg (not_lt.2 hp)]
  by_cases hc' : Graves.Crossed eps dep h (t + 1)
  · have hcr : thr < f.rnd (prob f thr dep h t + demand f dep (h t)) := by
      by_contra hn
      have := a2.2 hc'
      rw [prob_succ] at this
      unfold weight at this
      rw [if_neg (not_lt.2 hp), if_neg hn] at this
      exact hn this
    rw [if_pos hc', if_pos hcr, if_neg (not_not.2 hc'), if_pos hc]
    obtain ⟨-, p0, p1, -⟩ := prob_range (h := h) hf ht0 ht1.le hd0 t
    have e1 := prob_close hf ht0 ht1 hd0 hp
    have e2 := rnd_error_one hf (x := 1 - prob f thr dep h t)
      (by rw [abs_of_nonneg (by linarith)]; linarith)
    rw [abs_le] at e1 e2 ⊢
    constructor <;> linarith [e1.1, e1.2, e2.1, e2.2]
  · obtain ⟨-, hn, -⟩ := prob_step hf ht0 ht1 hd0 (not_lt.1 (mt a2.1 hc'))
    rw [if_neg hc', if_neg hn, if_pos hc']
    exact demand_close hf hd0 (h t) (demand_le_one hf ht1 (prob_range (h := h) hf ht0 ht1.le hd0 t).2.1 hn)

/-- The sum of all differences between the weights. -/
theorem sum_weights_close {t : Nat} (ht : t ≤ n) :
    ∑ j ∈ Finset.range t, |weights f thr dep h j - Graves.weight eps dep h j| ≤
      if Graves.Crossed eps dep h t then (2 * errs dep - 1) * t * (2 : ℚ) ^ (-(f.prec : ℤ))
      else (errs dep - 1) * t * (2 : ℚ) ^ (-(f.prec : ℤ)) := by
  have hq : (0 : ℚ) < (2 : ℚ) ^ (-(f.prec : ℤ)) := zpow_pos (by norm_num) _
  have hkq : 2 * (2 : ℚ) ^ (-(f.prec : ℤ)) ≤ errs dep * (2 : ℚ) ^ (-(f.prec : ℤ)) :=
    mul_le_mul_of_nonneg_right (errs_ge dep) hq.le
  induction t with
  | zero => simp
  | succ t ih =>
    have ih := ih (by omega)
    have hw := weights_close hf hg he0 he1 hthr ht1 hd0 hm (show t < n by omega)
    rw [Finset.sum_range_succ]
    push_cast
    by_cases hc : Graves.Crossed eps dep h t
    · rw [if_pos hc] at ih hw
      rw [if_pos (hc.mono (Nat.le_succ t))]
      linarith
    · rw [if_neg hc] at ih hw
      split at hw
      · rename_i hc'
        rw [if_pos hc']
        linarith
      · rename_i hc'
        rw [if_neg hc']
        linarith

/-- The residual is close to Graves' remainder. -/
theorem resid_close {t : Nat} (ht : t ≤ n) :
    |resid f thr dep h t - Graves.remainder eps dep h t| ≤
      errs dep * t * (2 : ℚ) ^ (-(f.prec : ℤ)) + (2 : ℚ) ^ (-(f.prec : ℤ)) / 2 := by
  have hq : (0 : ℚ) < (2 : ℚ) ^ (-(f.prec : ℤ)) := zpow_pos (by norm_num) _
  have hkq : 2 * (2 : ℚ) ^ (-(f.prec : ℤ)) ≤ errs dep * (2 : ℚ) ^ (-(f.prec : ℤ)) :=
    mul_le_mul_of_nonneg_right (errs_ge dep) hq.le
  have ht0 : 0 ≤ thr := hthr ▸ rnd_nonneg (rnd_nonneg (by linarith))
  induction t with
  | zero =>
    rw [Graves.remainder, if_neg (Graves.not_crossed_zero (by linarith))]
    rw [resid, sub_zero, abs_zero, Nat.cast_zero]
    linarith
  | succ t ih =>
    have ih := ih (by omega)
    have hw := weights_close hf hg he0 he1 hthr ht1 hd0 hm (show t < n by omega)
    have a1 := agree hf hg he0 he1 hthr ht1 hd0 hm (show t ≤ n by omega)
    have a2 := agree hf hg he0 he1 hthr ht1 hd0 hm (show t + 1 ≤ n by omega)
    rw [Graves.remainder_succ]
    unfold resid
    push_cast
    by_cases hc : Graves.Crossed eps dep h t
    · rw [if_pos hc, if_neg fun hx => absurd (a1.2 hc) (not_lt.2 hx.1)]
      linarith
    have hp := not_lt.1 (mt a1.1 hc)
    rw [if_neg hc]
    rw [if_neg hc] at hw
    by_cases hc' : Graves.Crossed eps dep h (t + 1)
    · have hcr : thr < f.rnd (prob f thr dep h t + demand f dep (h t)) := by
        by_contra hn
        have := a2.2 hc'
        rw [prob_succ] at this
        unfold weight at this
        rw [if_neg (not_lt.2 hp), if_neg hn] at this
        exact hn this
      rw [if_pos hc', if_pos ⟨hp, hcr⟩]
      rw [if_pos hc'] at hw
      unfold weights weight Graves.weight at hw
      rw [if_neg (not_lt.2 hp), if_pos hcr, if_neg (not_not.2 hc'), if_pos hc] at hw
      linarith
    · obtain ⟨-, hn, -⟩ := prob_step hf ht0 ht1 hd0 (not_lt.1 (mt a2.1 hc'))
      rw [if_neg hc', if_neg fun hx => hn hx.2]
      rw [Graves.remainder, if_neg hc] at ih
      linarith

/-- The counter counts Graves' steps as far as its dtype can count. -/
theorem counter_eq {rd : ℚ → ℚ} {t : Nat} (ht : t ≤ n) (hrd : ∀ m : Nat, m ≤ n → rd m = m) :
    counter rd f thr dep h t = Graves.steps eps dep h t := by
  induction t with
  | zero => simp [counter, Graves.steps]
  | succ t ih =>
    have ih := ih (by omega)
    have a1 := agree hf hg he0 he1 hthr ht1 hd0 hm (show t ≤ n by omega)
    rw [Graves.steps_succ]
    unfold counter
    by_cases hc : Graves.Crossed eps dep h t
    · rw [if_pos hc, if_pos (a1.2 hc), ih]
    · rw [if_neg hc, if_neg (mt a1.1 hc), ih, Graves.steps_of_not hc]
      have := hrd (t + 1) ht
      push_cast at this ⊢
      exact this

end Agree
end Rounded
end Rounding

section Theorems
variable {F : DType → Fmt} [A : Arith ℚ]

/-- C85, the halting step.  Rounded arithmetic with a threshold below one, depression not negative, an
element that starts with cumulative probability 0; `h t` is the halting probability of step `t` as a number of
the dtype of the probabilities.  After `n` rounds: a halted element has an exact running sum above
`1 - epsilon` minus the margin, one that is not halted has a running sum of at most `1 - epsilon` plus the
margin. -/
theorem C85_halting_step (hA : A = Arith.rounded F) (hF64 : (F .f64).Valid)
    (hN : ∀ e e' : DType, e.isFloating = true → DType.promote e e' = e' → (F e).Sub (F e'))
    {s : ACTStates ℚ} (hwf : s.WF) (hF : (F s.probabilities.dtype).Valid)
    (he : 0 ≤ s.epsilon) (he1 : s.epsilon ≤ 1) (hdep : 0 ≤ s.depression_constant)
    (hthr : (F s.probabilities.dtype).rnd ((F .f64).rnd (1 - s.epsilon)) < 1)
    (rs : List (Round ℚ)) {c' : Controller ℚ} (hrun : run ⟨s⟩ (roundOps rs) = .ok c')
    {b : List Nat} (hfresh : s.probabilities.at? b = some 0) (h : Nat → ℚ)
    (hh : ∀ t r x, rs[t]? = some r → r.halting.at? b = some x →
      h t = convS r.halting.dtype s.probabilities.dtype x) :
    let margin := Rounded.margin (F s.probabilities.dtype) (F .f64) s.depression_constant rs.length
    (c'.haltedBatches.at? b = some true →
      1 - s.epsilon - margin < Graves.cumDemand s.depression_constant h rs.length) ∧
    (c'.haltedBatches.at? b ≠ some true →
      Graves.cumDemand s.depression_constant h rs.length ≤ 1 - s.epsilon + margin) := by
  obtain ⟨-, h2, -⟩ := rounded_trajectory hA hF64 hN hwf hF he he1 hdep rs hrun hfresh rfl h hh
  rw [ne_eq, h2]
  exact Rounded.near hF hF64 he he1 rfl hthr hdep

/-- C85, the results.  If moreover no exact running sum up to step `n` is within the margin of
`1 - epsilon`, the rounded run does what Graves' formulas say in exact arithmetic: the element is halted
exactly if the exact sum has crossed, the counter is the exact number of steps (as far as its dtype can count),
and with `e = 2` (`e = 4` for depression above one): the probability is within `e n` units `2^-prec` of the sum of
the weights, the residual within `e n + 1/2` units of the remainder, and each accumulator entry that started at 0
within `accBound` plus `(2 e - 1) n M` units of the weighted sum of its updates, for updates up to `M`. -/
theorem C85_results (hA : A = Arith.rounded F) (hF64 : (F .f64).Valid)
    (hN : ∀ e e' : DType, e.isFloating = true → DType.promote e e' = e' → (F e).Sub (F e'))
    {s : ACTStates ℚ} (hwf : s.WF) (hF : (F s.probabilities.dtype).Valid)
    (he : 0 ≤ s.epsilon) (he1 : s.epsilon ≤ 1) (hdep : 0 ≤ s.depression_constant)
    (hthr : (F s.probabilities.dtype).rnd ((F .f64).rnd (1 - s.epsilon)) < 1)
    (rs : List (Round ℚ)) {c' : Controller ℚ} (hrun : run ⟨s⟩ (roundOps rs) = .ok c')
    {b : List Nat} (hfresh : s.probabilities.at? b = some 0) (h : Nat → ℚ)
    (hh : ∀ t r x, rs[t]? = some r → r.halting.at? b = some x →
      h t = convS r.halting.dtype s.probabilities.dtype x)
    (hm : ∀ j ≤ rs.length, Rounded.margin (F s.probabilities.dtype) (F .f64)
      s.depression_constant rs.length <
      |Graves.cumDemand s.depression_constant h j - (1 - s.epsilon)|) :
    let unit := (2 : ℚ) ^ (-((F s.probabilities.dtype).prec : ℤ))
    let errs := Rounded.errs s.depression_constant
    let weight := Graves.weight s.epsilon s.depression_constant h
    (c'.haltedBatches.at? b = some true ↔
      Graves.Crossed s.epsilon s.depression_constant h rs.length) ∧
    (∃ p, c'.probabilities.at? b = some p ∧
      |p - ∑ t ∈ Finset.range rs.length, weight t| ≤ errs * rs.length * unit) ∧
    (s.residuals.at? b = some 0 → ∃ r, c'.residuals.at? b = some r ∧
      |r - Graves.remainder s.epsilon s.depression_constant h rs.length| ≤
        errs * rs.length * unit + unit / 2) ∧
    (s.iterations.at? b = some 0 → (s.iterations.dtype.isFloating = true →
        (F s.iterations.dtype).Valid ∧ rs.length ≤ 2 ^ (F s.iterations.dtype).prec) →
      c'.iterations.at? b =
        some (Graves.steps s.epsilon s.depression_constant h rs.length : ℚ)) ∧
    ∀ name k rest (ta : Tensor ℚ) (u : Nat → ℚ) (M : ℚ), 0 ≤ M →
      leaf? s.accumulators name k = some (.tensor ta) → ta.at? (b ++ rest) = some 0 →
      (∀ t r, rs[t]? = some r → ∃ (tu : Tensor ℚ) (v : ℚ),
        leaf? r.updates name k = some (.tensor tu) ∧ tu.at? (b ++ rest) = some v ∧
        u t = convS tu.dtype (DType.promote s.probabilities.dtype tu.dtype) v ∧ |u t| ≤ M) →
      ∃ a, entry? c'.accumulators name k (b ++ rest) = some a ∧
        |a - ∑ t ∈ Finset.range rs.length, weight t * u t| ≤
          accBound (F s.probabilities.dtype) rs.length M + (2 * errs - 1) * rs.length * unit * M := by
  intro unit errs weight
  have hu : 0 < unit := zpow_pos (by norm_num) _
  obtain ⟨h1, h2, h3, h4, ⟨-, -, -, h5⟩, h6, -, h8⟩ :=
    rounded_trajectory hA hF64 hN hwf hF he he1 hdep rs hrun hfresh rfl h hh
  have hag := Rounded.agree hF hF64 he he1 rfl hthr hdep hm le_rfl
  have hsum := Rounded.sum_weights_close hF hF64 he he1 rfl hthr hdep hm le_rfl
  refine ⟨h2.trans hag, ⟨_, h1, ?_⟩, fun hr => ⟨_, h3 hr, ?_⟩, fun hi hc => ?_, ?_⟩
  · by_cases hc : Graves.Crossed s.epsilon s.depression_constant h rs.length
    · rw [h5 (hag.2 hc), Graves.sum_weight_of_crossed (by linarith) hc, sub_self, abs_zero]
      exact mul_nonneg (mul_nonneg (by linarith [Rounded.errs_ge s.depression_constant]) (Nat.cast_nonneg _)) hu.le
    · rw [Graves.sum_weight_of_not hc]
      exact Rounded.prob_close hF (rnd_nonneg (rnd_nonneg (by linarith))) hthr hdep
        (not_lt.1 (mt hag.1 hc))
  · exact Rounded.resid_close hF hF64 he he1 rfl hthr hdep hm le_rfl
  · rw [h4 hi, Rounded.counter_eq hF hF64 he he1 rfl hthr hdep hm le_rfl]
    intro m hmn
    unfold Arith.roundTo
    split
    · rename_i hx
      obtain ⟨x1, x2⟩ := hc hx
      exact rep_nat x1 (hmn.trans x2)
    · rfl
  · intro name k rest ta u M hM g1 g2 g3
    obtain ⟨a, a1, a2⟩ := h8 name k rest ta u M hM g1 g2 g3
    refine ⟨a, a1, ?_⟩
    set w := Rounded.weights (F s.probabilities.dtype)
      ((F s.probabilities.dtype).rnd ((F .f64).rnd (1 - s.epsilon))) s.depression_constant h with hw
    have hub : ∀ j ∈ Finset.range rs.length, |u j| ≤ M := by
      intro j hj
      obtain ⟨-, -, -, -, -, hx⟩ := g3 j _ (List.getElem?_eq_getElem (Finset.mem_range.1 hj))
      exact hx
    have hle : ∑ j ∈ Finset.range rs.length, |w j - weight j| ≤ (2 * errs - 1) * rs.length * unit := by
      refine hsum.trans ?_
      split
      · exact le_rfl
      · have h0 : 0 ≤ errs * (rs.length * unit) :=
          mul_nonneg (by linarith [Rounded.errs_ge s.depression_constant]) (by positivity)
        change (errs - 1) * _ * unit ≤ _
        linarith
    have hd : |∑ t ∈ Finset.range rs.length, w t * u t - ∑ t ∈ Finset.range rs.length, weight t * u t| ≤
        (2 * errs - 1) * rs.length * unit * M := by
      rw [← Finset.sum_sub_distrib]
      refine (Finset.abs_sum_le_sum_abs _ _).trans ?_
      refine le_trans (Finset.sum_le_sum (g := fun j => |w j - weight j| * M) fun j hj => ?_) ?_
      · rw [← sub_mul, abs_mul]
        exact mul_le_mul_of_nonneg_left (hub j hj) (abs_nonneg _)
      · rw [← Finset.sum_mul]
        exact mul_le_mul_of_nonneg_right hle hM
    calc |a - ∑ t ∈ Finset.range rs.length, weight t * u t|
        = |(a - ∑ t ∈ Finset.range rs.length, w t * u t) + (∑ t ∈ Finset.range rs.length, w t * u t -
            ∑ t ∈ Finset.range rs.length, weight t * u t)| := by congr 1; ring
      _ ≤ _ := (abs_add_le _ _).trans (add_le_add a2 hd)

end Theorems

section Example
open Fixtures
attribute [local instance] ieee

/-- The margin is needed: in `float32` with `epsilon = 1/2`, the second halting probability is lost to rounding,
and the element is not halted although the exact sum has crossed. -/
theorem C85_margin_needed :
    obs (run ⟨baseState [1] .f32 (1 / 2) 1 Option.none⟩
        [.iterate (vec [1/2]), .iterate (vec [1 / 2 ^ 26])])
      (fun c => some (c.probabilities.at? [0], c.haltedBatches.at? [0])) =
        some (some (1/2), some false) ∧
    Graves.Crossed (1/2 : ℚ) 1 (fun t => if t = 0 then 1/2 else 1 / 2 ^ 26) 2 := by
  refine ⟨by decide +kernel, 2, le_rfl, ?_⟩
  norm_num [Graves.cumDemand, Finset.sum_range_succ, Graves.clip]

/-- The three rounds of C63 are far from the threshold: the element is halted as in exact arithmetic, and its
accumulator is close to the exact weighted sum 39/5. -/
example : ∃ c, run ⟨fresh⟩ (roundOps threeRounds) = .ok c ∧ c.haltedBatches.at? [0] = some true ∧
    c.iterations.at? [0] = some 3 ∧
    ∃ a, entry? c.accumulators "out" 0 [0, 0] = some a ∧ |a - 39/5| ≤ 1 / 10 ^ 5 := by
  obtain ⟨c, hc⟩ : ∃ c, run ⟨fresh⟩ (roundOps threeRounds) = .ok c := by
    have h1 := threeRounds_ok
    revert h1
    unfold obs
    split
    · rename_i c hc
      exact fun _ => ⟨c, hc⟩
    · intro h; cases h
  obtain ⟨g1, -, -, g2, g3⟩ := C85_results (F := DType.fmt) rfl (by decide) fmt_sub fresh_wf (by decide)
    (by norm_num [fresh]) (by norm_num [fresh]) (by norm_num [fresh])
    (by decide +kernel) threeRounds hc (b := [0]) (by decide +kernel)
    (fun t => if t = 0 then 1/10 else if t = 1 then 3/10 else 7/10)
    (by
      intro t r x hr hx
      match t with
      | 0 => cases hr; exact Option.some.inj ((show _ = some (1/10 : ℚ) by decide +kernel).symm.trans hx)
      | 1 => cases hr; exact Option.some.inj ((show _ = some (3/10 : ℚ) by decide +kernel).symm.trans hx)
      | 2 => cases hr; exact Option.some.inj ((show _ = some (7/10 : ℚ) by decide +kernel).symm.trans hx)
      | t + 3 => simp [threeRounds] at hr)
    (by
      intro j hj
      have hj : j ≤ 3 := hj
      interval_cases j <;> norm_num [Rounded.margin, Rounded.errs, fresh, vec, DType.fmt, threeRounds, Graves.cumDemand,
        Finset.sum_range_succ, Graves.clip])
  have hcr : Graves.Crossed (1/10 : ℚ) 1 (fun t => if t = 0 then 1/10 else if t = 1 then 3/10 else 7/10) 3 :=
    ⟨3, le_rfl, by norm_num [Graves.cumDemand, Finset.sum_range_succ, Graves.clip]⟩
  refine ⟨c, hc, g1.2 hcr, ?_, ?_⟩
  · rw [g2 (by decide +kernel) (fun _ => by decide)]
    decide +kernel
  · obtain ⟨a, e1, e2⟩ := g3 "out" 0 [0] (col 0 0) (fun t => if t = 0 then 3 else if t = 1 then 7 else 9)
      9 (by norm_num) rfl (by decide +kernel) (by
        intro t r hr
        match t with
        | 0 => cases hr; exact ⟨col 3 2, 3, rfl, by decide +kernel, rfl, by norm_num⟩
        | 1 => cases hr; exact ⟨col 7 2, 7, rfl, by decide +kernel, rfl, by norm_num⟩
        | 2 => cases hr; exact ⟨col 9 2, 9, rfl, by decide +kernel, rfl, by norm_num⟩
        | t + 3 => simp [threeRounds] at hr)
    have hs : ∑ t ∈ Finset.range threeRounds.length, Graves.weight fresh.epsilon fresh.depression_constant
        (fun t => if t = 0 then 1/10 else if t = 1 then 3/10 else 7/10) t *
          (if t = 0 then 3 else if t = 1 then 7 else 9) = (39/5 : ℚ) := by
      decide +kernel
    have hb : accBound fresh.probabilities.dtype.fmt threeRounds.length 9 +
        (2 * Rounded.errs fresh.depression_constant - 1) * (threeRounds.length : ℚ) * 2 ^ (-(fresh.probabilities.dtype.fmt.prec : ℤ)) * 9 ≤ 1 / 10 ^ 5 := by
      decide +kernel
    rw [hs] at e2
    exact ⟨a, e1, e2.trans hb⟩

end Example

end JaxAct
