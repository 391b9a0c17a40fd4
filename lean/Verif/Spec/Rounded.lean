import Verif.Basic.Round
import Verif.Spec.Graves

/-! # Specification: adaptive computation time with rounding

The recurrence of one batch element when every operation is rounded to a format `f`; `thr` is the threshold,
`h t` the halting probability of step `t`.  Nothing of the model is used. -/

namespace JaxAct.Rounded

/-- The rounded demand of a step. -/
def demand (f : Fmt) (dep x : ℚ) : ℚ := f.rnd (f.rnd dep * Graves.clip x)

/-- The weight of a step taken at cumulative probability `p`: nothing once halted, the rounded remainder
when the demand takes the probability above the threshold, else the demand. -/
def weight (f : Fmt) (thr dep p x : ℚ) : ℚ :=
  if thr < p then 0
  else if thr < f.rnd (p + demand f dep x) then f.rnd (1 - p)
  else demand f dep x

/-- The cumulative probability after `t` steps. -/
def prob (f : Fmt) (thr dep : ℚ) (h : Nat → ℚ) : Nat → ℚ
  | 0 => 0
  | t + 1 => f.rnd (prob f thr dep h t + weight f thr dep (prob f thr dep h t) (h t))

/-- The weight of step `t`. -/
def weights (f : Fmt) (thr dep : ℚ) (h : Nat → ℚ) (t : Nat) : ℚ :=
  weight f thr dep (prob f thr dep h t) (h t)

/-- The residual after `t` steps: the rounded remainder of the step that crosses the threshold. -/
def resid (f : Fmt) (thr dep : ℚ) (h : Nat → ℚ) : Nat → ℚ
  | 0 => 0
  | t + 1 =>
    if prob f thr dep h t ≤ thr ∧ thr < f.rnd (prob f thr dep h t + demand f dep (h t)) then
      f.rnd (1 - prob f thr dep h t)
    else resid f thr dep h t

/-- The iteration counter after `t` steps, with `rd` the rounding of its dtype: one more for each step that
starts at or below the threshold. -/
def counter (rd : ℚ → ℚ) (f : Fmt) (thr dep : ℚ) (h : Nat → ℚ) : Nat → ℚ
  | 0 => 0
  | t + 1 =>
    if thr < prob f thr dep h t then counter rd f thr dep h t
    else rd (counter rd f thr dep h t + 1)

end JaxAct.Rounded
