import Verif.Spec.Reset
import Mathlib.Algebra.Order.Field.Basic
import Mathlib.Tactic.Linarith
import Mathlib.Tactic.Ring

/-! # The scalar specification in exact arithmetic -/

namespace JaxAct.Spec
variable {K : Type} [Field K] [LinearOrder K] [IsStrictOrderedRing K]

attribute [local instance] Arith.exact

omit [IsStrictOrderedRing K] in
theorem isHalted_iff {d : DType} {eps p : K} : isHalted d eps p = true ↔ 1 - eps < p := by
  show decide (1 - eps < p) = true ↔ _
  simp

omit [IsStrictOrderedRing K] in
theorem isHalted_false_iff {d : DType} {eps p : K} : isHalted d eps p = false ↔ p ≤ 1 - eps := by
  show decide (1 - eps < p) = false ↔ _
  simp

omit [IsStrictOrderedRing K] in
theorem clamp_eq (x : K) : clamp x = 1 ⊓ (0 ⊔ x) := rfl

theorem clamp_nonneg (x : K) : 0 ≤ clamp x := by
  rw [clamp_eq]; exact le_inf zero_le_one le_sup_left

omit [IsStrictOrderedRing K] in
theorem clamp_le_one (x : K) : clamp x ≤ 1 := inf_le_left

omit [IsStrictOrderedRing K] in
theorem clamp_of_mem {x : K} (h0 : 0 ≤ x) (h1 : x ≤ 1) : clamp x = x := by
  rw [clamp_eq, sup_eq_right.2 h0, inf_eq_right.2 h1]

theorem clamp_clamp (x : K) : clamp (clamp x) = clamp x :=
  clamp_of_mem (clamp_nonneg x) (clamp_le_one x)

omit [IsStrictOrderedRing K] in
theorem clamp_mono {x y : K} (h : x ≤ y) : clamp x ≤ clamp y :=
  inf_le_inf_left _ (sup_le_sup_left h _)

omit [IsStrictOrderedRing K] in
@[simp] theorem demand_eq (d : DType) (dep h : K) : demand d dep h = dep * clamp h := rfl

theorem demand_nonneg {d : DType} {dep h : K} (hd : 0 ≤ dep) : 0 ≤ demand d dep h :=
  mul_nonneg hd (clamp_nonneg h)

omit [IsStrictOrderedRing K] in
theorem crosses_iff {d : DType} {eps dep p h : K} :
    crosses d eps dep p h = true ↔ 1 - eps < dep * clamp h + p := by
  show decide (1 - eps < dep * clamp h + p) = true ↔ _
  simp

omit [IsStrictOrderedRing K] in
theorem crosses_false_iff {d : DType} {eps dep p h : K} :
    crosses d eps dep p h = false ↔ dep * clamp h + p ≤ 1 - eps := by
  show decide (1 - eps < dep * clamp h + p) = false ↔ _
  simp

omit [IsStrictOrderedRing K] in
theorem weight_of_crosses {d : DType} {eps dep p h : K} (hc : crosses d eps dep p h = true) :
    weight d eps dep p h = 1 - p := by
  unfold weight; rw [if_pos hc]; rfl

omit [IsStrictOrderedRing K] in
theorem weight_of_not {d : DType} {eps dep p h : K} (hc : crosses d eps dep p h = false) :
    weight d eps dep p h = dep * clamp h := by
  unfold weight; rw [if_neg (by simp [hc])]; rfl

omit [IsStrictOrderedRing K] in
theorem step_prob (d dI : DType) (eps dep : K) (c : Cell K) (h : K) :
    (step d dI eps dep c h).prob = c.prob + weight d eps dep c.prob h := rfl

omit [IsStrictOrderedRing K] in
/-- At a crossing the cumulative probability becomes exactly one. -/
theorem step_prob_of_crosses {d dI : DType} {eps dep : K} {c : Cell K} {h : K}
    (hc : crosses d eps dep c.prob h = true) : (step d dI eps dep c h).prob = 1 := by
  rw [step_prob, weight_of_crosses hc]; ring

/-- A halted element crosses at every further step. -/
theorem crosses_of_halted {d : DType} {eps dep p h : K} (hdep : 0 ≤ dep)
    (hh : isHalted d eps p = true) : crosses d eps dep p h = true := by
  rw [crosses_iff]
  rw [isHalted_iff] at hh
  have := mul_nonneg hdep (clamp_nonneg h)
  linarith

/-- The element is halted after the step exactly if it crossed. -/
theorem halted_step_iff {d dI : DType} {eps dep : K} {c : Cell K} {h : K} (he : 0 < eps) :
    isHalted d eps (step d dI eps dep c h).prob = true ↔ crosses d eps dep c.prob h = true := by
  constructor
  · intro hh
    by_contra hc
    have hc' : crosses d eps dep c.prob h = false := by simpa using hc
    rw [step_prob, weight_of_not hc', isHalted_iff] at hh
    rw [crosses_false_iff] at hc'
    linarith
  · intro hc
    rw [step_prob_of_crosses hc, isHalted_iff]
    linarith

omit [IsStrictOrderedRing K] in
theorem keepIf_eq (d : DType) (b : Bool) (x : K) : keepIf d b x = if b then x else 0 := by
  unfold keepIf convS Arith.ofBool
  cases b
  · show x * _ = _
    split <;> exact mul_zero x
  · show x * _ = _
    split <;> exact mul_one x

omit [IsStrictOrderedRing K] in
@[simp] theorem convS_exact (f t : DType) (x : K) : convS f t x = x := by
  unfold convS; split <;> rfl

omit [IsStrictOrderedRing K] in
theorem accStep_eq (d dA dU : DType) (eps dep p h a u : K) :
    accStep d dA dU eps dep p h a u =
      if isHalted d eps p then a else a + weight d eps dep p h * u := by
  unfold accStep
  simp only [convS_exact]
  rfl

end JaxAct.Spec
