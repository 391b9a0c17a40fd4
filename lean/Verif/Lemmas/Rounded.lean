import Verif.Lemmas.Round
import Verif.Lemmas.Entry
import Verif.Lemmas.Rounds

/-! # The scalar step in rounded arithmetic -/

namespace JaxAct.Spec
open Arith Fmt

variable {F : DType → Fmt} [A : Arith ℚ]

omit A in
theorem roundTo_float {d : DType} (hd : d.isFloating = true) (x : ℚ) :
    roundTo F d x = (F d).rnd x := by
  unfold roundTo; rw [if_pos hd]

theorem threshold_rounded (hA : A = Arith.rounded F) {d : DType} (hd : d.isFloating = true)
    (eps : ℚ) : threshold d eps = (F d).rnd ((F .f64).rnd (1 - eps)) := by
  subst hA
  show roundTo F d (roundTo F .f64 (1 - eps)) = _
  rw [roundTo_float hd, roundTo_float rfl]

theorem isHalted_rounded (hA : A = Arith.rounded F) {d : DType} {eps p : ℚ} :
    isHalted d eps p = true ↔ threshold d eps < p := by
  subst hA
  exact decide_eq_true_iff

theorem clamp_rounded (hA : A = Arith.rounded F) (x : ℚ) : clamp x = 1 ⊓ (0 ⊔ x) := by
  subst hA; rfl

theorem demand_rounded (hA : A = Arith.rounded F) {d : DType} (hd : d.isFloating = true)
    (dep h : ℚ) : demand d dep h = (F d).rnd ((F d).rnd dep * (1 ⊓ (0 ⊔ h))) := by
  subst hA
  show roundTo F d (roundTo F d dep * _) = _
  rw [roundTo_float hd, roundTo_float hd]
  rfl

theorem demand_rounded_nonneg (hA : A = Arith.rounded F) {d : DType} (hd : d.isFloating = true)
    {dep h : ℚ} (h0 : 0 ≤ dep) : 0 ≤ demand d dep h := by
  rw [demand_rounded hA hd]
  exact rnd_nonneg (mul_nonneg (rnd_nonneg h0) (le_inf zero_le_one le_sup_left))

theorem crosses_rounded (hA : A = Arith.rounded F) {d : DType} (hd : d.isFloating = true)
    {eps dep p h : ℚ} : crosses d eps dep p h = true ↔
      threshold d eps < (F d).rnd (p + demand d dep h) := by
  subst hA
  rw [add_comm, ← roundTo_float hd]
  exact decide_eq_true_iff

theorem step_rounded (hA : A = Arith.rounded F) {d : DType} (hd : d.isFloating = true) (dI : DType)
    (eps dep : ℚ) (c : Cell ℚ) (h : ℚ) : (step d dI eps dep c h).prob =
      if crosses d eps dep c.prob h then (F d).rnd (c.prob + (F d).rnd (1 - c.prob))
      else (F d).rnd (c.prob + demand d dep h) := by
  have ha : ∀ x y : ℚ, Arith.add d x y = (F d).rnd (x + y) := fun x y => by
    subst hA; exact roundTo_float hd _
  have hs : ∀ x : ℚ, Arith.sub d Arith.one x = (F d).rnd (1 - x) := fun x => by
    subst hA; exact roundTo_float hd _
  unfold step weight
  simp only [ha, hs]
  split <;> rfl

theorem keepIf_rounded (hA : A = Arith.rounded F) {d : DType} (hd : d.isFloating = true)
    (hF : (F d).Valid) (b : Bool) (x : ℚ) :
    keepIf d b x = if b then (F d).rnd x else 0 := by
  have hne : DType.bool ≠ d := by rintro rfl; cases hd
  have hm : ∀ x y : ℚ, Arith.mul d x y = (F d).rnd (x * y) := fun x y => by
    subst hA; exact roundTo_float hd _
  have hc : ∀ x : ℚ, Arith.cast d x = (F d).rnd x := fun x => by
    subst hA; exact roundTo_float hd _
  have hb : (Arith.ofBool b : ℚ) = if b then 1 else 0 := by subst hA; rfl
  unfold keepIf convS
  rw [if_neg hne, hm, hc, hb]
  cases b
  · simp [rnd_zero]
  · simp [rnd_one hF]

/-- The threshold is between 0 and 1 (for `epsilon` between 0 and 1). -/
theorem threshold_le_one (hA : A = Arith.rounded F) {d : DType} (hd : d.isFloating = true)
    (hF : (F d).Valid) (hF64 : (F .f64).Valid) {eps : ℚ} (h0 : 0 ≤ eps) :
    threshold d eps ≤ 1 := by
  rw [threshold_rounded hA hd]
  exact rnd_le_of_rep hF.1 (rnd_one hF)
    (rnd_le_of_rep hF64.1 (rnd_one hF64) (by linarith))

theorem threshold_nonneg (hA : A = Arith.rounded F) {d : DType} (hd : d.isFloating = true)
    {eps : ℚ} (h1 : eps ≤ 1) : 0 ≤ threshold d eps := by
  rw [threshold_rounded hA hd]
  exact rnd_nonneg (rnd_nonneg (by linarith))

end JaxAct.Spec
