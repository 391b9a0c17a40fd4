import Verif.Lemmas.Round

/-! # Rounding gives a nearest number of the format -/

namespace JaxAct.Fmt
variable {f : Fmt}

/-- Rounding an integer multiple is at least as close as any other integer. -/
theorem abs_rne_sub_le_int (x : ℚ) (k : ℤ) : |(rne x : ℚ) - x| ≤ |(k : ℚ) - x| := by
  by_contra h
  rw [not_le] at h
  have h1 := abs_rne_sub_le x
  have : rne x = k := rne_eq_of_lt (by rw [abs_sub_comm]; linarith)
  rw [this] at h
  exact lt_irrefl _ h

theorem abs_rnd_sub_le_multiple (x : ℚ) (k : ℤ) : |f.rnd x - x| ≤ |k * f.ulp x - x| := by
  have hu := ulp_pos f x
  have h := abs_rne_sub_le_int (x / f.ulp x) k
  have e1 : f.rnd x - x = ((rne (x / f.ulp x) : ℚ) - x / f.ulp x) * f.ulp x := by
    unfold rnd; field_simp
  have e2 : k * f.ulp x - x = ((k : ℚ) - x / f.ulp x) * f.ulp x := by field_simp
  rw [e1, e2, abs_mul, abs_mul]
  exact mul_le_mul_of_nonneg_right h (abs_nonneg _)

/-- The rounded number is at least as close as any other number of the format. -/
theorem abs_rnd_sub_le_of_rep (hp : 1 ≤ f.prec) {x y : ℚ} (hy : f.Rep y) : |f.rnd x - x| ≤ |y - x| := by
  rcases eq_or_ne x 0 with rfl | hx0
  · rw [rnd_zero]; simp
  rcases eq_or_ne y 0 with rfl | hy0
  · have := abs_rnd_sub_le_multiple (f := f) x 0
    simpa using this
  have hy' : y = (rne (y / f.ulp y) : ℚ) * f.ulp y := hy.symm
  rcases le_or_gt (f.ulpExp x) (f.ulpExp y) with h | h
  · obtain ⟨j, hj⟩ := two_zpow_split h
    have := abs_rnd_sub_le_multiple (f := f) x (rne (y / f.ulp y) * j)
    push_cast at this
    rw [mul_assoc, show f.ulp x = 2 ^ f.ulpExp x from rfl, ← hj] at this
    rw [show (rne (y / f.ulp y) : ℚ) * 2 ^ f.ulpExp y = y from hy'.symm] at this
    exact this
  · have hxp : 0 < |x| := abs_pos.2 hx0
    have hyp : 0 < |y| := abs_pos.2 hy0
    have hE : f.ulpExp x = Int.log 2 |x| - (f.prec - 1) := by unfold ulpExp at h ⊢; omega
    have hlog : Int.log 2 |y| < Int.log 2 |x| := by unfold ulpExp at h; omega
    have h1 : |y| < (2 : ℚ) ^ Int.log 2 |x| := by
      have := (Int.lt_zpow_iff_log_lt (R := ℚ) (b := 2) (by norm_num) hyp).2 hlog
      exact_mod_cast this
    have h2 : (2 : ℚ) ^ Int.log 2 |x| ≤ |x| := by
      have := Int.zpow_log_le_self (R := ℚ) (b := 2) (by norm_num) hxp
      exact_mod_cast this
    obtain ⟨j, hj⟩ := two_zpow_split (a := f.ulpExp x) (b := Int.log 2 |x|) (by omega)
    have hu : f.ulp x = (2 : ℚ) ^ f.ulpExp x := rfl
    rcases le_total 0 x with hx | hx
    · rw [abs_of_nonneg hx] at h1 h2 hj
      have := abs_rnd_sub_le_multiple (f := f) x j
      rw [hu, ← hj] at this
      refine this.trans ?_
      rw [abs_sub_comm, abs_of_nonneg (by linarith), abs_sub_comm]
      have := le_abs_self y
      have := le_abs_self (x - y)
      linarith
    · rw [abs_of_nonpos hx] at h1 h2 hj
      have := abs_rnd_sub_le_multiple (f := f) x (-j)
      push_cast at this
      rw [hu, neg_mul, ← hj] at this
      refine this.trans ?_
      rw [abs_of_nonneg (by linarith)]
      have := neg_abs_le y
      have := le_abs_self (y - x)
      linarith
end JaxAct.Fmt
