import Verif.Basic.Round
import Mathlib.Tactic.Linarith
import Mathlib.Tactic.Ring
import Mathlib.Tactic.NormNum
import Mathlib.Tactic.FieldSimp

/-! # Rounding to nearest even -/

namespace JaxAct.Fmt

/-! ### Nearest integer -/

theorem rne_intCast (n : ℤ) : rne (n : ℚ) = n := by simp [rne]

theorem rne_mono {x y : ℚ} (h : x ≤ y) : rne x ≤ rne y := by
  have hf : ⌊x⌋ ≤ ⌊y⌋ := Int.floor_le_floor h
  have up : ∀ z, rne z ≤ ⌊z⌋ + 1 := fun z => by unfold rne; split_ifs <;> omega
  have lo : ∀ z, ⌊z⌋ ≤ rne z := fun z => by unfold rne; split_ifs <;> omega
  rcases hf.lt_or_eq with hlt | heq
  · exact le_trans (up x) (le_trans hlt (lo y))
  · have hfr : Int.fract x ≤ Int.fract y := by
      unfold Int.fract; rw [heq]; linarith
    unfold rne
    rw [heq]
    split_ifs <;> first | omega | (exfalso; linarith)

theorem abs_rne_sub_le (x : ℚ) : |(rne x : ℚ) - x| ≤ 1 / 2 := by
  have h := Int.floor_add_fract x
  have h0 := Int.fract_nonneg x
  have h1 := Int.fract_lt_one x
  unfold rne
  rw [abs_le]
  split_ifs <;> push_cast <;> constructor <;> linarith

/-- Within a quarter of an integer, or within half of an even one: that integer. -/
theorem rne_eq_of_lt {x : ℚ} {n : ℤ} (h : |x - n| < 1 / 2) : rne x = n := by
  have h1 := abs_le.1 (abs_rne_sub_le x)
  have h2 := abs_lt.1 h
  have h3 : ((rne x - n : ℤ) : ℚ) < 1 := by push_cast; linarith
  have h4 : (-1 : ℚ) < ((rne x - n : ℤ) : ℚ) := by push_cast; linarith
  have h5 : rne x - n < 1 := by exact_mod_cast h3
  have h6 : -1 < rne x - n := by exact_mod_cast h4
  omega

theorem rne_eq_of_le_even {x : ℚ} {n : ℤ} (hn : Even n) (h : |x - n| ≤ 1 / 2) : rne x = n := by
  rcases h.lt_or_eq with h | h
  · exact rne_eq_of_lt h
  · rcases abs_choice (x - n) with h' | h' <;> rw [h'] at h
    · have hx : x = n + 1 / 2 := by linarith
      have hfl : ⌊x⌋ = n := by rw [Int.floor_eq_iff]; constructor <;> linarith
      have hfr : Int.fract x = 1 / 2 := by unfold Int.fract; rw [hfl, hx]; ring
      unfold rne
      rw [hfr, hfl]
      norm_num [hn]
    · have hx : x = n - 1 / 2 := by linarith
      have hfl : ⌊x⌋ = n - 1 := by
        rw [Int.floor_eq_iff]; push_cast; constructor <;> linarith
      have hfr : Int.fract x = 1 / 2 := by unfold Int.fract; rw [hfl, hx]; push_cast; ring
      have ho : ¬ Even (n - 1) := by
        rw [Int.even_sub_one, not_not]; exact hn
      unfold rne
      rw [hfr, hfl]
      norm_num [ho]

theorem even_rne_of_tie {x : ℚ} (h : |x - rne x| = 1 / 2) : Even (rne x) := by
  have hx := Int.floor_add_fract x
  have h0 := Int.fract_nonneg x
  have h1 := Int.fract_lt_one x
  unfold rne at h ⊢
  split_ifs at h ⊢ with a b c
  · exfalso
    rw [abs_of_nonneg (by linarith)] at h
    linarith
  · exfalso
    push_cast at h
    rw [abs_of_nonpos (by linarith)] at h
    linarith
  · exact c
  · exact Int.even_add_one.2 c

theorem rne_neg (x : ℚ) : rne (-x) = -rne x := by
  have h := abs_rne_sub_le x
  rw [abs_sub_comm] at h
  have e : |-x - ((-rne x : ℤ) : ℚ)| = |x - rne x| := by
    push_cast; rw [← abs_neg]; congr 1; ring
  rcases h.lt_or_eq with h | h
  · exact rne_eq_of_lt (by rw [e]; exact h)
  · exact rne_eq_of_le_even (even_rne_of_tie h).neg (by rw [e]; exact h.le)

/-! ### Rounding into a format -/

variable {f : Fmt}

theorem ulp_pos (f : Fmt) (x : ℚ) : 0 < f.ulp x := zpow_pos (by norm_num) _

theorem rnd_zero (f : Fmt) : f.rnd 0 = 0 := by
  unfold rnd
  rw [zero_div]
  have : rne 0 = 0 := by exact_mod_cast rne_intCast 0
  rw [this]; simp

/-- A multiple of the spacing is exact. -/
theorem rnd_of_multiple {x : ℚ} {k : ℤ} (h : x = k * f.ulp x) : f.rnd x = x := by
  have : x / f.ulp x = k := by rw [div_eq_iff (ulp_pos f x).ne']; exact h
  unfold rnd
  rw [this, rne_intCast]
  exact h.symm

theorem two_zpow_split {a b : ℤ} (h : a ≤ b) :
    ∃ k : ℤ, (2 : ℚ) ^ b = k * (2 : ℚ) ^ a := by
  obtain ⟨n, rfl⟩ := Int.le.dest h
  refine ⟨2 ^ n, ?_⟩
  rw [zpow_add₀ (by norm_num)]
  push_cast
  rw [zpow_natCast, mul_comm]

/-- A multiple `k * 2 ^ g` of a power of two that is at least the subnormal spacing, with at most
`prec` bits, is exact. -/
theorem rnd_exact (hp : 1 ≤ f.prec) {g k : ℤ} (hg : f.emin ≤ g) {x : ℚ}
    (hx : x = k * (2 : ℚ) ^ g) (hb : |x| ≤ (2 : ℚ) ^ (g + f.prec)) : f.rnd x = x := by
  rcases eq_or_ne x 0 with rfl | h0
  · exact rnd_zero f
  have hpos : 0 < |x| := abs_pos.2 h0
  rcases hb.lt_or_eq with hb | hb
  · have hl : Int.log 2 |x| < g + f.prec := by
      rw [← Int.lt_zpow_iff_log_lt (by norm_num) hpos]; exact_mod_cast hb
    have hu : f.ulpExp x ≤ g := by unfold ulpExp; omega
    obtain ⟨j, hj⟩ := two_zpow_split hu
    refine rnd_of_multiple (k := k * j) ?_
    push_cast
    rw [mul_assoc, show f.ulp x = 2 ^ f.ulpExp x from rfl, ← hj]
    exact hx
  · have hl : Int.log 2 |x| = g + f.prec := by
      rw [hb]; exact_mod_cast Int.log_zpow (R := ℚ) (b := 2) (by norm_num) (g + f.prec)
    have hu : f.ulpExp x ≤ g + f.prec := by unfold ulpExp; omega
    obtain ⟨j, hj⟩ := two_zpow_split hu
    rcases abs_choice x with h | h
    · refine rnd_of_multiple (k := j) ?_
      rw [show f.ulp x = 2 ^ f.ulpExp x from rfl, ← hj, ← hb, h]
    · refine rnd_of_multiple (k := -j) ?_
      push_cast
      rw [neg_mul, show f.ulp x = 2 ^ f.ulpExp x from rfl, ← hj, ← hb, h, neg_neg]

theorem rnd_one (hf : f.Valid) : f.rnd 1 = 1 := by
  have h := hf.2
  refine rnd_exact hf.1 (g := 0) (k := 1) (by omega) (by simp) ?_
  rw [abs_one, zero_add, zpow_natCast]
  exact one_le_pow₀ (by norm_num)

theorem rnd_nonneg {x : ℚ} (h : 0 ≤ x) : 0 ≤ f.rnd x := by
  unfold rnd
  have h1 : rne (0 : ℤ) ≤ rne (x / f.ulp x) :=
    rne_mono (by simpa using div_nonneg h (ulp_pos f x).le)
  rw [rne_intCast] at h1
  exact mul_nonneg (by exact_mod_cast h1) (ulp_pos f x).le

theorem rnd_nonpos {x : ℚ} (h : x ≤ 0) : f.rnd x ≤ 0 := by
  unfold rnd
  have h1 : rne (x / f.ulp x) ≤ rne (0 : ℤ) :=
    rne_mono (by simpa using div_nonpos_of_nonpos_of_nonneg h (ulp_pos f x).le)
  rw [rne_intCast] at h1
  exact mul_nonpos_of_nonpos_of_nonneg (by exact_mod_cast h1) (ulp_pos f x).le

/-- Rounding moves a number by at most half the spacing. -/
theorem abs_rnd_sub_le (x : ℚ) : |f.rnd x - x| ≤ f.ulp x / 2 := by
  have hu := ulp_pos f x
  have h := abs_rne_sub_le (x / f.ulp x)
  have : f.rnd x - x = ((rne (x / f.ulp x) : ℚ) - x / f.ulp x) * f.ulp x := by
    unfold rnd; field_simp
  rw [this, abs_mul, abs_of_pos hu]
  nlinarith

/-- The size of a rounded number. -/
theorem abs_rnd_le (x : ℚ) : |f.rnd x| ≤ (2 : ℚ) ^ (f.ulpExp x + f.prec) := by
  have hu := ulp_pos f x
  have hx : |x| ≤ (2 : ℚ) ^ (f.ulpExp x + f.prec) := by
    have h := (Int.lt_zpow_succ_log_self (R := ℚ) (b := 2) (by norm_num) |x|).le
    refine le_trans (by exact_mod_cast h) (zpow_le_zpow_right₀ (by norm_num) ?_)
    unfold ulpExp; omega
  have hs : (2 : ℚ) ^ (f.ulpExp x + f.prec) = ((2 ^ f.prec : ℤ) : ℚ) * f.ulp x := by
    rw [zpow_add₀ (by norm_num), zpow_natCast]; push_cast; unfold ulp; ring
  rw [hs] at hx ⊢
  have h2 := abs_le.1 hx
  rw [abs_le]
  unfold rnd
  constructor
  · have : rne ((-(2 ^ f.prec) : ℤ) : ℚ) ≤ rne (x / f.ulp x) :=
      rne_mono (by rw [le_div_iff₀ hu]; push_cast at h2 ⊢; linarith)
    rw [rne_intCast] at this
    have : ((-(2 ^ f.prec) : ℤ) : ℚ) ≤ rne (x / f.ulp x) := by exact_mod_cast this
    push_cast at this ⊢
    nlinarith
  · have : rne (x / f.ulp x) ≤ rne ((2 ^ f.prec : ℤ) : ℚ) :=
      rne_mono (by rw [div_le_iff₀ hu]; exact h2.2)
    rw [rne_intCast] at this
    have : (rne (x / f.ulp x) : ℚ) ≤ ((2 ^ f.prec : ℤ) : ℚ) := by exact_mod_cast this
    exact mul_le_mul_of_nonneg_right this hu.le

/-- Rounded numbers are numbers of the format. -/
theorem rnd_rep (hp : 1 ≤ f.prec) (x : ℚ) : f.Rep (f.rnd x) :=
  rnd_exact hp (g := f.ulpExp x) (k := rne (x / f.ulp x)) (le_max_right _ _) rfl (abs_rnd_le x)

theorem rnd_neg (x : ℚ) : f.rnd (-x) = -f.rnd x := by
  have : f.ulp (-x) = f.ulp x := by unfold ulp ulpExp; rw [abs_neg]
  unfold rnd
  rw [this, neg_div, rne_neg]
  push_cast
  ring

theorem rnd_mono_pos (hp : 1 ≤ f.prec) {x y : ℚ} (h0 : 0 < x) (h : x ≤ y) :
    f.rnd x ≤ f.rnd y := by
  have hy : 0 < y := lt_of_lt_of_le h0 h
  have hlog : Int.log 2 |x| ≤ Int.log 2 |y| := by
    rw [abs_of_pos h0, abs_of_pos hy]; exact Int.log_mono_right h0 h
  rcases eq_or_ne (f.ulpExp x) (f.ulpExp y) with he | hne
  · have hu : f.ulp x = f.ulp y := by unfold ulp; rw [he]
    unfold rnd
    rw [hu]
    have : rne (x / f.ulp y) ≤ rne (y / f.ulp y) :=
      rne_mono (div_le_div_of_nonneg_right h (ulp_pos f y).le)
    exact mul_le_mul_of_nonneg_right (by exact_mod_cast this) (ulp_pos f y).le
  · have hlt : f.ulpExp x + 1 ≤ f.ulpExp y := by
      have : f.ulpExp x ≤ f.ulpExp y := by unfold ulpExp; omega
      omega
    have hey : f.ulpExp y = Int.log 2 |y| - (f.prec - 1) := by
      unfold ulpExp at hlt ⊢; omega
    have hx1 : f.rnd x ≤ (2 : ℚ) ^ (f.ulpExp y + (f.prec - 1)) :=
      le_trans (le_abs_self _) (le_trans (abs_rnd_le x)
        (zpow_le_zpow_right₀ (by norm_num) (by omega)))
    refine le_trans hx1 ?_
    have hs : (2 : ℚ) ^ (f.ulpExp y + (f.prec - 1 : ℤ)) =
        ((2 ^ (f.prec - 1) : ℤ) : ℚ) * f.ulp y := by
      have : ((f.prec : ℤ) - 1) = ((f.prec - 1 : ℕ) : ℤ) := by omega
      rw [this, zpow_add₀ (by norm_num), zpow_natCast]; push_cast; unfold ulp; ring
    have hle : (2 : ℚ) ^ (f.ulpExp y + (f.prec - 1 : ℤ)) ≤ y := by
      rw [hey, sub_add_cancel, abs_of_pos hy]
      exact_mod_cast Int.zpow_log_le_self (R := ℚ) (b := 2) (by norm_num) hy
    rw [hs] at hle ⊢
    have : rne ((2 ^ (f.prec - 1) : ℤ) : ℚ) ≤ rne (y / f.ulp y) :=
      rne_mono (by rw [le_div_iff₀ (ulp_pos f y)]; exact hle)
    rw [rne_intCast] at this
    exact mul_le_mul_of_nonneg_right (by exact_mod_cast this) (ulp_pos f y).le

/-- Rounding is monotone. -/
theorem rnd_mono (hp : 1 ≤ f.prec) {x y : ℚ} (h : x ≤ y) : f.rnd x ≤ f.rnd y := by
  rcases lt_or_ge 0 x with hx | hx
  · exact rnd_mono_pos hp hx h
  · rcases lt_or_ge y 0 with hy | hy
    · have := rnd_mono_pos hp (neg_pos.2 hy) (neg_le_neg h)
      rw [rnd_neg, rnd_neg] at this
      exact neg_le_neg_iff.1 this
    · exact le_trans (rnd_nonpos hx) (rnd_nonneg hy)

theorem rnd_le_of_rep (hp : 1 ≤ f.prec) {x y : ℚ} (hy : f.Rep y) (h : x ≤ y) : f.rnd x ≤ y := by
  have := rnd_mono hp h
  rwa [show f.rnd y = y from hy] at this

theorem le_rnd_of_rep (hp : 1 ≤ f.prec) {x y : ℚ} (hx : f.Rep x) (h : x ≤ y) : x ≤ f.rnd y := by
  have := rnd_mono hp h
  rwa [show f.rnd x = x from hx] at this

/-! ### Around one -/

theorem log_half {x : ℚ} (h1 : 1 / 2 ≤ x) (h2 : x < 1) : Int.log 2 |x| = -1 := by
  have h0 : 0 < x := by linarith
  rw [abs_of_pos h0]
  have a : Int.log 2 x < 0 := by
    rw [← Int.lt_zpow_iff_log_lt (by norm_num) h0]; simpa using h2
  have b : -1 ≤ Int.log 2 x := by
    rw [← Int.zpow_le_iff_le_log (by norm_num) h0]; norm_num at h1 ⊢; exact h1
  omega

theorem log_one {x : ℚ} (h1 : 1 ≤ x) (h2 : x < 2) : Int.log 2 |x| = 0 := by
  have h0 : 0 < x := by linarith
  rw [abs_of_pos h0]
  have a : Int.log 2 x < 1 := by
    rw [← Int.lt_zpow_iff_log_lt (by norm_num) h0]; simpa using h2
  have b : 0 ≤ Int.log 2 x := by
    rw [← Int.zpow_le_iff_le_log (by norm_num) h0]; simpa using h1
  omega

theorem ulpExp_half (hf : f.Valid) {x : ℚ} (h1 : 1 / 2 ≤ x) (h2 : x < 1) :
    f.ulpExp x = -(f.prec : ℤ) := by
  have := hf.2
  unfold ulpExp; rw [log_half h1 h2]; omega

theorem ulpExp_one (hf : f.Valid) {x : ℚ} (h1 : 1 ≤ x) (h2 : x < 2) :
    f.ulpExp x = 1 - (f.prec : ℤ) := by
  have := hf.2
  unfold ulpExp; rw [log_one h1 h2]; omega

/-- Numbers within half the spacing below one, or half of it above, round to one. -/
theorem rnd_near_one (hf : f.Valid) {s : ℚ}
    (h : |s - 1| ≤ (2 : ℚ) ^ (-(f.prec : ℤ)) / 2) : f.rnd s = 1 := by
  set q : ℚ := (2 : ℚ) ^ (-(f.prec : ℤ)) with hq
  have hq0 : 0 < q := zpow_pos (by norm_num) _
  have hqh : q ≤ 1 / 2 := by
    have : (2 : ℚ) ^ (-(f.prec : ℤ)) ≤ (2 : ℚ) ^ (-1 : ℤ) :=
      zpow_le_zpow_right₀ (by norm_num) (by have := hf.1; omega)
    rw [hq]; norm_num at this ⊢; exact this
  have hab := abs_le.1 h
  rcases lt_or_ge s 1 with hs | hs
  · have hu : f.ulp s = q := by
      unfold ulp; rw [ulpExp_half hf (by linarith) hs]
    have hinv : ((2 ^ f.prec : ℤ) : ℚ) * q = 1 := by
      rw [hq, zpow_neg, zpow_natCast]; push_cast
      exact mul_inv_cancel₀ (by positivity)
    have : rne (s / q) = 2 ^ f.prec := by
      refine rne_eq_of_le_even ?_ ?_
      · exact (even_two).pow_of_ne_zero (by have := hf.1; omega)
      · have e : s / q - ((2 ^ f.prec : ℤ) : ℚ) = (s - 1) / q := by
          rw [eq_div_iff hq0.ne', sub_mul, hinv, div_mul_cancel₀ _ hq0.ne']
        rw [e, abs_div, abs_of_pos hq0, div_le_iff₀ hq0]
        linarith
    unfold rnd
    rw [hu, this]
    exact hinv
  · have hu : f.ulp s = 2 * q := by
      unfold ulp; rw [ulpExp_one hf hs (by linarith), sub_eq_add_neg, zpow_add₀ (by norm_num)]
      norm_num [hq]
    have hinv : ((2 ^ (f.prec - 1) : ℤ) : ℚ) * (2 * q) = 1 := by
      have : ((2 ^ (f.prec - 1) : ℤ) : ℚ) * 2 = ((2 ^ f.prec : ℤ) : ℚ) := by
        push_cast
        rw [← pow_succ, Nat.sub_add_cancel hf.1]
      rw [← mul_assoc, this, hq, zpow_neg, zpow_natCast]; push_cast
      exact mul_inv_cancel₀ (by positivity)
    have : rne (s / (2 * q)) = 2 ^ (f.prec - 1) := by
      refine rne_eq_of_lt ?_
      have e : s / (2 * q) - ((2 ^ (f.prec - 1) : ℤ) : ℚ) = (s - 1) / (2 * q) := by
        rw [eq_div_iff (by positivity), sub_mul, hinv, div_mul_cancel₀ _ (by positivity)]
      rw [e, abs_div, abs_of_pos (by positivity : (0 : ℚ) < 2 * q), div_lt_iff₀ (by positivity)]
      linarith
    unfold rnd
    rw [hu, this]
    exact hinv

/-- The remainder `1 - p`, computed with rounding and added to `p` with rounding, gives exactly one,
for every number `p` of the format in `[0, 1]`. -/
theorem rnd_add_remainder (hf : f.Valid) {p : ℚ} (hr : f.Rep p) (h0 : 0 ≤ p) (h1 : p ≤ 1) :
    f.rnd (p + f.rnd (1 - p)) = 1 := by
  have hp := hf.1
  rcases h1.lt_or_eq with h1 | rfl
  swap
  · rw [sub_self, rnd_zero, add_zero, rnd_one hf]
  rcases lt_or_ge p (1 / 2) with hh | hh
  · rcases h0.lt_or_eq with h0 | rfl
    swap
    · rw [sub_zero, rnd_one hf, zero_add, rnd_one hf]
    · refine rnd_near_one hf ?_
      have := abs_rnd_sub_le (f := f) (1 - p)
      unfold ulp at this
      rw [ulpExp_half hf (by linarith) (by linarith)] at this
      calc |p + f.rnd (1 - p) - 1| = |f.rnd (1 - p) - (1 - p)| := by congr 1; ring
        _ ≤ _ := this
  · have hx : f.rnd (1 - p) = 1 - p := by
      have hu := ulpExp_half hf hh h1
      have hk : p = rne (p / f.ulp p) * f.ulp p := hr.symm
      unfold ulp at hk
      rw [hu] at hk
      have hinv : ((2 ^ f.prec : ℤ) : ℚ) * (2 : ℚ) ^ (-(f.prec : ℤ)) = 1 := by
        rw [zpow_neg, zpow_natCast]; push_cast
        exact mul_inv_cancel₀ (by positivity)
      refine rnd_exact hp (g := -(f.prec : ℤ))
        (k := 2 ^ f.prec - rne (p / (2 : ℚ) ^ (-(f.prec : ℤ)))) hf.2 ?_ ?_
      · rw [Int.cast_sub, sub_mul, hinv, ← hk]
      · rw [neg_add_cancel, zpow_zero, abs_le]
        constructor <;> linarith
    rw [hx, add_sub_cancel, rnd_one hf]

/-- Exactly the numbers up to half the spacing below one round up to one. -/
theorem rnd_eq_one_iff (hf : f.Valid) {x : ℚ} (h1 : x ≤ 1) :
    f.rnd x = 1 ↔ 1 - (2 : ℚ) ^ (-(f.prec : ℤ)) / 2 ≤ x := by
  have hq0 : (0 : ℚ) < (2 : ℚ) ^ (-(f.prec : ℤ)) := zpow_pos (by norm_num) _
  have hqh : (2 : ℚ) ^ (-(f.prec : ℤ)) ≤ 1 / 2 := by
    have : (2 : ℚ) ^ (-(f.prec : ℤ)) ≤ (2 : ℚ) ^ (-1 : ℤ) :=
      zpow_le_zpow_right₀ (by norm_num) (by have := hf.1; omega)
    norm_num at this ⊢; exact this
  constructor
  · intro h
    by_contra hlt
    rw [not_le] at hlt
    rcases le_or_gt (1 / 2) x with hh | hh
    · have hx1 : x < 1 := by linarith
      have := abs_rnd_sub_le (f := f) x
      unfold ulp at this
      rw [ulpExp_half hf hh hx1, h, abs_of_nonneg (by linarith)] at this
      linarith
    · have hr : f.Rep (1 / 2) := by
        refine rnd_exact hf.1 (g := -1) (k := 1) (by have := hf.1; have := hf.2; omega)
          (by norm_num) ?_
        rw [abs_of_pos (by norm_num)]
        have : (2 : ℚ) ^ (0 : ℤ) ≤ (2 : ℚ) ^ (-1 + (f.prec : ℤ)) :=
          zpow_le_zpow_right₀ (by norm_num) (by have := hf.1; omega)
        rw [zpow_zero] at this
        linarith
      have := rnd_le_of_rep hf.1 hr hh.le
      rw [h] at this
      norm_num at this
  · intro h
    exact rnd_near_one hf (by rw [abs_le]; constructor <;> linarith)

end JaxAct.Fmt
