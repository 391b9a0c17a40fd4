import Verif.Basic.Flush
import Verif.Lemmas.Rounded

/-! # The scalar step in arithmetic that flushes to zero -/

namespace JaxAct

namespace Fmt
variable {f : Fmt}

theorem minNormal_pos (f : Fmt) : 0 < f.minNormal := zpow_pos (by norm_num) _

theorem flush_of {x : ℚ} (h : f.NotTiny x) : f.flush x = x := by
  unfold flush
  rcases h with rfl | h
  · simp
  · rw [if_neg (not_lt.2 h)]

theorem notTiny_zero (f : Fmt) : f.NotTiny 0 := .inl rfl

theorem notTiny_flush (f : Fmt) (x : ℚ) : f.NotTiny (f.flush x) := by
  unfold flush
  split
  · exact .inl rfl
  · exact .inr (not_lt.1 ‹_›)

theorem rep_flush {x : ℚ} (h : f.Rep x) : f.Rep (f.flush x) := by
  unfold flush
  split
  · exact rnd_zero _
  · exact h

theorem flush_nonneg {x : ℚ} (h : 0 ≤ x) : 0 ≤ f.flush x := by
  unfold flush
  split
  · exact le_rfl
  · exact h

theorem flush_le {x : ℚ} (h : 0 ≤ x) : f.flush x ≤ x := by
  unfold flush
  split
  · exact h
  · exact le_rfl

theorem minNormal_le_half (hf : f.Valid) : f.minNormal ≤ 1 / 2 := by
  have : f.minNormal ≤ (2 : ℚ) ^ (-1 : ℤ) :=
    zpow_le_zpow_right₀ (by norm_num) (by have := hf.2; omega)
  norm_num at this ⊢; exact this

theorem rep_half (hf : f.Valid) : f.Rep (1 / 2) := by
  refine rnd_exact hf.1 (g := -1) (k := 1) (by have := hf.1; have := hf.2; omega) (by norm_num) ?_
  rw [abs_of_pos (by norm_num)]
  have : (2 : ℚ) ^ (0 : ℤ) ≤ (2 : ℚ) ^ (-1 + (f.prec : ℤ)) :=
    zpow_le_zpow_right₀ (by norm_num) (by have := hf.1; omega)
  rw [zpow_zero] at this
  linarith

theorem half_le_rnd (hf : f.Valid) {x : ℚ} (h : 1 / 2 ≤ x) : 1 / 2 ≤ f.rnd x :=
  le_rnd_of_rep hf.1 (rep_half hf) h

theorem notTiny_of_half (hf : f.Valid) {x : ℚ} (h : 1 / 2 ≤ x) : f.NotTiny x :=
  .inr ((minNormal_le_half hf).trans (h.trans (le_abs_self x)))

/-- What is left to one is zero or normal. -/
theorem notTiny_remainder (hf : f.Wide) {p : ℚ} (hr : f.Rep p) (h1 : p ≤ 1) :
    f.NotTiny (f.rnd (1 - p)) := by
  rcases h1.lt_or_eq with h1 | rfl
  swap
  · left; rw [sub_self, rnd_zero]
  right
  have hv := hf.1
  have hmin : f.minNormal ≤ (2 : ℚ) ^ (-(f.prec : ℤ)) := zpow_le_zpow_right₀ (by norm_num) hf.2
  have hrep : f.Rep ((2 : ℚ) ^ (-(f.prec : ℤ))) := by
    refine rnd_exact hv.1 (g := -(f.prec : ℤ)) (k := 1) hv.2 (by norm_num) ?_
    rw [neg_add_cancel, zpow_zero, abs_of_pos (zpow_pos (by norm_num) _)]
    exact zpow_le_one_of_nonpos₀ (by norm_num) (by omega)
  have hle : (2 : ℚ) ^ (-(f.prec : ℤ)) ≤ 1 - p := by
    rcases lt_or_ge p (1 / 2) with hh | hh
    · have : (2 : ℚ) ^ (-(f.prec : ℤ)) ≤ (2 : ℚ) ^ (-1 : ℤ) :=
        zpow_le_zpow_right₀ (by norm_num) (by have := hv.1; omega)
      norm_num at this ⊢
      linarith
    · have hk : p = rne (p / f.ulp p) * f.ulp p := hr.symm
      unfold ulp at hk
      rw [ulpExp_half hv hh h1] at hk
      set k := rne (p / (2 : ℚ) ^ (-(f.prec : ℤ))) with hkdef
      set q := (2 : ℚ) ^ (-(f.prec : ℤ)) with hq
      have hq0 : 0 < q := zpow_pos (by norm_num) _
      have hinv : ((2 ^ f.prec : ℤ) : ℚ) * q = 1 := by
        rw [hq, zpow_neg, zpow_natCast]; push_cast
        exact mul_inv_cancel₀ (by positivity)
      have hlt : k < 2 ^ f.prec := by
        by_contra hge
        rw [not_lt] at hge
        have : ((2 ^ f.prec : ℤ) : ℚ) * q ≤ (k : ℚ) * q :=
          mul_le_mul_of_nonneg_right (by exact_mod_cast hge) hq0.le
        linarith
      have h2 : ((k + 1 : ℤ) : ℚ) * q ≤ ((2 ^ f.prec : ℤ) : ℚ) * q :=
        mul_le_mul_of_nonneg_right (by exact_mod_cast hlt) hq0.le
      push_cast at h2 hinv
      rw [hinv] at h2
      linarith
  have := le_rnd_of_rep hv.1 hrep hle
  exact hmin.trans (this.trans (le_abs_self _))

/-- The sum of two nonnegative numbers, each zero or normal, is zero or normal. -/
theorem notTiny_sum (hp : 1 ≤ f.prec) {x y : ℚ} (hx : f.Rep x) (hy : f.Rep y) (tx : f.NotTiny x)
    (ty : f.NotTiny y) (x0 : 0 ≤ x) (y0 : 0 ≤ y) : f.NotTiny (f.rnd (x + y)) := by
  rcases tx with rfl | tx
  · rw [zero_add, show f.rnd y = y from hy]; exact ty
  · right
    have : x ≤ f.rnd (x + y) := le_rnd_of_rep hp hx (by linarith)
    rw [abs_of_nonneg x0] at tx
    exact tx.trans (this.trans (le_abs_self _))

end Fmt

namespace Spec
open Fmt Arith
variable {F : DType → Fmt}

theorem flushTo_float {d : DType} (hd : d.isFloating = true) (x : ℚ) :
    flushTo F d x = (F d).flush ((F d).rnd x) := by
  unfold flushTo; rw [if_pos hd]

theorem flushTo_int {d : DType} (hd : d.isFloating = false) (x : ℚ) : flushTo F d x = x := by
  unfold flushTo; rw [if_neg (by rw [hd]; simp)]

/-- What is kept about a batch element: a cumulative probability in `[0, 1]` and a residual, both zero or
normal numbers of the format. -/
structure CalmCell (f : Fmt) (c : Cell ℚ) : Prop where
  rep : f.Rep c.prob
  calm : f.NotTiny c.prob
  nonneg : 0 ≤ c.prob
  le_one : c.prob ≤ 1
  rrep : f.Rep c.resid
  rcalm : f.NotTiny c.resid

section Flushing
variable {A : Arith ℚ}

theorem threshold_flushing (hA : A = flushing F) {d : DType} (hd : d.isFloating = true) (hF : (F d).Valid)
    (h64 : (F .f64).Valid) {eps : ℚ} (h : eps ≤ 1 / 2) :
    @threshold ℚ A d eps = (F d).rnd ((F .f64).rnd (1 - eps)) := by
  subst hA
  show flushTo F d (flushTo F .f64 (1 - eps)) = _
  have h1 : (1 : ℚ) / 2 ≤ (F .f64).rnd (1 - eps) := half_le_rnd h64 (by linarith)
  rw [flushTo_float (d := .f64) rfl, flush_of (notTiny_of_half h64 h1), flushTo_float hd,
    flush_of (notTiny_of_half hF (half_le_rnd hF h1))]

theorem demand_flushing (hA : A = flushing F) {d : DType} (hd : d.isFloating = true) (dep h : ℚ) :
    @demand ℚ A d dep h =
      (F d).flush ((F d).rnd ((F d).flush ((F d).rnd dep) * (1 ⊓ (0 ⊔ h)))) := by
  subst hA
  show flushTo F d (flushTo F d dep * _) = _
  rw [flushTo_float hd, flushTo_float hd]
  rfl

theorem demand_flushing_facts (hA : A = flushing F) {d : DType} (hd : d.isFloating = true)
    (hp : 1 ≤ (F d).prec) {dep : ℚ} (hdep : 0 ≤ dep) (h : ℚ) :
    (F d).Rep (@demand ℚ A d dep h) ∧ (F d).NotTiny (@demand ℚ A d dep h) ∧ 0 ≤ @demand ℚ A d dep h := by
  rw [demand_flushing hA hd]
  exact ⟨rep_flush (rnd_rep hp _), notTiny_flush _ _, flush_nonneg (rnd_nonneg
    (mul_nonneg (flush_nonneg (rnd_nonneg hdep)) (le_inf zero_le_one le_sup_left)))⟩

/-- If the demand is zero or normal without flushing, flushing does not change it. -/
theorem demand_flushing_eq (hA : A = flushing F) {d : DType} (hd : d.isFloating = true)
    (hp : 1 ≤ (F d).prec) {dep h : ℚ} (hdep : 0 ≤ dep)
    (hn : (F d).NotTiny ((F d).rnd ((F d).rnd dep * (1 ⊓ (0 ⊔ h))))) :
    @demand ℚ A d dep h = (F d).rnd ((F d).rnd dep * (1 ⊓ (0 ⊔ h))) := by
  rw [demand_flushing hA hd]
  by_cases ht : (F d).NotTiny ((F d).rnd dep)
  · rw [flush_of ht, flush_of hn]
  · have h0 : 0 ≤ (F d).rnd dep := rnd_nonneg hdep
    have hlt : (F d).rnd dep < (F d).minNormal := by
      by_contra hge
      exact ht (.inr ((not_lt.1 hge).trans (le_abs_self _)))
    have hle : (F d).rnd ((F d).rnd dep * (1 ⊓ (0 ⊔ h))) ≤ (F d).rnd dep :=
      rnd_le_of_rep hp (rnd_rep hp _) (mul_le_of_le_one_right h0 inf_le_left)
    have h00 : 0 ≤ (F d).rnd ((F d).rnd dep * (1 ⊓ (0 ⊔ h))) :=
      rnd_nonneg (mul_nonneg h0 (le_inf zero_le_one le_sup_left))
    have e : (F d).flush ((F d).rnd dep) = 0 := by
      unfold flush; rw [if_pos (by rw [abs_of_nonneg h0]; exact hlt)]
    rw [e, zero_mul, rnd_zero, flush_of (notTiny_zero _)]
    rcases hn with hn | hn
    · exact hn.symm
    · rw [abs_of_nonneg h00] at hn
      linarith

theorem crosses_flushing (hA : A = flushing F) {d : DType} (hd : d.isFloating = true) (hF : (F d).Valid)
    {eps dep p : ℚ} (hdep : 0 ≤ dep) (hr : (F d).Rep p) (ht : (F d).NotTiny p) (h0 : 0 ≤ p) (h : ℚ) :
    @crosses ℚ A d eps dep p h = true ↔
      @threshold ℚ A d eps < (F d).rnd (p + @demand ℚ A d dep h) := by
  obtain ⟨d1, d2, d3⟩ := demand_flushing_facts hA hd hF.1 hdep h
  subst hA
  have e : flushTo F d (@demand ℚ (flushing F) d dep h + p) =
      (F d).rnd (p + @demand ℚ (flushing F) d dep h) := by
    rw [flushTo_float hd, add_comm, flush_of (notTiny_sum hF.1 hr d1 ht d2 h0 d3)]
  rw [← e]
  exact decide_eq_true_iff

theorem step_flushing (hA : A = flushing F) {d : DType} (hd : d.isFloating = true) (hF : (F d).Wide)
    (dI : DType) {eps dep : ℚ} (hdep : 0 ≤ dep) {c : Cell ℚ} (hc : CalmCell (F d) c) (h : ℚ) :
    (@step ℚ A d dI eps dep c h).prob =
      (if @crosses ℚ A d eps dep c.prob h then 1 else (F d).rnd (c.prob + @demand ℚ A d dep h)) ∧
    (@step ℚ A d dI eps dep c h).resid =
      (if @crosses ℚ A d eps dep c.prob h && !@isHalted ℚ A d eps c.prob then (F d).rnd (1 - c.prob)
       else c.resid) := by
  obtain ⟨d1, d2, d3⟩ := demand_flushing_facts hA hd hF.1.1 hdep h
  have hrem := notTiny_remainder hF hc.rep hc.le_one
  have ha : ∀ x y : ℚ, A.add d x y = (F d).flush ((F d).rnd (x + y)) := fun x y => by
    subst hA; exact flushTo_float hd _
  have hs : A.sub d A.one c.prob = (F d).rnd (1 - c.prob) := by
    subst hA
    show flushTo F d (1 - c.prob) = _
    rw [flushTo_float hd, flush_of hrem]
  unfold step weight
  simp only [ha, hs]
  refine ⟨?_, trivial⟩
  split
  · rw [rnd_add_remainder hF.1 hc.rep hc.nonneg hc.le_one]
    exact flush_of (notTiny_of_half hF.1 (by norm_num))
  · exact flush_of (notTiny_sum hF.1.1 hc.rep d1 hc.calm d2 hc.nonneg d3)

/-- One iteration keeps the invariant, and takes an element to one or not above the threshold. -/
theorem step_flushing_calm (hA : A = flushing F) {d : DType} (hd : d.isFloating = true) (hF : (F d).Wide)
    (h64 : (F .f64).Valid) (dI : DType) {eps dep : ℚ} (he : 0 ≤ eps) (he2 : eps ≤ 1 / 2) (hdep : 0 ≤ dep)
    {c : Cell ℚ} (hc : CalmCell (F d) c) (h : ℚ) :
    CalmCell (F d) (@step ℚ A d dI eps dep c h) ∧ c.prob ≤ (@step ℚ A d dI eps dep c h).prob ∧
    ((@step ℚ A d dI eps dep c h).prob = 1 ∨
      (@step ℚ A d dI eps dep c h).prob ≤ @threshold ℚ A d eps) := by
  obtain ⟨d1, d2, d3⟩ := demand_flushing_facts hA hd hF.1.1 hdep h
  obtain ⟨e1, e2⟩ := step_flushing hA hd hF dI (eps := eps) hdep hc h
  have hr : (F d).Rep (@step ℚ A d dI eps dep c h).resid ∧
      (F d).NotTiny (@step ℚ A d dI eps dep c h).resid := by
    rw [e2]
    split
    · exact ⟨rnd_rep hF.1.1 _, notTiny_remainder hF hc.rep hc.le_one⟩
    · exact ⟨hc.rrep, hc.rcalm⟩
  cases hcr : @crosses ℚ A d eps dep c.prob h with
  | true =>
    rw [hcr, if_pos rfl] at e1
    exact ⟨⟨by rw [e1]; exact rnd_one hF.1, by rw [e1]; exact notTiny_of_half hF.1 (by norm_num),
      by rw [e1]; norm_num, by rw [e1], hr.1, hr.2⟩, by rw [e1]; exact hc.le_one, .inl e1⟩
  | false =>
    rw [hcr, if_neg (by simp)] at e1
    have hle : (F d).rnd (c.prob + @demand ℚ A d dep h) ≤ @threshold ℚ A d eps := by
      by_contra hlt
      rw [not_le, ← crosses_flushing hA hd hF.1 hdep hc.rep hc.calm hc.nonneg, hcr] at hlt
      cases hlt
    have hT : @threshold ℚ A d eps ≤ 1 := by
      rw [threshold_flushing hA hd hF.1 h64 he2]
      exact rnd_le_of_rep hF.1.1 (rnd_one hF.1) (rnd_le_of_rep h64.1 (rnd_one h64) (by linarith))
    rw [← e1] at hle
    refine ⟨⟨by rw [e1]; exact rnd_rep hF.1.1 _,
      by rw [e1]; exact notTiny_sum hF.1.1 hc.rep d1 hc.calm d2 hc.nonneg d3,
      by rw [e1]; exact rnd_nonneg (add_nonneg hc.nonneg d3), hle.trans hT, hr.1, hr.2⟩, ?_, .inr hle⟩
    rw [e1]
    exact le_rnd_of_rep hF.1.1 hc.rep (by linarith)

theorem keepIf_flushing (hA : A = flushing F) {d : DType} (hd : d.isFloating = true) (hF : (F d).Valid)
    {x : ℚ} (hr : (F d).Rep x) (ht : (F d).NotTiny x) (b : Bool) :
    @keepIf ℚ A d b x = if b then x else 0 := by
  have hne : DType.bool ≠ d := by rintro rfl; cases hd
  subst hA
  unfold keepIf convS
  rw [if_neg hne]
  show flushTo F d (x * flushTo F d (if b then 1 else 0)) = _
  cases b
  · simp [flushTo_float hd, rnd_zero, flush_of (notTiny_zero _)]
  · simp only [if_true, flushTo_float hd, rnd_one hF,
      flush_of (notTiny_of_half hF (show (1 : ℚ) / 2 ≤ 1 by norm_num)), mul_one]
    rw [show (F d).rnd x = x from hr, flush_of ht]

theorem resetCell_flushing (hA : A = flushing F) {d : DType} (hd : d.isFloating = true) (hF : (F d).Valid)
    (dI : DType) {eps : ℚ} {c : Cell ℚ} (hc : CalmCell (F d) c) :
    (@resetCell ℚ A d dI eps c).prob = (if @isHalted ℚ A d eps c.prob then 0 else c.prob) ∧
    (@resetCell ℚ A d dI eps c).resid = (if @isHalted ℚ A d eps c.prob then 0 else c.resid) ∧
    CalmCell (F d) (@resetCell ℚ A d dI eps c) := by
  have e1 : (@resetCell ℚ A d dI eps c).prob = _ := keepIf_flushing hA hd hF hc.rep hc.calm _
  have e2 : (@resetCell ℚ A d dI eps c).resid = _ := keepIf_flushing hA hd hF hc.rrep hc.rcalm _
  cases hh : @isHalted ℚ A d eps c.prob with
  | true =>
    rw [hh] at e1 e2
    simp only [Bool.not_true, Bool.false_eq_true, if_false] at e1 e2
    refine ⟨by simpa using e1, by simpa using e2, ?_⟩
    exact ⟨by rw [e1]; exact rnd_zero _, by rw [e1]; exact notTiny_zero _, by rw [e1], by rw [e1]; norm_num,
      by rw [e2]; exact rnd_zero _, by rw [e2]; exact notTiny_zero _⟩
  | false =>
    rw [hh] at e1 e2
    simp only [Bool.not_false, if_true] at e1 e2
    refine ⟨by simpa using e1, by simpa using e2, ?_⟩
    exact ⟨by rw [e1]; exact hc.rep, by rw [e1]; exact hc.calm, by rw [e1]; exact hc.nonneg,
      by rw [e1]; exact hc.le_one, by rw [e2]; exact hc.rrep, by rw [e2]; exact hc.rcalm⟩

end Flushing
end Spec
end JaxAct
