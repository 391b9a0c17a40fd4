import Verif.Props.C19
import Verif.Lemmas.Rounds
import Verif.Spec.Rounded
import Mathlib.Algebra.BigOperators.Ring.Finset
import Mathlib.Algebra.Order.BigOperators.Group.Finset

/-!
# C63 Accumulators are close to a weighted mean under rounding

C04 and C49 in floating point arithmetic: the result differs from the exact weighted sum by rounding
errors that are bounded by the number of iterations and the precision.
-/

namespace JaxAct
open Fmt ACTStates

section Rounding
variable {f : Fmt}

/-- Rounding a number below two in absolute value moves it by at most `2^-prec`. -/
theorem rnd_error_two (hf : f.Valid) {x : ℚ} (hx : |x| < 2) :
    |f.rnd x - x| ≤ (2 : ℚ) ^ (-(f.prec : ℤ)) := by
  rcases eq_or_ne x 0 with rfl | h0
  · rw [rnd_zero, sub_zero, abs_zero]; exact (zpow_pos (by norm_num) _).le
  have hu : f.ulp x ≤ (2 : ℚ) ^ (1 - (f.prec : ℤ)) := by
    refine zpow_le_zpow_right₀ (by norm_num) ?_
    have h2 := hf.2
    have : Int.log 2 |x| < 1 := by
      rw [← Int.lt_zpow_iff_log_lt (by norm_num) (abs_pos.2 h0)]; simpa using hx
    unfold ulpExp
    omega
  have e : (2 : ℚ) ^ (1 - (f.prec : ℤ)) = 2 * (2 : ℚ) ^ (-(f.prec : ℤ)) := by
    rw [sub_eq_add_neg, zpow_add₀ (by norm_num), zpow_one]
  have := abs_rnd_sub_le (f := f) x
  linarith

/-- The relative error is `2^-prec`, the absolute error half the smallest number. -/
theorem rnd_error (f : Fmt) (x : ℚ) :
    |f.rnd x - x| ≤ (2 : ℚ) ^ (-(f.prec : ℤ)) * |x| + (2 : ℚ) ^ f.emin / 2 := by
  have hq : (0 : ℚ) < (2 : ℚ) ^ (-(f.prec : ℤ)) := zpow_pos (by norm_num) _
  have he : (0 : ℚ) < (2 : ℚ) ^ f.emin := zpow_pos (by norm_num) _
  rcases eq_or_ne x 0 with rfl | h0
  · rw [rnd_zero, sub_zero, abs_zero]; linarith
  refine le_trans (abs_rnd_sub_le (f := f) x) ?_
  have hl : (2 : ℚ) ^ Int.log 2 |x| ≤ |x| := by
    have := Int.zpow_log_le_self (R := ℚ) (b := 2) (by norm_num) (abs_pos.2 h0)
    exact_mod_cast this
  unfold ulp ulpExp
  rcases le_total (Int.log 2 |x| - ((f.prec : ℤ) - 1)) f.emin with h | h
  · rw [max_eq_right h]
    have := mul_nonneg hq.le (abs_nonneg x)
    linarith
  · rw [max_eq_left h]
    have e : (2 : ℚ) ^ (Int.log 2 |x| - ((f.prec : ℤ) - 1)) =
        2 * ((2 : ℚ) ^ (-(f.prec : ℤ)) * (2 : ℚ) ^ Int.log 2 |x|) := by
      rw [← zpow_add₀ (by norm_num), ← zpow_one_add₀ (by norm_num)]
      congr 1; ring
    rw [e]
    have := mul_le_mul_of_nonneg_left hl hq.le
    linarith

theorem rnd_two (hf : f.Valid) : f.rnd 2 = 2 := by
  have h := hf.2
  have h1 := hf.1
  refine rnd_exact hf.1 (g := 1) (k := 1) (by omega) (by simp) ?_
  rw [zpow_add₀ (by norm_num), zpow_natCast]
  have : (1 : ℚ) ≤ 2 ^ f.prec := one_le_pow₀ (by norm_num)
  simp only [abs_of_pos (show (0 : ℚ) < 2 by norm_num), zpow_one]
  linarith

/-- The numbers of one format are numbers of another, which has more bits and smaller numbers. -/
def Fmt.Sub (f g : Fmt) : Prop := f.prec ≤ g.prec ∧ g.emin ≤ f.emin

instance (f g : Fmt) : Decidable (f.Sub g) := inferInstanceAs (Decidable (_ ∧ _))

theorem Fmt.Sub.rep {g : Fmt} (h : f.Sub g) (hp : 1 ≤ f.prec) {x : ℚ} (hx : f.Rep x) :
    g.Rep x := by
  obtain ⟨h1, h2⟩ := h
  refine rnd_exact (by omega) (g := f.ulpExp x) (k := rne (x / f.ulp x)) ?_ ?_ ?_
  · exact le_trans h2 (le_max_right _ _)
  · exact (show f.rnd x = x from hx).symm
  · have := abs_rnd_le (f := f) x
    rw [show f.rnd x = x from hx] at this
    refine le_trans this (zpow_le_zpow_right₀ (by norm_num) ?_)
    omega

/-- The error of a rounding to `g`, as an error of a coarser format. -/
theorem Fmt.Sub.error {g : Fmt} (h : f.Sub g) (x : ℚ) :
    |g.rnd x - x| ≤ (2 : ℚ) ^ (-(f.prec : ℤ)) * |x| + (2 : ℚ) ^ f.emin / 2 := by
  obtain ⟨h1, h2⟩ := h
  refine le_trans (rnd_error g x) (add_le_add (mul_le_mul_of_nonneg_right ?_ (abs_nonneg _)) ?_)
  · exact zpow_le_zpow_right₀ (by norm_num) (by omega)
  · have : (2 : ℚ) ^ g.emin ≤ (2 : ℚ) ^ f.emin := zpow_le_zpow_right₀ (by norm_num) h2
    linarith

/-- One addition to an accumulator, as errors: `q` is the relative and `2 * η` twice the absolute
error of an operation. The product is rounded to `m` and the sum to `g`. -/
theorem commit_error {m g : Fmt} (hm : f.Sub m) (hg : f.Sub g) {a x S q η B : ℚ} {e : ℚ}
    (hq : q = (2 : ℚ) ^ (-(f.prec : ℤ)))
    (hη : η = (2 : ℚ) ^ f.emin / 2) (he : |a - S| ≤ e) (hx : |x| ≤ B) (hS : |S + x| ≤ B) :
    |g.rnd (a + m.rnd x) - (S + x)| ≤ (1 + q) * e + (1 + q) * (2 * q * B + 2 * η) := by
  have hq0 : 0 < q := hq ▸ zpow_pos (by norm_num) _
  have hη0 : 0 < η := by rw [hη]; exact div_pos (zpow_pos (by norm_num) _) (by norm_num)
  have h1 := hm.error x
  have h2 := hg.error (a + m.rnd x)
  rw [← hq, ← hη] at h1 h2
  have h3 : q * |x| ≤ q * B := mul_le_mul_of_nonneg_left hx hq0.le
  have h4 : |a + m.rnd x| ≤ B + e + (q * B + η) := by
    calc |a + m.rnd x| = |(S + x) + (a - S) + (m.rnd x - x)| := by congr 1; ring
      _ ≤ |S + x| + |a - S| + |m.rnd x - x| := abs_add_three _ _ _
      _ ≤ _ := by linarith
  have h5 : q * |a + m.rnd x| ≤ q * (B + e + (q * B + η)) := mul_le_mul_of_nonneg_left h4 hq0.le
  calc |g.rnd (a + m.rnd x) - (S + x)|
      = |(g.rnd (a + m.rnd x) - (a + m.rnd x)) + (a - S) + (m.rnd x - x)| := by congr 1; ring
    _ ≤ |g.rnd (a + m.rnd x) - (a + m.rnd x)| + |a - S| + |m.rnd x - x| := abs_add_three _ _ _
    _ ≤ (q * (B + e + (q * B + η)) + η) + e + (q * B + η) := by linarith
    _ ≤ _ := by
      have hB : 0 ≤ B := le_trans (abs_nonneg _) hx
      have := mul_nonneg (mul_nonneg hq0.le hq0.le) hB
      have := mul_pos hq0 hη0
      nlinarith

end Rounding

/-- The bound: `n` the number of iterations, `M` a bound of the updates. -/
def accBound (f : Fmt) (n : Nat) (M : ℚ) : ℚ :=
  n * (1 + (2 : ℚ) ^ (-(f.prec : ℤ))) ^ n *
    (2 * (2 : ℚ) ^ (-(f.prec : ℤ)) * (M * (1 + n * (2 : ℚ) ^ (-(f.prec : ℤ)))) + (2 : ℚ) ^ f.emin)

section Bound
variable {f : Fmt}

theorem accBound_step (n : Nat) {M : ℚ} (hM : 0 ≤ M) {q η : ℚ} (hq : q = (2 : ℚ) ^ (-(f.prec : ℤ)))
    (hη : η = (2 : ℚ) ^ f.emin / 2) :
    (1 + q) * accBound f n M + (1 + q) * (2 * q * (M * (1 + (n + 1 : ℕ) * q)) + 2 * η) ≤
      accBound f (n + 1) M := by
  have hq0 : 0 < q := hq ▸ zpow_pos (by norm_num) _
  have hη0 : 0 < η := by rw [hη]; exact div_pos (zpow_pos (by norm_num) _) (by norm_num)
  have e2 : (2 : ℚ) ^ f.emin = 2 * η := by rw [hη]; ring
  unfold accBound
  rw [← hq, e2]
  set C : ℚ := 2 * q * (M * (1 + (n + 1 : ℕ) * q)) + 2 * η with hC
  have hC0 : 0 ≤ C := by positivity
  have hle : 2 * q * (M * (1 + n * q)) + 2 * η ≤ C := by
    rw [hC]
    have : M * (1 + n * q) ≤ M * (1 + (n + 1 : ℕ) * q) := by
      refine mul_le_mul_of_nonneg_left ?_ hM
      push_cast
      nlinarith
    have := mul_le_mul_of_nonneg_left this (by positivity : 0 ≤ 2 * q)
    linarith
  have hp : (0 : ℚ) ≤ (1 + q) * (n * (1 + q) ^ n) := by positivity
  have h1 := mul_le_mul_of_nonneg_left hle hp
  have h2 : (1 + q) ≤ (1 + q) ^ (n + 1) := le_self_pow₀ (by linarith) (by omega)
  have h3 := mul_le_mul_of_nonneg_right h2 hC0
  calc (1 + q) * (n * (1 + q) ^ n * (2 * q * (M * (1 + n * q)) + 2 * η)) + (1 + q) * C
      = (1 + q) * (n * (1 + q) ^ n) * (2 * q * (M * (1 + n * q)) + 2 * η) + (1 + q) * C := by ring
    _ ≤ (1 + q) * (n * (1 + q) ^ n) * C + (1 + q) ^ (n + 1) * C := add_le_add h1 h3
    _ = (n + 1 : ℕ) * (1 + q) ^ (n + 1) * C := by push_cast; ring

theorem accBound_mono (n : Nat) {M : ℚ} (hM : 0 ≤ M) : accBound f n M ≤ accBound f (n + 1) M := by
  have h := accBound_step (f := f) n hM rfl rfl
  have hq0 : (0 : ℚ) < (2 : ℚ) ^ (-(f.prec : ℤ)) := zpow_pos (by norm_num) _
  have he : (0 : ℚ) < (2 : ℚ) ^ f.emin := zpow_pos (by norm_num) _
  have h0 : 0 ≤ accBound f n M := by unfold accBound; positivity
  refine le_trans ?_ h
  set q := (2 : ℚ) ^ (-(f.prec : ℤ))
  have h1 : 0 ≤ q * accBound f n M := mul_nonneg hq0.le h0
  have h2 : 0 ≤ (1 + q) * (2 * q * (M * (1 + (n + 1 : ℕ) * q)) + 2 * ((2 : ℚ) ^ f.emin / 2)) := by
    positivity
  linarith

end Bound

theorem promote_floating {e e' : DType} (h : e.isFloating = true) (hp : DType.promote e e' = e') :
    e'.isFloating = true := by
  cases e <;> cases e' <;> simp_all [DType.promote, DType.isFloating]

theorem promote_trans {a b c : DType} (h1 : DType.promote a b = b) (h2 : DType.promote b c = c) :
    DType.promote a c = c := by
  cases a <;> cases b <;> cases c <;> simp_all [DType.promote]

/-- The IEEE formats satisfy the hypothesis of C63. -/
theorem fmt_sub (e e' : DType) (h : e.isFloating = true) (hp : DType.promote e e' = e') :
    e.fmt.Sub e'.fmt := by
  revert h hp; cases e <;> cases e' <;> decide

section Theorems
variable {F : DType → Fmt} [A : Arith ℚ]

/-- The weight of one step on one element that is not halted. -/
theorem weight_rounded (hA : A = Arith.rounded F) {d dI : DType} (hd : d.isFloating = true)
    (hF : (F d).Valid) (hF64 : (F .f64).Valid) {eps dep : ℚ} (he : 0 ≤ eps) (hdep : 0 ≤ dep)
    {c : Spec.Cell ℚ} (hr : (F d).Rep c.prob) (h0 : 0 ≤ c.prob) (h1 : c.prob ≤ 1) (h : ℚ) :
    0 ≤ Spec.weight d eps dep c.prob h ∧ Spec.weight d eps dep c.prob h ≤ 1 ∧
    |(Spec.step d dI eps dep c h).prob - (c.prob + Spec.weight d eps dep c.prob h)| ≤
      (2 : ℚ) ^ (-((F d).prec : ℤ)) := by
  have hstep : (Spec.step d dI eps dep c h).prob =
      (F d).rnd (c.prob + Spec.weight d eps dep c.prob h) := by
    subst hA
    exact Spec.roundTo_float hd _
  have hw : 0 ≤ Spec.weight d eps dep c.prob h ∧ Spec.weight d eps dep c.prob h ≤ 1 := by
    unfold Spec.weight
    split
    · have e : (Arith.sub d Arith.one c.prob : ℚ) = (F d).rnd (1 - c.prob) := by
        subst hA; exact Spec.roundTo_float hd _
      rw [e]
      exact ⟨rnd_nonneg (by linarith), rnd_le_of_rep hF.1 (rnd_one hF) (by linarith)⟩
    · rename_i hc
      have hdm := Spec.demand_rounded_nonneg hA hd (h := h) hdep
      refine ⟨hdm, ?_⟩
      rw [Spec.crosses_rounded hA hd, not_lt] at hc
      have ht := Spec.threshold_le_one hA hd hF hF64 he
      have hrep : (F d).rnd (Spec.demand d dep h) = Spec.demand d dep h := by
        rw [Spec.demand_rounded hA hd]
        exact rnd_rep hF.1 _
      have := rnd_mono hF.1 (show Spec.demand d dep h ≤ c.prob + Spec.demand d dep h by linarith)
      rw [hrep] at this
      linarith
  refine ⟨hw.1, hw.2, ?_⟩
  have hle : (Spec.step d dI eps dep c h).prob ≤ 1 := by
    rcases step_rounded_cases hA (dI := dI) (eps := eps) hd hF hdep hr h0 h1 h with
      ⟨-, k⟩ | ⟨-, -, -, k⟩
    · rw [k]
    · exact le_trans k (Spec.threshold_le_one hA hd hF hF64 he)
  rw [hstep] at hle ⊢
  refine rnd_error_two hF ?_
  rw [abs_of_nonneg (by linarith [hw.1])]
  by_contra hge
  rw [not_lt] at hge
  have := le_rnd_of_rep hF.1 (rnd_two hF) hge
  linarith

/-- The whole trajectory of an element that starts with cumulative probability 0, in rounded arithmetic:
probability and residual follow the recurrence of `Spec/Rounded`, whose weights are the weights of the updates
up to rounding. -/
theorem rounded_trajectory (hA : A = Arith.rounded F) (hF64 : (F .f64).Valid)
    (hN : ∀ e e' : DType, e.isFloating = true → DType.promote e e' = e' → (F e).Sub (F e'))
    {s : ACTStates ℚ} (hwf : s.WF) (hF : (F s.probabilities.dtype).Valid)
    (he : 0 ≤ s.epsilon) (he1 : s.epsilon ≤ 1) (hdep : 0 ≤ s.depression_constant)
    (rs : List (Round ℚ)) {c' : Controller ℚ} (hrun : run ⟨s⟩ (roundOps rs) = .ok c')
    {b : List Nat} (hfresh : s.probabilities.at? b = some 0) {thr : ℚ}
    (hthr : thr = (F s.probabilities.dtype).rnd ((F .f64).rnd (1 - s.epsilon))) (h : Nat → ℚ)
    (hh : ∀ t r x, rs[t]? = some r → r.halting.at? b = some x →
      h t = convS r.halting.dtype s.probabilities.dtype x) :
    let f := F s.probabilities.dtype
    let P := Rounded.prob f thr s.depression_constant h
    let w := Rounded.weights f thr s.depression_constant h
    c'.probabilities.at? b = some (P rs.length) ∧
    (c'.haltedBatches.at? b = some true ↔ thr < P rs.length) ∧
    (s.residuals.at? b = some 0 →
      c'.residuals.at? b = some (Rounded.resid f thr s.depression_constant h rs.length)) ∧
    (s.iterations.at? b = some 0 → c'.iterations.at? b = some (Rounded.counter
      (Arith.roundTo F s.iterations.dtype) f thr s.depression_constant h rs.length)) ∧
    (f.Rep (P rs.length) ∧ 0 ≤ P rs.length ∧ P rs.length ≤ 1 ∧ (thr < P rs.length → P rs.length = 1)) ∧
    (∀ t < rs.length, 0 ≤ w t ∧ w t ≤ 1) ∧
    |P rs.length - ∑ t ∈ Finset.range rs.length, w t| ≤ rs.length * (2 : ℚ) ^ (-(f.prec : ℤ)) ∧
    ∀ name k rest (ta : Tensor ℚ) (u : Nat → ℚ) (M : ℚ), 0 ≤ M →
      leaf? s.accumulators name k = some (.tensor ta) → ta.at? (b ++ rest) = some 0 →
      (∀ t r, rs[t]? = some r → ∃ (tu : Tensor ℚ) (v : ℚ),
        leaf? r.updates name k = some (.tensor tu) ∧ tu.at? (b ++ rest) = some v ∧
        u t = convS tu.dtype (DType.promote s.probabilities.dtype tu.dtype) v ∧ |u t| ≤ M) →
      ∃ a, entry? c'.accumulators name k (b ++ rest) = some a ∧
        |a - ∑ t ∈ Finset.range rs.length, w t * u t| ≤ accBound f rs.length M := by
  intro f P w
  set d := s.probabilities.dtype with hd
  set q : ℚ := (2 : ℚ) ^ (-(f.prec : ℤ)) with hq
  have hfd : d.isFloating = true := hwf.floating
  have hthr' : Spec.threshold d s.epsilon = thr := by rw [hthr, Spec.threshold_rounded hA hfd]
  have hq0 : 0 < q := zpow_pos (by norm_num) _
  have hlen : b.length = s.probabilities.shape.length := by
    have : InB s.probabilities.arr.shape b := Arr.at?_isSome.1 (by
      rw [show s.probabilities.arr.at? b = some 0 from hfresh]; rfl)
    exact this.length
  have := rounds_induction_get hwf (Inv := fun rs t =>
      t.epsilon = s.epsilon ∧ t.depression_constant = s.depression_constant ∧
      t.probabilities.shape = s.probabilities.shape ∧ t.probabilities.dtype = d ∧
      t.iterations.dtype = s.iterations.dtype ∧
      ((∀ t r x, rs[t]? = some r → r.halting.at? b = some x → h t = convS r.halting.dtype d x) →
      t.probabilities.at? b = some (P rs.length) ∧
      (s.residuals.at? b = some 0 →
        t.residuals.at? b = some (Rounded.resid f thr s.depression_constant h rs.length)) ∧
      (s.iterations.at? b = some 0 → t.iterations.at? b = some (Rounded.counter
        (Arith.roundTo F s.iterations.dtype) f thr s.depression_constant h rs.length)) ∧
      (∀ t < rs.length, 0 ≤ w t ∧ w t ≤ 1) ∧
      f.Rep (P rs.length) ∧ 0 ≤ P rs.length ∧ P rs.length ≤ 1 ∧
      (thr < P rs.length → P rs.length = 1) ∧
      |P rs.length - ∑ t ∈ Finset.range rs.length, w t| ≤ rs.length * q ∧
      ∀ name k rest (ta : Tensor ℚ) (u : Nat → ℚ) (M : ℚ), 0 ≤ M →
        leaf? s.accumulators name k = some (.tensor ta) → ta.at? (b ++ rest) = some 0 →
        (∀ t r, rs[t]? = some r → ∃ (tu : Tensor ℚ) (v : ℚ),
          leaf? r.updates name k = some (.tensor tu) ∧ tu.at? (b ++ rest) = some v ∧
          u t = convS tu.dtype (DType.promote d tu.dtype) v ∧ |u t| ≤ M) →
        ∃ (ta' : Tensor ℚ) (a : ℚ), leaf? t.accumulators name k = some (.tensor ta') ∧
          ta'.at? (b ++ rest) = some a ∧
          |a - ∑ t ∈ Finset.range rs.length, w t * u t| ≤ accBound f rs.length M))
    ?_ ?_ rs hrun
  · obtain ⟨hwf', e1, e2, e3, e4, e5, hinv⟩ := this
    obtain ⟨h2, hr, hi, h1, h3, h4, h5, h6, h7, h8⟩ := hinv hh
    refine ⟨h2, ?_, hr, hi, ⟨h3, h4, h5, h6⟩, h1, h7, fun name k rest ta u M hM g1 g3 g4 => ?_⟩
    · rw [halted_iff (s := c'.state) hwf'.floating]
      rw [e4, e1]
      constructor
      · rintro ⟨p', hp', hx⟩
        rw [h2] at hp'
        cases hp'
        rw [Spec.isHalted_rounded hA, hthr'] at hx
        exact hx
      · intro hx
        exact ⟨_, h2, (Spec.isHalted_rounded hA).2 (by rw [hthr']; exact hx)⟩
    · obtain ⟨ta', a, k1, k3, k4⟩ := h8 name k rest ta u M hM g1 g3 g4
      exact ⟨a, entry?_eq_some.2 ⟨_, k1, k3⟩, k4⟩
  · refine ⟨rfl, rfl, rfl, rfl, rfl, fun _ => ⟨hfresh, id, id, by simp, rnd_zero _, le_rfl, zero_le_one,
      ?_, by simp [P, Rounded.prob], ?_⟩⟩
    · intro hx
      have := Spec.threshold_nonneg hA hfd he1
      rw [hthr'] at this
      exact absurd hx (not_lt.2 this)
    · intro name k rest ta u M hM g1 g3 g4
      exact ⟨ta, 0, g1, g3, by simp [accBound]⟩
  · rintro rs r t U t' hwt hw st hU ⟨e1, e2, e3, e4, e5, hinv⟩
    refine ⟨st.epsilon.trans e1, st.depression.trans e2, st.pshape.trans e3, st.pdtype.trans e4,
      st.idtype.trans e5, ?_⟩
    intro hh
    have hlast : (rs ++ [r])[rs.length]? = some r := by simp
    have hpre : ∀ (j : Nat) r', rs[j]? = some r' → (rs ++ [r])[j]? = some r' := by
      intro j r' hj
      rw [List.getElem?_append_left (List.getElem?_eq_some_iff.1 hj).1]; exact hj
    obtain ⟨h2, hres, hit, h1, h3, h4, h5, h6, h7, h8⟩ := hinv fun j r' x hj => hh j r' x (hpre j r' hj)
    set p := P rs.length with hp
    obtain ⟨rr, nn, x, hrr, hnn', hx, hc, hc2, hc3⟩ := st.cellAt hw (b := b) h2
    simp only [e1, e2, e4, e5] at hc hc2 hc3 hx hrr hnn'
    have hhx := hh _ _ _ hlast hx
    rw [← hhx] at hc hc2 hc3
    obtain ⟨w0, w1, w2⟩ := weight_rounded hA (dI := s.iterations.dtype) hfd hF hF64 he hdep
      (c := ⟨p, rr, nn⟩) h3 h4 h5 (h rs.length)
    simp only at w0 w1 w2
    set W := Spec.weight d s.epsilon s.depression_constant p (h rs.length) with hW
    have hdem : Spec.demand d s.depression_constant (h rs.length) =
        Rounded.demand f s.depression_constant (h rs.length) := Spec.demand_rounded hA hfd _ _
    have hcr : Spec.crosses d s.epsilon s.depression_constant p (h rs.length) = true ↔
        thr < f.rnd (p + Rounded.demand f s.depression_constant (h rs.length)) := by
      rw [Spec.crosses_rounded hA hfd, hthr', hdem]
    have hsub : (Arith.sub d Arith.one p : ℚ) = f.rnd (1 - p) := by
      subst hA; exact Spec.roundTo_float hfd _
    have hwl : w rs.length = if thr < p then 0 else W := by
      show Rounded.weight f thr s.depression_constant p (h rs.length) = _
      rw [hW]
      unfold Rounded.weight Spec.weight
      simp only [hcr, hsub, hdem]
    have hv : 0 ≤ w rs.length ∧ w rs.length ≤ 1 := by
      rw [hwl]; split
      · exact ⟨le_rfl, zero_le_one⟩
      · exact ⟨w0, w1⟩
    have hcases := step_rounded_cases hA (dI := s.iterations.dtype) (eps := s.epsilon) hfd hF hdep
      (c := ⟨p, rr, nn⟩) h3 h4 h5 (h rs.length)
    set p' := (Spec.step d s.iterations.dtype s.epsilon s.depression_constant ⟨p, rr, nn⟩
      (h rs.length)).prob with hp'
    rw [hthr'] at hcases
    have hone : thr < p → p' = p := by
      intro hx
      have h1 := h6 hx
      rcases hcases with ⟨-, k⟩ | ⟨-, -, k1, k2⟩
      · rw [k, h1]
      · simp only at k1
        linarith
    have hthr1 : thr ≤ 1 := hthr' ▸ Spec.threshold_le_one hA hfd hF hF64 he
    have hrange : f.Rep p' ∧ 0 ≤ p' ∧ p' ≤ 1 ∧ (thr < p' → p' = 1) := by
      rcases hcases with ⟨-, k⟩ | ⟨-, k0, k1, k2⟩
      · rw [k]
        exact ⟨rnd_one hF, zero_le_one, le_rfl, fun _ => rfl⟩
      · simp only at k1
        exact ⟨k0, by linarith, by linarith, fun hx => absurd hx (not_lt.2 k2)⟩
    have hP : P (rs ++ [r]).length = p' := by
      rw [List.length_append, List.length_singleton]
      show f.rnd (p + w rs.length) = p'
      rw [hwl]
      split
      · rename_i hx
        rw [add_zero, hone hx]
        exact h3
      · rw [hp']
        symm
        subst hA
        exact Spec.roundTo_float hfd _
    have hprob : |p' - (p + w rs.length)| ≤ q := by
      rw [hwl]
      split
      · rename_i hx
        rw [hone hx, add_zero, sub_self, abs_zero]
        exact hq0.le
      · exact w2
    have hpsum : |p' - ∑ j ∈ Finset.range (rs ++ [r]).length, w j| ≤ (rs ++ [r]).length * q := by
      rw [List.length_append, List.length_singleton, Finset.sum_range_succ]
      calc |p' - (∑ j ∈ Finset.range rs.length, w j + w rs.length)|
          = |(p' - (p + w rs.length)) + (p - ∑ j ∈ Finset.range rs.length, w j)| := by congr 1; ring
        _ ≤ |p' - (p + w rs.length)| + |p - ∑ j ∈ Finset.range rs.length, w j| := abs_add_le _ _
        _ ≤ _ := by push_cast; linarith
    have hnn : ∀ j < (rs ++ [r]).length, 0 ≤ w j ∧ w j ≤ 1 := by
      intro j hj
      rw [List.length_append, List.length_singleton] at hj
      rcases Nat.lt_succ_iff_lt_or_eq.1 hj with hj | rfl
      · exact h1 j hj
      · exact hv
    rw [hP]
    refine ⟨hc, ?_, ?_, hnn, hrange.1, hrange.2.1, hrange.2.2.1, hrange.2.2.2, hpsum, ?_⟩
    · intro hr0
      have hrr' : rr = Rounded.resid f thr s.depression_constant h rs.length := by
        have := (hrr.symm.trans (hres hr0))
        exact Option.some.inj this
      rw [hc2, List.length_append, List.length_singleton]
      congr 1
      unfold Rounded.resid
      show (if _ then _ else _) = _
      have hcond : (Spec.crosses d s.epsilon s.depression_constant p (h rs.length) &&
          !Spec.isHalted d s.epsilon p) = true ↔
          (p ≤ thr ∧ thr < f.rnd (p + Rounded.demand f s.depression_constant (h rs.length))) := by
        rw [Bool.and_eq_true, hcr, Bool.not_eq_true', ← Bool.not_eq_true, Spec.isHalted_rounded hA,
          hthr', not_lt, and_comm]
      simp only [hcond, hsub, hrr']
      rfl
    · intro hi0
      have hnn2 := Option.some.inj (hnn'.symm.trans (hit hi0))
      rw [hc3, List.length_append, List.length_singleton]
      congr 1
      unfold Rounded.counter
      show (if _ then _ else _) = _
      have hcond : Spec.isHalted d s.epsilon p = true ↔ thr < p := by
        rw [Spec.isHalted_rounded hA, hthr']
      have hadd : ∀ y : ℚ, (Arith.add s.iterations.dtype y Arith.one : ℚ) =
          Arith.roundTo F s.iterations.dtype (y + 1) := fun y => by subst hA; rfl
      simp only [hcond, hadd, hnn2]
      rfl
    intro name k rest ta u M hM g1 g3 g4
    obtain ⟨ta1, a, k1, k3, k4⟩ := h8 name k rest ta u M hM g1 g3
      (fun j r' hj => g4 j r' (hpre j r' hj))
    obtain ⟨tu, v0, l1, l3, l2, l4⟩ := g4 _ _ hlast
    have l1' := leaf?_transfer hU l1
    obtain ⟨T, m1, m2⟩ := leaf?_eq_some.1 k1
    obtain ⟨u1, a1, n1, n2, n3⟩ := st.tree name T m1
    obtain ⟨xa, xu, xa', o1, o2, o3, o4⟩ := n3.leaf k _ m2
    cases o1
    obtain ⟨Tu, m3, m4⟩ := leaf?_eq_some.1 l1'
    simp only at n1
    rw [m3] at n1
    cases n1
    rw [m4] at o2
    cases o2
    have htake : (b ++ rest).take t.probabilities.shape.length = b := by
      rw [e3, ← hlen, List.take_left']
      rfl
    have hent := o4.entry (b ++ rest) a v0 p x k3 l3 (by simp only; rw [htake]; exact h2)
      (by simp only; rw [htake]; exact hx)
    have hdt := o4.dtypes
    simp only [e1, e2, e4] at hent hdt
    refine ⟨xa', _, leaf?_eq_some.2 ⟨a1, n2, o3⟩, hent, ?_⟩
    rw [List.length_append, List.length_singleton, Finset.sum_range_succ, hwl]
    unfold Spec.accStep
    split
    · rename_i hx
      rw [Spec.isHalted_rounded hA, hthr'] at hx
      rw [if_pos hx, zero_mul, add_zero]
      exact le_trans k4 (accBound_mono _ hM)
    · rename_i hx
      rw [Spec.isHalted_rounded hA, hthr'] at hx
      rw [if_neg hx]
      set m := DType.promote d tu.dtype with hm
      have hdm : DType.promote d m = m := by
        rw [hm]; generalize tu.dtype = e; cases d <;> cases e <;> rfl
      have hma : DType.promote m ta1.dtype = ta1.dtype := by rw [DType.promote_comm]; exact hdt
      have hfm : m.isFloating = true := promote_floating hfd hdm
      have hfa : ta1.dtype.isFloating = true := promote_floating hfm hma
      have hda : DType.promote d ta1.dtype = ta1.dtype := promote_trans hdm hma
      have sm := hN d m hfd hdm
      have sa := hN d ta1.dtype hfd hda
      have sma := hN m ta1.dtype hfm hma
      have hWrep : (F d).Rep W := by
        rw [hW]
        unfold Spec.weight
        split
        · have e : (Arith.sub d Arith.one p : ℚ) = (F d).rnd (1 - p) := by
            subst hA; exact Spec.roundTo_float hfd _
          rw [e]; exact rnd_rep hF.1 _
        · rw [Spec.demand_rounded hA hfd]; exact rnd_rep hF.1 _
      have hconv : ∀ (e e' : DType) (y : ℚ), e'.isFloating = true → (F e').Rep y →
          convS e e' y = y := by
        intro e e' y he' hy
        unfold convS
        split
        · rfl
        · subst hA; exact (Spec.roundTo_float he' _).trans hy
      have hmul : ∀ y z : ℚ, (Arith.mul m y z : ℚ) = (F m).rnd (y * z) := by
        intro y z; subst hA; exact Spec.roundTo_float hfm _
      have hadd : ∀ y z : ℚ, (Arith.add ta1.dtype y z : ℚ) = (F ta1.dtype).rnd (y + z) := by
        intro y z; subst hA; exact Spec.roundTo_float hfa _
      simp only
      have hm1 : 1 ≤ (F m).prec := le_trans hF.1 sm.1
      rw [← hhx, ← hW, ← l2, hconv d m W hfm (sm.rep hF.1 hWrep), hmul,
        hconv m ta1.dtype _ hfa (sma.rep hm1 (rnd_rep hm1 _)), hadd]
      have hub : ∀ j < (rs ++ [r]).length, |u j| ≤ M := by
        intro j hj
        obtain ⟨-, -, -, -, -, h⟩ := g4 j _ (List.getElem?_eq_getElem hj)
        exact h
      have hB : ∑ j ∈ Finset.range (rs ++ [r]).length, w j ≤ 1 + ((rs.length + 1 : ℕ) : ℚ) * q := by
        have := (abs_le.1 hpsum).1
        simp only [List.length_append, List.length_singleton] at this ⊢
        linarith [hrange.2.2.1]
      have hxB : |W * u rs.length| ≤ M * (1 + ((rs.length + 1 : ℕ) : ℚ) * q) := by
        rw [abs_mul, abs_of_nonneg w0]
        have h1 := hub rs.length (by simp)
        have h2 : W * |u rs.length| ≤ 1 * M := mul_le_mul w1 h1 (abs_nonneg _) zero_le_one
        have h3 : 0 ≤ M * (((rs.length + 1 : ℕ) : ℚ) * q) := by positivity
        linarith
      have hSB : |∑ j ∈ Finset.range rs.length, w j * u j + W * u rs.length| ≤
          M * (1 + ((rs.length + 1 : ℕ) : ℚ) * q) := by
        have e : ∑ j ∈ Finset.range rs.length, w j * u j + W * u rs.length =
            ∑ j ∈ Finset.range (rs ++ [r]).length, w j * u j := by
          rw [List.length_append, List.length_singleton, Finset.sum_range_succ, hwl, if_neg hx]
        rw [e]
        refine le_trans (Finset.abs_sum_le_sum_abs _ _) ?_
        refine le_trans (Finset.sum_le_sum (g := fun j => w j * M) fun j hj => ?_) ?_
        · rw [abs_mul, abs_of_nonneg (hnn j (Finset.mem_range.1 hj)).1]
          exact mul_le_mul_of_nonneg_left (hub j (Finset.mem_range.1 hj))
            (hnn j (Finset.mem_range.1 hj)).1
        · rw [← Finset.sum_mul, mul_comm]
          exact mul_le_mul_of_nonneg_left hB hM
      exact le_trans (commit_error sm sa hq rfl k4 hxB hSB) (accBound_step rs.length hM hq rfl)

/-- C63.  Rounded arithmetic, any precision.  Let an element start with cumulative probability 0.
After `n` rounds there are weights in `[0, 1]`, one per round, the same for all accumulators, such
that: the cumulative probability differs from their sum by at most `n * 2^-prec` (so a halted element
has weights that sum to one up to that error); and every accumulator entry that started at 0 and
received updates `u t` (converted to the common dtype of update and probabilities), at most `M` in
absolute value, differs from `∑ w t * u t` by at most
`n * (1 + 2^-prec)^n * (2 * 2^-prec * M * (1 + n * 2^-prec) + 2^emin)`. Precision and smallest number
are those of the dtype of the probabilities; accumulators and updates have any dtypes that
`iterate_act` accepts. The formats are such that a dtype converts exactly to those it is promoted
to. -/
theorem C63_rounded_weighted_sum (hA : A = Arith.rounded F) (hF64 : (F .f64).Valid)
    (hN : ∀ e e' : DType, e.isFloating = true → DType.promote e e' = e' → (F e).Sub (F e'))
    {s : ACTStates ℚ} (hwf : s.WF) (hF : (F s.probabilities.dtype).Valid)
    (he : 0 ≤ s.epsilon) (he1 : s.epsilon ≤ 1) (hdep : 0 ≤ s.depression_constant)
    (rs : List (Round ℚ)) {c' : Controller ℚ} (hrun : run ⟨s⟩ (roundOps rs) = .ok c')
    {b : List Nat} (hfresh : s.probabilities.at? b = some 0) :
    ∃ w : Nat → ℚ, (∀ t < rs.length, 0 ≤ w t ∧ w t ≤ 1) ∧
    (∃ p, c'.probabilities.at? b = some p ∧ |p - ∑ t ∈ Finset.range rs.length, w t| ≤
      rs.length * (2 : ℚ) ^ (-((F s.probabilities.dtype).prec : ℤ))) ∧
    (c'.haltedBatches.at? b = some true → |1 - ∑ t ∈ Finset.range rs.length, w t| ≤
      rs.length * (2 : ℚ) ^ (-((F s.probabilities.dtype).prec : ℤ))) ∧
    ∀ name k rest (ta : Tensor ℚ) (u : Nat → ℚ) (M : ℚ), 0 ≤ M →
      leaf? s.accumulators name k = some (.tensor ta) → ta.at? (b ++ rest) = some 0 →
      (∀ t r, rs[t]? = some r → ∃ (tu : Tensor ℚ) (v : ℚ),
        leaf? r.updates name k = some (.tensor tu) ∧ tu.at? (b ++ rest) = some v ∧
        u t = convS tu.dtype (DType.promote s.probabilities.dtype tu.dtype) v ∧ |u t| ≤ M) →
      ∃ a, entry? c'.accumulators name k (b ++ rest) = some a ∧
        |a - ∑ t ∈ Finset.range rs.length, w t * u t| ≤
          accBound (F s.probabilities.dtype) rs.length M := by
  let h : Nat → ℚ := fun t => match rs[t]? with
    | some r => match r.halting.at? b with
      | some x => convS r.halting.dtype s.probabilities.dtype x
      | none => 0
    | none => 0
  obtain ⟨h1, h2, -, -, ⟨-, -, -, h3⟩, h4, h5, h6⟩ := rounded_trajectory hA hF64 hN hwf hF he he1 hdep rs
    hrun hfresh rfl h (fun t r x e1 e2 => by simp only [h, e1, e2])
  refine ⟨_, h4, ⟨_, h1, h5⟩, fun hx => ?_, h6⟩
  have h7 := h3 (h2.1 hx)
  rwa [h7] at h5

end Theorems

section Example
open Fixtures
attribute [local instance] ieee

/-- Three rounds in IEEE arithmetic. -/
def threeRounds : List (Round ℚ) :=
  [round [1/10, 9/10] 3 2, round [3/10, 9/10] 7 2, round [7/10, 9/10] 9 2]

/-- Weights 1/10, 3/10 and 6/10 up to rounding: the exact weighted sum would be 39/5. -/
theorem threeRounds_ok : obs (run ⟨fresh⟩ (roundOps threeRounds)) (fun c =>
    some (c.haltedBatches.at? [0], entry? c.accumulators "out" 0 [0, 0])) =
    some (some true, some (8178893/1048576)) := by decide +kernel

/-- The theorem applies to them: three weights that sum to one up to `3 * 2^-24`, and a weighted sum
that differs from the result by at most the bound. -/
example : ∃ w : Nat → ℚ, |1 - (w 0 + w 1 + w 2)| ≤ 3 * (2 : ℚ) ^ (-24 : ℤ) ∧
    |8178893/1048576 - (w 0 * 3 + w 1 * 7 + w 2 * 9)| ≤ accBound DType.f32.fmt 3 9 := by
  have h1 := threeRounds_ok
  revert h1
  unfold obs
  split
  swap
  · intro h; cases h
  rename_i c hc
  intro h
  simp only [Option.some.injEq, Prod.mk.injEq] at h
  obtain ⟨w, -, -, g1, g2⟩ := C63_rounded_weighted_sum (F := DType.fmt) rfl (by decide) fmt_sub
    fresh_wf (by decide) (by norm_num [fresh]) (by norm_num [fresh]) (by norm_num [fresh])
    threeRounds hc (b := [0]) (by decide +kernel)
  refine ⟨w, ?_, ?_⟩
  · simpa [threeRounds, Finset.sum_range_succ, fresh, vec, DType.fmt] using g1 h.1
  · obtain ⟨a, e1, e2⟩ := g2 "out" 0 [0] (col 0 0) (fun t => if t = 0 then 3 else if t = 1 then 7 else 9)
      9 (by norm_num) rfl (by decide +kernel) (by
        intro t r hr
        match t with
        | 0 => cases hr; exact ⟨col 3 2, 3, rfl, by decide +kernel, rfl, by norm_num⟩
        | 1 => cases hr; exact ⟨col 7 2, 7, rfl, by decide +kernel, rfl, by norm_num⟩
        | 2 => cases hr; exact ⟨col 9 2, 9, rfl, by decide +kernel, rfl, by norm_num⟩
        | t + 3 => simp [threeRounds] at hr)
    rw [show entry? c.accumulators "out" 0 ([0] ++ [0]) = _ from h.2] at e1
    cases e1
    simpa [threeRounds, Finset.sum_range_succ, fresh, vec] using e2

/-- `float16` bookkeeping with a `float32` accumulator. -/
def mixed : ACTStates ℚ :=
  let h16 : Tensor ℚ := ⟨.f16, (vec [0, 0]).arr⟩
  { simple with probabilities := h16, residuals := h16, iterations := h16 }

theorem mixed_wf : mixed.WF where
  floating := rfl
  res_shape := rfl
  res_dtype := rfl
  it_shape := rfl
  it_dtype := by decide
  acc_keys := by unfold Dict.WF; decide
  def_keys := by unfold Dict.WF; decide
  upd_keys := by unfold Dict.WF; decide
  def_iff := by intro n; exact Iff.rfl
  upd_iff := by intro n; exact Iff.rfl
  batched := simple_batched
  same := by
    intro n t u h1 h2
    have : some t = some u := h1.symm.trans h2
    cases this
    exact sameType_refl (simple_batched n t h1)

/-- Mixed dtypes meet the hypotheses as well: one round with updates of another 16 bit type. -/
example :
    let r : Round ℚ := ⟨[("out", bare ⟨.bf16, (col 3 2).arr⟩)], ⟨.f16, (vec [1/3, 9/10]).arr⟩⟩
    obs (run ⟨mixed⟩ (roundOps [r])) (fun c => do
      let a ← entry? c.accumulators "out" 0 [0, 0]
      let p ← c.probabilities.at? [0]
      some (p, a)) = some (DType.f16.fmt.rnd (1/3), DType.f32.fmt.rnd (3 * DType.f16.fmt.rnd (1/3))) ∧
    mixed.probabilities.at? [0] = some 0 ∧
    leaf? mixed.accumulators "out" 0 = some (.tensor (col 0 0)) ∧ (col 0 0).at? [0, 0] = some 0 ∧
    leaf? r.updates "out" 0 = some (.tensor ⟨.bf16, (col 3 2).arr⟩) ∧
    convS .bf16 (DType.promote .f16 .bf16) (3 : ℚ) = 3 := by
  refine ⟨by decide +kernel, by decide +kernel, rfl, by decide +kernel, rfl, by decide +kernel⟩

/-- The bound is about `4 * 10^-6` for the three rounds. -/
example : accBound DType.f32.fmt 3 9 < 4 / 10 ^ 6 := by
  decide +kernel

end Example

end JaxAct
