import Verif.Lemmas.Rounded
import Verif.Spec.Overflow
import Verif.Spec.Reset

/-! # Scalar steps with and without overflow -/

namespace JaxAct
open Arith Fmt
attribute [local instance] ieee ieeeSpecial

/-! ### Formats -/

theorem DType.fmt_valid (d : DType) : d.fmt.Valid := by cases d <;> decide

theorem DType.rep_largest {d : DType} (h : d.isFloating = true) : d.fmt.Rep d.largest := by
  cases d <;> first | (cases h; done) | decide +kernel

/-- Adding one to the largest number gives the largest number. -/
theorem DType.rnd_largest_add_one {d : DType} (h : d.isFloating = true) :
    d.fmt.rnd (d.largest + 1) = d.largest := by
  cases d <;> first | (cases h; done) | decide +kernel

theorem DType.two_le_largest (d : DType) : 2 ≤ d.largest := by cases d <;> decide +kernel

theorem DType.largest_le {a b : DType} (h : promote a b = a) (hb : b.isFloating = true) :
    b.largest ≤ a.largest := by
  cases b <;> cases a <;> first | (cases hb; done) | (cases h; done) | decide +kernel

theorem abs_rnd_le_of_rep {f : Fmt} (hp : 1 ≤ f.prec) {x y : ℚ} (hy : f.Rep y) (h : |x| ≤ y) :
    |f.rnd x| ≤ y := by
  rw [abs_le] at h ⊢
  refine ⟨le_rnd_of_rep hp ?_ h.1, rnd_le_of_rep hp hy h.2⟩
  show f.rnd (-y) = -y
  rw [rnd_neg, hy]

theorem ieeeRound_of_abs_le {d : DType} {x : ℚ} (h : |roundTo DType.fmt d x| ≤ d.largest) :
    d.ieeeRound x = Ext.num (roundTo DType.fmt d x) := by
  unfold DType.ieeeRound roundTo at *
  split
  · next hd =>
    rw [if_pos hd] at h
    rw [abs_le] at h
    simp only [if_neg (not_lt.2 h.2), if_neg (not_lt.2 h.1)]
  · rfl

theorem ieeeRound_int {d : DType} (hd : d.isFloating = false) (x : ℚ) :
    d.ieeeRound x = Ext.num (roundTo DType.fmt d x) := by
  unfold DType.ieeeRound roundTo
  rw [hd]; rfl

theorem abs_roundTo_le {d : DType} {x : ℚ} (h : |x| ≤ d.largest) :
    |roundTo DType.fmt d x| ≤ d.largest := by
  unfold roundTo
  split
  · next hd => exact abs_rnd_le_of_rep d.fmt_valid.1 (DType.rep_largest hd) h
  · exact h

/-- No overflow within the range. -/
theorem ieeeRound_of_le {d : DType} {x : ℚ} (h : |x| ≤ d.largest) :
    d.ieeeRound x = Ext.num (roundTo DType.fmt d x) := ieeeRound_of_abs_le (abs_roundTo_le h)

theorem roundTo_unit {d : DType} {x : ℚ} (h0 : 0 ≤ x) (h1 : x ≤ 1) :
    0 ≤ roundTo DType.fmt d x ∧ roundTo DType.fmt d x ≤ 1 := by
  unfold roundTo
  split
  · exact ⟨rnd_nonneg h0, rnd_le_of_rep d.fmt_valid.1 (rnd_one d.fmt_valid) h1⟩
  · exact ⟨h0, h1⟩

theorem le_largest_of_le_two {d : DType} {x : ℚ} (h0 : 0 ≤ x) (h1 : x ≤ 2) : |x| ≤ d.largest := by
  rw [abs_of_nonneg h0]
  exact h1.trans d.two_le_largest

theorem DType.Holds.rep {d : DType} {x : ℚ} (h : d.Holds x) (hd : d.isFloating = true) :
    d.fmt.Rep x := by
  unfold DType.Holds DType.ieeeRound at h
  rw [if_pos hd] at h
  simp only at h
  split at h
  · cases h
  · split at h
    · cases h
    · exact Ext.num.inj h

theorem DType.Holds.abs_le {d : DType} {x : ℚ} (h : d.Holds x) (hd : d.isFloating = true) :
    |x| ≤ d.largest := by
  have hr := h.rep hd
  unfold DType.Holds DType.ieeeRound at h
  rw [if_pos hd] at h
  simp only at h
  rw [hr] at h
  split at h
  · cases h
  · next h1 =>
    split at h
    · cases h
    · next h2 => exact _root_.abs_le.2 ⟨not_lt.1 h2, not_lt.1 h1⟩

/-- What is rounded within the range holds. -/
theorem DType.Holds.of_le {d : DType} {x : ℚ} (h : |roundTo DType.fmt d x| ≤ d.largest) :
    d.Holds (roundTo DType.fmt d x) := by
  have e : roundTo DType.fmt d (roundTo DType.fmt d x) = roundTo DType.fmt d x := by
    unfold roundTo
    split
    · exact rnd_rep d.fmt_valid.1 x
    · rfl
  unfold DType.Holds
  rw [ieeeRound_of_abs_le (by rw [e]; exact h), e]

/-! ### The scalar step -/

namespace Spec
variable {d dI : DType} {eps dep p h : ℚ}

theorem threshold_special (h0 : 0 ≤ eps) (h1 : eps ≤ 1) :
    threshold d (Ext.num eps) = Ext.num (threshold d eps) ∧ 0 ≤ threshold d eps ∧ threshold d eps ≤ 1 := by
  have a := roundTo_unit (d := .f64) (x := 1 - eps) (by linarith) (by linarith)
  have b := roundTo_unit (d := d) a.1 a.2
  refine ⟨?_, b⟩
  show Ext.round (DType.ieeeRound d) (DType.ieeeRound .f64 (1 + -eps)) = _
  rw [← sub_eq_add_neg, ieeeRound_of_le (le_largest_of_le_two (by linarith) (by linarith))]
  exact ieeeRound_of_le (le_largest_of_le_two a.1 (a.2.trans one_le_two))

theorem isHalted_special (h0 : 0 ≤ eps) (h1 : eps ≤ 1) :
    isHalted d (Ext.num eps) (Ext.num p) = isHalted d eps p := by
  unfold isHalted
  rw [(threshold_special h0 h1).1]
  rfl

theorem clamp_unit (x : ℚ) : 0 ≤ clamp x ∧ clamp x ≤ 1 := by
  rw [clamp_rounded rfl]
  exact ⟨le_inf zero_le_one le_sup_left, inf_le_left⟩

theorem clamp_special_num (x : ℚ) : clamp (Ext.num x) = Ext.num (clamp x) := by
  show Ext.min (Ext.num 1) (if decide (0 < x) then _ else _) = Ext.num (1 ⊓ (0 ⊔ x))
  by_cases h : 0 < x
  · rw [sup_eq_right.2 h.le]
    simp only [h, decide_true, if_true]
    show (if decide (x < 1) then _ else _) = _
    by_cases h1 : x < 1
    · simp only [h1, decide_true, if_true, inf_eq_right.2 h1.le]
    · simp only [h1, decide_false, inf_eq_left.2 (not_lt.1 h1)]; rfl
  · rw [sup_eq_left.2 (not_lt.1 h)]
    simp only [h, decide_false]
    show (if decide ((0 : ℚ) < 1) then Ext.num 0 else Ext.num 1) = Ext.num (1 ⊓ 0)
    simp

/-- The halting probability after the cast and the clip: an overflow in the cast does not matter. -/
theorem clamp_conv_special (dH : DType) (x : ℚ) :
    clamp (convS dH d (Ext.num x)) = Ext.num (clamp (convS dH d x)) := by
  unfold convS
  split
  · exact clamp_special_num x
  · show clamp (d.ieeeRound x) = Ext.num (clamp (roundTo DType.fmt d x))
    unfold DType.ieeeRound roundTo
    split
    · simp only
      have := d.two_le_largest
      split
      · next h1 =>
        have e : clamp (d.fmt.rnd x) = 1 := by
          rw [clamp_rounded rfl, sup_eq_right.2 (by linarith), inf_eq_left.2 (by linarith)]
        rw [e]; rfl
      · split
        · next h1 h2 =>
          have e : clamp (d.fmt.rnd x) = 0 := by
            rw [clamp_rounded rfl, sup_eq_left.2 (by linarith), inf_eq_right.2 zero_le_one]
          rw [e]; rfl
        · exact clamp_special_num _
    · exact clamp_special_num _

theorem demand_special {X : Ext} (d0 : 0 ≤ dep) (d1 : dep ≤ 1) (hX : clamp X = Ext.num (clamp h)) :
    demand d (Ext.num dep) X = Ext.num (demand d dep h) ∧ 0 ≤ demand d dep h ∧ demand d dep h ≤ 1 := by
  have a := roundTo_unit (d := d) d0 d1
  have c := clamp_unit h
  have m0 := mul_nonneg a.1 c.1
  have m1 := mul_le_one₀ a.2 c.1 c.2
  refine ⟨?_, roundTo_unit m0 m1⟩
  unfold demand
  rw [hX]
  show Ext.mul (DType.ieeeRound d) (DType.ieeeRound d dep) (Ext.num (clamp h)) = _
  rw [ieeeRound_of_le (le_largest_of_le_two d0 (d1.trans one_le_two))]
  exact ieeeRound_of_le (le_largest_of_le_two m0 (m1.trans one_le_two))

/-- What is known of the numbers of one batch element. -/
structure Known (eps dep p : ℚ) : Prop where
  e0 : 0 ≤ eps
  e1 : eps ≤ 1
  d0 : 0 ≤ dep
  d1 : dep ≤ 1
  p0 : 0 ≤ p
  p1 : p ≤ 1

variable {X : Ext}

theorem crosses_special (k : Known eps dep p) (hX : clamp X = Ext.num (clamp h)) :
    crosses d (Ext.num eps) (Ext.num dep) (Ext.num p) X = crosses d eps dep p h := by
  obtain ⟨e1, e2, e3⟩ := demand_special (d := d) k.d0 k.d1 hX
  unfold crosses
  rw [(threshold_special k.e0 k.e1).1, e1]
  show Ext.lt _ (d.ieeeRound (demand d dep h + p)) = _
  rw [ieeeRound_of_le (le_largest_of_le_two (add_nonneg e2 k.p0) (by linarith [k.p1]))]
  rfl

theorem remainder_special (k : Known eps dep p) :
    Arith.sub d Arith.one (Ext.num p) = Ext.num (Arith.sub d Arith.one p) ∧
    0 ≤ Arith.sub d Arith.one p ∧ Arith.sub d Arith.one p ≤ 1 := by
  have h0 : 0 ≤ 1 - p := by linarith [k.p1]
  have h1 : 1 - p ≤ 1 := by linarith [k.p0]
  refine ⟨?_, roundTo_unit h0 h1⟩
  show d.ieeeRound (1 + -p) = _
  rw [← sub_eq_add_neg]
  exact ieeeRound_of_le (le_largest_of_le_two h0 (h1.trans one_le_two))

theorem weight_special (k : Known eps dep p) (hX : clamp X = Ext.num (clamp h)) :
    weight d (Ext.num eps) (Ext.num dep) (Ext.num p) X = Ext.num (weight d eps dep p h) ∧
    0 ≤ weight d eps dep p h ∧ weight d eps dep p h ≤ 1 := by
  unfold weight
  rw [crosses_special k hX]
  split
  · exact remainder_special k
  · exact demand_special k.d0 k.d1 hX

theorem prob_special (k : Known eps dep p) (hX : clamp X = Ext.num (clamp h)) :
    Arith.add d (Ext.num p) (weight d (Ext.num eps) (Ext.num dep) (Ext.num p) X) =
      Ext.num (Arith.add d p (weight d eps dep p h)) := by
  obtain ⟨e1, e2, e3⟩ := weight_special (d := d) k hX
  rw [e1]
  exact ieeeRound_of_le (le_largest_of_le_two (add_nonneg k.p0 e2) (by linarith [k.p1]))

/-- The new cumulative probability is a number of its dtype between 0 and 1. -/
theorem prob_unit (hd : d.isFloating = true) (k : Known eps dep p) (hp : d.Holds p) (h : ℚ) :
    d.Holds (Arith.add d p (weight d eps dep p h)) ∧ 0 ≤ Arith.add d p (weight d eps dep p h) ∧
      Arith.add d p (weight d eps dep p h) ≤ 1 := by
  obtain ⟨e1, e2, e3⟩ := weight_special (d := d) k (clamp_special_num h)
  have h0 : 0 ≤ Arith.add d p (weight d eps dep p h) := by
    show 0 ≤ roundTo DType.fmt d _
    rw [roundTo_float hd]
    exact rnd_nonneg (add_nonneg k.p0 e2)
  have h1 : Arith.add d p (weight d eps dep p h) ≤ 1 := by
    unfold weight
    by_cases hc : crosses d eps dep p h = true
    · rw [if_pos hc]
      show roundTo DType.fmt d (p + roundTo DType.fmt d (1 - p)) ≤ 1
      rw [roundTo_float hd, roundTo_float hd, rnd_add_remainder d.fmt_valid (hp.rep hd) k.p0 k.p1]
    · rw [if_neg hc]
      have := (threshold_special (d := d) k.e0 k.e1).2.2
      rw [crosses_rounded (F := DType.fmt) rfl hd, not_lt] at hc
      show roundTo DType.fmt d _ ≤ 1
      rw [roundTo_float hd]
      exact hc.trans this
  exact ⟨DType.Holds.of_le (le_largest_of_le_two h0 (h1.trans one_le_two)), h0, h1⟩

/-- The counter: even the largest number stays in the range. -/
theorem counter_special {n : ℚ} (hn : dI.Holds n) :
    Arith.add dI (Ext.num n) Arith.one = Ext.num (Arith.add dI n Arith.one) ∧
      dI.Holds (Arith.add dI n Arith.one) := by
  cases hI : dI.isFloating with
  | false =>
    have : ∀ x, dI.Holds x := fun x => by
      unfold DType.Holds DType.ieeeRound
      rw [hI]; rfl
    exact ⟨ieeeRound_int hI _, this _⟩
  | true =>
    have hb := abs_le.1 (hn.abs_le hI)
    have key : |roundTo DType.fmt dI (n + 1)| ≤ dI.largest := by
      rw [roundTo_float hI, abs_le]
      refine ⟨le_rnd_of_rep dI.fmt_valid.1 ?_ (by linarith), ?_⟩
      · show dI.fmt.rnd (-_) = -_
        rw [rnd_neg, DType.rep_largest hI]
      · have := rnd_mono dI.fmt_valid.1 (show n + 1 ≤ dI.largest + 1 by linarith)
        rwa [DType.rnd_largest_add_one hI] at this
    exact ⟨ieeeRound_of_abs_le key, DType.Holds.of_le key⟩

/-- An accumulator entry, if its new value is in range. -/
theorem acc_special (k : Known eps dep p) (hX : clamp X = Ext.num (clamp h)) {dA dU : DType} {a u : ℚ}
    (hd : d.isFloating = true) (hA : DType.promote dA (DType.promote d dU) = dA)
    (hu : |u| ≤ (DType.promote d dU).largest)
    (hr : isHalted d eps p = false → |accStep d dA dU eps dep p h a u| ≤ dA.largest) :
    accStep d dA dU (Ext.num eps) (Ext.num dep) (Ext.num p) X (Ext.num a) (Ext.num u) =
      Ext.num (accStep d dA dU eps dep p h a u) := by
  obtain ⟨w1, w2, w3⟩ := weight_special (d := d) k hX
  unfold accStep at hr ⊢
  rw [isHalted_special k.e0 k.e1]
  cases hh : isHalted d eps p with
  | true => rfl
  | false =>
    have hr := hr hh
    simp only [hh, Bool.false_eq_true, if_false] at hr ⊢
    rw [w1]
    generalize weight d eps dep p h = w at *
    have hM : (DType.promote d dU).isFloating = true := by
      cases d <;> cases dU <;> first | (cases hd; done) | rfl
    have hMA := DType.largest_le hA hM
    generalize DType.promote d dU = dM at *
    have cw : convS d dM (Ext.num w) = Ext.num (convS d dM w) ∧ 0 ≤ convS d dM w ∧ convS d dM w ≤ 1 := by
      unfold convS
      split
      · exact ⟨rfl, w2, w3⟩
      · exact ⟨ieeeRound_of_le (le_largest_of_le_two w2 (w3.trans one_le_two)), roundTo_unit w2 w3⟩
    have cu : convS dU dM (Ext.num u) = Ext.num (convS dU dM u) ∧ |convS dU dM u| ≤ dM.largest := by
      unfold convS
      split
      · exact ⟨rfl, hu⟩
      · exact ⟨ieeeRound_of_le hu, abs_roundTo_le hu⟩
    rw [cw.1, cu.1]
    generalize convS d dM w = w' at *
    generalize convS dU dM u = u' at *
    have pm : |w' * u'| ≤ dM.largest := by
      rw [abs_mul, abs_of_nonneg cw.2.1]
      exact (mul_le_of_le_one_left (abs_nonneg _) cw.2.2).trans cu.2
    have em : Arith.mul dM (Ext.num w') (Ext.num u') = Ext.num (Arith.mul dM w' u') := ieeeRound_of_le pm
    have bm : |Arith.mul dM w' u'| ≤ dM.largest := abs_roundTo_le pm
    rw [em]
    generalize (Arith.mul dM w' u' : ℚ) = m at *
    have cm : convS dM dA (Ext.num m) = Ext.num (convS dM dA m) := by
      unfold convS
      split
      · rfl
      · exact ieeeRound_of_le (bm.trans hMA)
    rw [cm]
    exact ieeeRound_of_abs_le hr

/-- Reset. -/
theorem keepIf_special {x : ℚ} (hd : d ≠ .bool) (hx : d.Holds x) (b : Bool) :
    keepIf d b (Ext.num x) = Ext.num (keepIf d b x) ∧ keepIf d b x = if b then x else 0 := by
  have e : convS .bool d (Arith.ofBool b : Ext) = Ext.num (convS .bool d (Arith.ofBool b)) ∧
      (convS .bool d (Arith.ofBool b) : ℚ) = if b then 1 else 0 := by
    unfold convS
    rw [if_neg hd.symm, if_neg hd.symm]
    have e : roundTo DType.fmt d (if b then 1 else 0) = if b then 1 else 0 := by
      unfold roundTo
      split
      · split
        · exact rnd_one d.fmt_valid
        · exact rnd_zero _
      · rfl
    have e' : (Arith.ofBool b : ℚ) = if b then 1 else 0 := rfl
    refine ⟨?_, by rw [e']; exact e⟩
    cases b
    · exact ieeeRound_of_le (le_largest_of_le_two le_rfl (by norm_num))
    · exact ieeeRound_of_le (le_largest_of_le_two zero_le_one (by norm_num))
  have hm : roundTo DType.fmt d (x * if b then 1 else 0) = if b then x else 0 := by
    cases b
    · simp only [Bool.false_eq_true, if_false, mul_zero]
      unfold roundTo
      split
      · exact rnd_zero _
      · rfl
    · simp only [if_true, mul_one]
      unfold roundTo
      split
      · next h => exact hx.rep h
      · rfl
  unfold keepIf
  rw [e.1, e.2]
  refine ⟨?_, hm⟩
  show d.ieeeRound (x * if b then 1 else 0) = Ext.num (roundTo DType.fmt d (x * if b then 1 else 0))
  cases hf : d.isFloating with
  | false => exact ieeeRound_int hf _
  | true =>
    refine ieeeRound_of_le ?_
    have := d.two_le_largest
    cases b
    · simp only [Bool.false_eq_true, if_false, mul_zero, abs_zero]; linarith
    · simp only [if_true, mul_one]; exact hx.abs_le hf

end Spec

end JaxAct
