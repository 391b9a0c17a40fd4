import Verif.Spec.Mirror
import Verif.Props.C109
import Verif.Props.C60
import Verif.Props.C95

/-!
# C110 Positive and negative numbers are treated alike

Accumulating updates of the opposite sign gives the opposite numbers, to the last digit.
-/

namespace JaxAct
open PyTree ACTStates

section General
variable {α : Type} [Arith α] {neg : α → α}

namespace OddArith
variable (L : OddArith neg)
include L

theorem conv (d e : DType) (x : α) : convS d e (neg x) = neg (convS d e x) := by
  unfold convS
  split
  · rfl
  · exact L.cast e x

theorem accStep (d dA dU : DType) (eps dep p h a u : α) :
    Spec.accStep d dA dU eps dep p h (neg a) (neg u) = neg (Spec.accStep d dA dU eps dep p h a u) := by
  unfold Spec.accStep
  split
  · rfl
  · simp only [L.conv, L.mul, L.add]

end OddArith

/-- An element of one state and one of another, with opposite entries. -/
structure MirrorStates (neg : α → α) (b b' : List Nat) (q q' : Place) (s t : ACTStates α) : Prop where
  wf : s.WF
  wf' : t.WF
  epsilon : t.epsilon = s.epsilon
  depression : t.depression_constant = s.depression_constant
  dtype : t.probabilities.dtype = s.probabilities.dtype
  cell : ∃ p r, s.probabilities.at? b = some p ∧ t.probabilities.at? b' = some p ∧
    s.residuals.at? b = some r ∧ t.residuals.at? b' = some r
  idx : q.idx.take s.probabilities.shape.length = b
  idx' : q'.idx.take t.probabilities.shape.length = b'
  entry : ∃ ta ta' a, leaf? s.accumulators q.name q.leaf = some (.tensor ta) ∧
    leaf? t.accumulators q'.name q'.leaf = some (.tensor ta') ∧ ta'.dtype = ta.dtype ∧
    ta.at? q.idx = some a ∧ ta'.at? q'.idx = some (neg a)
  default : ∃ x, entry? s.defaults q.name q.leaf q.idx = some x ∧
    entry? t.defaults q'.name q'.leaf q'.idx = some (neg x)

namespace MirrorStates
variable {b b' : List Nat} {q q' : Place} {s t s' t' : ACTStates α}

/-- A round keeps the relation. -/
theorem round (L : OddArith neg) (h : MirrorStates neg b b' q q' s t) {x y : Turn α}
    (hxy : Mirrored neg b b' q q' x y) (h1 : run ⟨s⟩ x.round.ops = .ok ⟨s'⟩)
    (h2 : run ⟨t⟩ y.round.ops = .ok ⟨t'⟩) : MirrorStates neg b b' q q' s' t' := by
  obtain ⟨wf, wf', he, hdp, hdt, ⟨p, r, p1, p2, r1, r2⟩, i1, i2, ⟨ta, ta', a, l1, l2, l3, l4, l5⟩, hdef⟩ := h
  obtain ⟨-, hdt', ⟨z, z1, z2⟩, d, u, u1, u2⟩ := hxy
  have d1 : s'.defaults = s.defaults := by
    obtain ⟨U, -, st, -⟩ := round_ok_get wf h1; exact st.defaults
  have d2 : t'.defaults = t.defaults := by
    obtain ⟨U, -, st, -⟩ := round_ok_get wf' h2; exact st.defaults
  obtain ⟨a1, a2, a3, a4, a5, a6, y1, dU1, v1, n1, a7, a8, a9, a10, tb, a11, a12, a13⟩ :=
    PausedStates.half wf h1 p1 r1 i1 ⟨ta, l1, rfl, l4⟩
  obtain ⟨b1, b2, b3, b4, b5, -, y2, dU2, v2, n2, b7, b8, b9, b10, tb', b11, b12, b13⟩ :=
    PausedStates.half wf' h2 p2 r2 i2 ⟨ta', l2, rfl, l5⟩
  rw [z1] at a7
  rw [z2] at b7
  cases a7
  cases b7
  obtain ⟨rfl, rfl⟩ := a8 _ _ u1
  obtain ⟨rfl, rfl⟩ := b8 _ _ u2
  rw [hdt, he, hdp, hdt'] at b9 b10 b13
  rw [l3, L.accStep] at b13
  exact ⟨a1, b1, by rw [a2, b2, he], by rw [a3, b3, hdp], by rw [a4, b4, hdt], ⟨_, _, a9, b9, a10, b10⟩,
    by rw [a5]; exact i1, by rw [b5]; exact i2, ⟨tb, tb', _, a11, b11, by rw [a12, b12, l3], a13, b13⟩,
    by rw [d1, d2]; exact hdef⟩

/-- So does a reset. -/
theorem reset (h : MirrorStates neg b b' q q' s t) (h1 : Controller.resetBatches ⟨s⟩ = .ok ⟨s'⟩)
    (h2 : Controller.resetBatches ⟨t⟩ = .ok ⟨t'⟩) : MirrorStates neg b b' q q' s' t' := by
  obtain ⟨wf, wf', he, hdp, hdt, ⟨p, r, p1, p2, r1, r2⟩, i1, i2, ⟨ta, ta', a, l1, l2, l3, l4, l5⟩, x, x1, x2⟩ := h
  have st := Controller.resetBatches_ok wf h1
  have tt := Controller.resetBatches_ok wf' h2
  obtain ⟨-, n, -, hn⟩ := wf.cell p1
  obtain ⟨-, n', -, hn'⟩ := wf'.cell p2
  obtain ⟨c1, c2, -⟩ := st.cell b _ _ _ p1 r1 hn
  obtain ⟨e1, e2, -⟩ := tt.cell b' _ _ _ p2 r2 hn'
  rw [hdt, he] at e1 e2
  refine ⟨Controller.ResetStep.wf wf st, Controller.ResetStep.wf wf' tt, by rw [st.epsilon, tt.epsilon, he],
    by rw [st.depression, tt.depression, hdp], by rw [st.pdtype, tt.pdtype, hdt], ⟨_, _, c1, e1, c2, e2⟩,
    by rw [st.pshape]; exact i1, by rw [tt.pshape]; exact i2, ?_,
    by rw [st.defaults, tt.defaults]; exact ⟨x, x1, x2⟩⟩
  rcases st.leaf wf (n := q.name) (k := q.leaf) with ⟨g, -⟩ | ⟨sa, sd, sa', g1, g2, g3, -, g4⟩
  · rw [l1] at g; cases g
  rcases tt.leaf wf' (n := q'.name) (k := q'.leaf) with ⟨k, -⟩ | ⟨ua, ud, ua', k1, k2, k3, -, k4⟩
  · rw [l2] at k; cases k
  rw [l1] at g1
  rw [l2] at k1
  cases g1
  cases k1
  obtain ⟨m1, x1, x1'⟩ := entry?_eq_some.1 x1
  obtain ⟨m2, x2, x2'⟩ := entry?_eq_some.1 x2
  rw [g2] at x1
  rw [k2] at x2
  cases x1
  cases x2
  have y1 := g4.entry q.idx a x p l4 x1' (by rw [i1]; exact p1)
  have y2 := k4.entry q'.idx (neg a) (neg x) p l5 x2' (by rw [i2]; exact p2)
  refine ⟨sa', ua', _, g3, k3, by rw [g4.dtype, k4.dtype, l3], y1, ?_⟩
  rw [y2, hdt, he]
  unfold Spec.resetEntry
  split <;> rfl

/-- Any turns. -/
theorem turns (L : OddArith neg) {ts ts' : List (Turn α)} (hts : List.Forall₂ (Mirrored neg b b' q q') ts ts') :
    ∀ {s t : ACTStates α} {c c' : Controller α}, MirrorStates neg b b' q q' s t →
    run ⟨s⟩ (turnOps ts) = .ok c → run ⟨t⟩ (turnOps ts') = .ok c' →
    MirrorStates neg b b' q q' c.state c'.state := by
  induction hts with
  | nil =>
    intro s t c c' h h1 h2
    cases h1
    cases h2
    exact h
  | @cons x y ts ts' hxy _ ih =>
    intro s t c c' h h1 h2
    simp only [turnOps, List.flatMap_cons, Turn.ops] at h1 h2
    rw [run_append, bind_ok] at h1 h2
    obtain ⟨⟨s2⟩, h1, h1'⟩ := h1
    obtain ⟨⟨t2⟩, h2, h2'⟩ := h2
    rw [run_append, bind_ok] at h1 h2
    obtain ⟨⟨s1⟩, h1, h1''⟩ := h1
    obtain ⟨⟨t1⟩, h2, h2''⟩ := h2
    have r1 := h.round L hxy h1 h2
    rw [hxy.reset] at h2''
    cases hr : x.reset with
    | false =>
      rw [hr] at h1'' h2''
      cases h1''
      cases h2''
      exact ih r1 h1' h2'
    | true =>
      rw [hr] at h1'' h2''
      simp only [if_true, run, bind_ok, Op.call] at h1'' h2''
      obtain ⟨⟨s3⟩, k1, k2⟩ := h1''
      obtain ⟨⟨t3⟩, k3, k4⟩ := h2''
      cases k2
      cases k4
      exact ih (r1.reset k1 k3) h1' h2'

end MirrorStates

/-- C110.  Any arithmetic in which the sign plays no role.  Two elements, of two controllers or of one, are run by the
same number of turns, each a round and possibly a `reset_batches`.  They start with the same cumulative probability and
residual and get the same halting probabilities.  An accumulator entry of the second starts as the opposite of one of
the first, so does its default, and it gets the opposite updates.  Afterwards the bookkeeping of the two is still the
same, and the entries are still opposite. -/
theorem C110_mirror (L : OddArith neg) {s t : ACTStates α} (hs : s.WF) (ht : t.WF) (heps : t.epsilon = s.epsilon)
    (hdc : t.depression_constant = s.depression_constant)
    (hpd : t.probabilities.dtype = s.probabilities.dtype) {b b' : List Nat} {q q' : Place} {p r a x : α}
    (hp : s.probabilities.at? b = some p) (hp' : t.probabilities.at? b' = some p)
    (hr : s.residuals.at? b = some r) (hr' : t.residuals.at? b' = some r)
    (hidx : q.idx.take s.probabilities.shape.length = b)
    (hidx' : q'.idx.take t.probabilities.shape.length = b') {ta ta' : Tensor α}
    (hl : leaf? s.accumulators q.name q.leaf = some (.tensor ta))
    (hl' : leaf? t.accumulators q'.name q'.leaf = some (.tensor ta')) (hta : ta'.dtype = ta.dtype)
    (ha : ta.at? q.idx = some a) (ha' : ta'.at? q'.idx = some (neg a))
    (hx : entry? s.defaults q.name q.leaf q.idx = some x)
    (hx' : entry? t.defaults q'.name q'.leaf q'.idx = some (neg x)) {ts ts' : List (Turn α)}
    (hts : List.Forall₂ (Mirrored neg b b' q q') ts ts') {c c' : Controller α}
    (hrun : run ⟨s⟩ (turnOps ts) = .ok c) (hrun' : run ⟨t⟩ (turnOps ts') = .ok c') :
    c.haltedBatches.at? b = c'.haltedBatches.at? b' ∧ c.probabilities.at? b = c'.probabilities.at? b' ∧
    c.residuals.at? b = c'.residuals.at? b' ∧ ∃ a, entry? c.accumulators q.name q.leaf q.idx = some a ∧
      entry? c'.accumulators q'.name q'.leaf q'.idx = some (neg a) := by
  obtain ⟨wf, wf', he, -, hdt, ⟨p, r, p1, p2, r1, r2⟩, -, -, ⟨ta, ta', a, l1, l2, -, l4, l5⟩, -⟩ :=
    MirrorStates.turns L hts ⟨hs, ht, heps, hdc, hpd, ⟨p, r, hp, hp', hr, hr'⟩, hidx, hidx',
      ⟨ta, ta', a, hl, hl', hta, ha, ha'⟩, x, hx, hx'⟩ hrun hrun'
  refine ⟨?_, p1.trans p2.symm, r1.trans r2.symm, a, entry?_eq_some.2 ⟨_, l1, l4⟩, entry?_eq_some.2 ⟨_, l2, l5⟩⟩
  rw [(halted_iff (s := c.state) wf.floating).2 ⟨p, p1, rfl⟩,
    (halted_iff (s := c'.state) wf'.floating).2 ⟨p, p2, rfl⟩, hdt, he]

end General

/-- C110 covers exact arithmetic, -/
theorem C110_exact {K : Type} [Field K] [LinearOrder K] [IsStrictOrderedRing K] :
    @OddArith K (Arith.exact K) Neg.neg :=
  @OddArith.mk K (Arith.exact K) Neg.neg (fun _ x y => (neg_add x y).symm) (fun _ x y => mul_neg x y) (fun _ _ => rfl)

theorem roundTo_neg (F : DType → Fmt) (d : DType) (x : ℚ) : Arith.roundTo F d (-x) = -Arith.roundTo F d x := by
  unfold Arith.roundTo
  split
  · exact Fmt.rnd_neg x
  · rfl

/-- rounding to nearest even in any formats, -/
theorem C110_rounded (F : DType → Fmt) : @OddArith ℚ (Arith.rounded F) Neg.neg :=
  @OddArith.mk ℚ (Arith.rounded F) Neg.neg
    (fun d x y => (congrArg (Arith.roundTo F d) (neg_add x y).symm).trans (roundTo_neg F d _))
    (fun d x y => (congrArg (Arith.roundTo F d) (mul_neg x y)).trans (roundTo_neg F d _))
    (fun d x => roundTo_neg F d x)

/-- and IEEE 754 arithmetic with overflow, infinities and NaN. -/
theorem C110_special : @OddArith Ext ieeeSpecial Ext.neg := by
  have hR : ∀ (d : DType) x, d.ieeeRound (-x) = (d.ieeeRound x).neg := by
    intro d x
    have hl : 0 < d.largest := by cases d <;> norm_num [DType.largest]
    unfold DType.ieeeRound
    split
    · simp only [Fmt.rnd_neg]
      by_cases h1 : d.largest < d.fmt.rnd x
      · rw [if_neg (by linarith), if_pos (by linarith), if_pos h1]; rfl
      · by_cases h2 : d.fmt.rnd x < -d.largest
        · rw [if_pos (by linarith), if_neg h1, if_pos h2]; rfl
        · rw [if_neg (by linarith), if_neg (by linarith), if_neg h1, if_neg h2]; rfl
    · rfl
  refine @OddArith.mk Ext ieeeSpecial Ext.neg (fun d x y => ?_) (fun d x y => ?_) (fun d x => ?_)
  · show Ext.add d.ieeeRound x.neg y.neg = (Ext.add d.ieeeRound x y).neg
    cases x <;> cases y <;> simp only [Ext.neg, Ext.add]
    · rw [← neg_add, hR]; rfl
    · rename_i u v; cases u <;> cases v <;> rfl
  · show Ext.mul d.ieeeRound x y.neg = (Ext.mul d.ieeeRound x y).neg
    cases x <;> cases y <;> simp only [Ext.neg, Ext.mul, Ext.infMul]
    · rw [mul_neg, hR]; rfl
    · rename_i u v
      split
      · rfl
      · cases v <;> simp
    · rename_i u v
      by_cases hv : v = 0
      · simp [hv]
      · rw [if_neg (by simpa using hv), if_neg hv]
        have : decide (-v < 0) = !decide (v < 0) := by
          rcases lt_or_gt_of_ne hv with h | h
          · simp [h, le_of_lt h]
          · simp [h, le_of_lt h]
        rw [this]
        cases u <;> simp
    · rename_i u v; cases u <;> cases v <;> rfl
  · show Ext.round d.ieeeRound x.neg = (Ext.round d.ieeeRound x).neg
    cases x
    · exact hR d _
    · rfl
    · rfl

section Example
open Fixtures
attribute [local instance] ieee

/-- Element 0 halts in the second turn and is reset, then it runs for another turn. -/
def plusTurns : List (Turn ℚ) :=
  [⟨sround [1/10, 1/5] 3 6, false⟩, ⟨sround [19/20, 1] (1/3) 6, true⟩, ⟨sround [7/10, 1] 7 6, false⟩]

/-- Element 1 gets the opposite updates. -/
def minusTurns : List (Turn ℚ) :=
  [⟨sround [0, 1/10] 0 (-3), false⟩, ⟨sround [1, 19/20] 0 (-1/3), true⟩, ⟨sround [0, 7/10] 8 (-7), false⟩]

theorem plus_minus : List.Forall₂ (Mirrored Neg.neg [0] [1] ⟨"out", 0, [0, 0]⟩ ⟨"out", 0, [1, 0]⟩) plusTurns
    minusTurns := by
  refine .cons ⟨rfl, rfl, ⟨1/10, by decide +kernel, by decide +kernel⟩, .f32, 3, ⟨_, rfl, rfl, by decide +kernel⟩,
    ⟨_, rfl, rfl, by decide +kernel⟩⟩ (.cons ⟨rfl, rfl, ⟨19/20, by decide +kernel, by decide +kernel⟩, .f32, 1/3,
    ⟨_, rfl, rfl, by decide +kernel⟩, ⟨_, rfl, rfl, by decide +kernel⟩⟩ (.cons ⟨rfl, rfl, ⟨7/10, by decide +kernel,
    by decide +kernel⟩, .f32, 7, ⟨_, rfl, rfl, by decide +kernel⟩, ⟨_, rfl, rfl, by decide +kernel⟩⟩ .nil))

/-- In IEEE arithmetic: the theorem applies to the two.  Before the reset the element is halted with a number that is
not `3 * 1/10 + 1/3 * 9/10`. -/
theorem C110_example : (∃ c c', run ⟨simple⟩ (turnOps plusTurns) = .ok c ∧
      run ⟨simple⟩ (turnOps minusTurns) = .ok c' ∧ c.probabilities.at? [0] = c'.probabilities.at? [1] ∧
      ∃ a, entry? c.accumulators "out" 0 [0, 0] = some a ∧ entry? c'.accumulators "out" 0 [1, 0] = some (-a)) ∧
    obs (run ⟨simple⟩ (turnOps (plusTurns.take 1) ++ (sround [19/20, 1] (1/3) 6).ops)) (fun c =>
      some (c.haltedBatches.at? [0], decide (entry? c.accumulators "out" 0 [0, 0] = some (3/10 + 1/3 * (9/10))))) =
      some (some true, false) ∧
    obs (run ⟨simple⟩ (turnOps plusTurns)) (fun c =>
      some (c.haltedBatches.at? [0], c.iterations.at? [0])) = some (some false, some 1) := by
  refine ⟨?_, by decide +kernel, by decide +kernel⟩
  have h1 : succeeds (run ⟨simple⟩ (turnOps plusTurns)) = true := by decide +kernel
  have h2 : succeeds (run ⟨simple⟩ (turnOps minusTurns)) = true := by decide +kernel
  cases e1 : run ⟨simple⟩ (turnOps plusTurns) with
  | error e => rw [e1] at h1; cases h1
  | ok c =>
    cases e2 : run ⟨simple⟩ (turnOps minusTurns) with
    | error e => rw [e2] at h2; cases h2
    | ok c' =>
      obtain ⟨-, k2, -, k4⟩ := C110_mirror (C110_rounded DType.fmt) simple_wf simple_wf rfl rfl rfl (b := [0])
        (b' := [1]) (q := ⟨"out", 0, [0, 0]⟩) (q' := ⟨"out", 0, [1, 0]⟩) (p := 0) (r := 0) (a := 0) (x := 0)
        (by decide +kernel) (by decide +kernel) (by decide +kernel) (by decide +kernel) rfl rfl (hl := rfl)
        (hl' := rfl) (hta := rfl) (by decide +kernel) (by decide +kernel) (by decide +kernel) (by decide +kernel)
        plus_minus e1 e2
      exact ⟨c, c', rfl, rfl, k2, k4⟩

end Example

end JaxAct
