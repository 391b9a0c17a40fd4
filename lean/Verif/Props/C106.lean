import Verif.Spec.Readout
import Verif.Props.C15
import Verif.Props.C95

/-!
# C106 An affine readout commutes with ACT

Instead of accumulating a state and applying `y = M x + bias` to the result, one may apply it to every update and
accumulate `y`.
-/

namespace JaxAct
open ACTStates
variable {K : Type} [Field K] [LinearOrder K] [IsStrictOrderedRing K]
attribute [local instance] Arith.exact

namespace Readout
variable {ι : Type} [Fintype ι]

/-- Element `b` of one state and element `b'` of another one, which accumulates the readout. -/
structure Related (R : Readout ι K) (b b' : List Nat) (s t : ACTStates K) : Prop where
  epsilon : t.epsilon = s.epsilon
  depression : t.depression_constant = s.depression_constant
  idx : ∀ j, (R.idx j).take s.probabilities.shape.length = b
  outIdx : R.outIdx.take t.probabilities.shape.length = b'
  defaults : ∃ x, R.Reads s.defaults x ∧ R.out? t.defaults = some (R.value 0 x)
  entries : ∃ p x, s.probabilities.at? b = some p ∧ t.probabilities.at? b' = some p ∧
    (1 - s.epsilon < p → p = 1) ∧ R.Reads s.accumulators x ∧
    R.out? t.accumulators = some (R.value p x)

omit [LinearOrder K] [IsStrictOrderedRing K] in
theorem value_add (R : Readout ι K) (p w : K) (x u : ι → K) :
    R.value p x + w * R.value 1 u = R.value (p + w) (fun j => x j + w * u j) := by
  unfold value
  simp only [mul_add, Finset.sum_add_distrib, Finset.mul_sum]
  have : ∀ j, w * (R.coeff j * u j) = R.coeff j * (w * u j) := fun j => by ring
  simp only [this]
  ring

/-- One round keeps the relation. -/
theorem Related.round {R : Readout ι K} {b b' : List Nat} {s t s' t' : ACTStates K}
    (hR : R.Related b b' s t) (hs : s.WF) (ht : t.WF) (he : 0 < s.epsilon)
    (hd : 0 ≤ s.depression_constant) {x y : Turn K} (hxy : R.Turns b b' x y)
    (h1 : run ⟨s⟩ x.round.ops = .ok ⟨s'⟩) (h2 : run ⟨t⟩ y.round.ops = .ok ⟨t'⟩) :
    R.Related b b' s' t' := by
  obtain ⟨q1, q2, q3, q4, q5, p, a, q6, q7, q8, q9, q10⟩ := hR
  obtain ⟨-, ⟨h, g1, g2⟩, u, g3, g4⟩ := hxy
  obtain ⟨U, wU, st, hU⟩ := round_ok hs h1
  obtain ⟨V, wV, tt, hV⟩ := round_ok ht h2
  have hw : ∀ d, Spec.weight d s.epsilon s.depression_constant p h =
      Spec.weight s.probabilities.dtype s.epsilon s.depression_constant p h := fun d => rfl
  refine ⟨?_, ?_, ?_, ?_, ?_,
    p + Spec.weight s.probabilities.dtype s.epsilon s.depression_constant p h, ?_⟩
  · rw [st.epsilon, tt.epsilon]; exact q1
  · rw [st.depression, tt.depression]; exact q2
  · intro j; rw [st.pshape]; exact q3 j
  · rw [tt.pshape]; exact q4
  · rw [st.defaults, tt.defaults]; exact q5
  obtain ⟨r, n, hr, hn⟩ := hs.cell q6
  obtain ⟨r', n', hr', hn'⟩ := ht.cell q7
  have c1 := st.cell b _ _ _ _ q6 hr hn g1
  have c2 := tt.cell b' _ _ _ _ q7 hr' hn' g2
  simp only [Spec.convS_exact] at c1 c2
  obtain ⟨c1, -, -⟩ := c1
  obtain ⟨c2, -, -⟩ := c2
  rw [Spec.step_prob] at c1 c2
  have hhalt : Spec.isHalted s.probabilities.dtype s.epsilon p = true →
      Spec.weight s.probabilities.dtype s.epsilon s.depression_constant p h = 0 := by
    intro hh
    rw [Spec.weight_of_crosses (Spec.crosses_of_halted hd hh), q8 (Spec.isHalted_iff.1 hh), sub_self]
  refine ⟨fun j => a j + Spec.weight s.probabilities.dtype s.epsilon s.depression_constant p h * u j,
    c1, ?_, ?_, ?_, ?_⟩
  · rw [c2]; simp only [q1, q2]; rfl
  · rw [st.epsilon]
    intro hlt
    have := (Spec.halted_step_iff (d := s.probabilities.dtype) (dI := s.iterations.dtype)
      (dep := s.depression_constant) (c := ⟨p, r, n⟩) (h := h) he).1
      (by rw [Spec.isHalted_iff, Spec.step_prob]; exact hlt)
    rw [Spec.weight_of_crosses this]; ring
  · intro j
    obtain ⟨u', p', x', dA, dU, f1, f2, f3, f4⟩ := st.entry wU (q9 j)
    simp only at f1 f2 f3 f4
    rw [hU _ _ _ _ (g3 j)] at f1
    cases f1
    rw [q3 j, q6] at f2
    cases f2
    rw [q3 j, g1] at f3
    cases f3
    rw [f4, Spec.accStep_eq, Spec.convS_exact]
    split
    · rename_i hh; rw [hhalt hh]; simp
    · rfl
  · obtain ⟨u', p', x', dA, dU, f1, f2, f3, f4⟩ := tt.entry wV q10
    simp only at f1 f2 f3 f4
    rw [hV _ _ _ _ g4] at f1
    cases f1
    rw [q4, q7] at f2
    cases f2
    rw [q4, g2] at f3
    cases f3
    unfold out?
    rw [f4, Spec.accStep_eq, Spec.convS_exact, q1, q2, ← value_add]
    have e1 : Spec.isHalted t.probabilities.dtype s.epsilon p =
      Spec.isHalted s.probabilities.dtype s.epsilon p := rfl
    rw [e1, hw]
    split
    · rename_i hh; rw [hhalt hh]; simp
    · rfl

/-- A reset keeps the relation. -/
theorem Related.reset {R : Readout ι K} {b b' : List Nat} {s t s' t' : ACTStates K}
    (hR : R.Related b b' s t) (hs : s.WF) (ht : t.WF) (he : s.epsilon ≤ 1)
    (h1 : Controller.resetBatches ⟨s⟩ = .ok ⟨s'⟩) (h2 : Controller.resetBatches ⟨t⟩ = .ok ⟨t'⟩) :
    R.Related b b' s' t' := by
  obtain ⟨q1, q2, q3, q4, ⟨x, q5, q5'⟩, p, a, q6, q7, q8, q9, q10⟩ := hR
  have st := Controller.resetBatches_ok hs h1
  have tt := Controller.resetBatches_ok ht h2
  obtain ⟨r, n, hr, hn⟩ := hs.cell q6
  obtain ⟨r', n', hr', hn'⟩ := ht.cell q7
  obtain ⟨c1, -, -⟩ := st.cell b _ _ _ q6 hr hn
  obtain ⟨c2, -, -⟩ := tt.cell b' _ _ _ q7 hr' hn'
  simp only [Spec.resetCell, Spec.keepIf_eq] at c1 c2
  have e1 : Spec.isHalted t.probabilities.dtype t.epsilon p =
      Spec.isHalted s.probabilities.dtype s.epsilon p := by rw [q1]; rfl
  rw [e1] at c2
  have k1 : ∀ j, entry? s'.accumulators (R.name j) (R.leaf j) (R.idx j) =
      some (if Spec.isHalted s.probabilities.dtype s.epsilon p then x j else a j) := by
    intro j
    obtain ⟨x', p', f1, f2, f3⟩ := st.entry hs (q9 j)
    rw [q5 j] at f1
    cases f1
    rw [q3 j, q6] at f2
    cases f2
    exact f3
  have k2 : R.out? t'.accumulators = some (if Spec.isHalted s.probabilities.dtype s.epsilon p
      then R.value 0 x else R.value p a) := by
    obtain ⟨x', p', f1, f2, f3⟩ := tt.entry ht q10
    have f1' : R.out? t.defaults = some x' := f1
    rw [q5'] at f1'
    cases f1'
    rw [q4, q7] at f2
    cases f2
    unfold out?
    rw [f3, Spec.resetEntry, e1]
  refine ⟨by rw [st.epsilon, tt.epsilon]; exact q1, by rw [st.depression, tt.depression]; exact q2,
    fun j => by rw [st.pshape]; exact q3 j, by rw [tt.pshape]; exact q4,
    ⟨x, by rw [st.defaults]; exact q5, by rw [tt.defaults]; exact q5'⟩, ?_⟩
  cases hh : Spec.isHalted s.probabilities.dtype s.epsilon p with
  | true =>
    simp only [hh, Bool.not_true, if_true, Bool.false_eq_true, if_false] at c1 c2 k1 k2
    refine ⟨0, x, c1, c2, fun hlt => ?_, k1, k2⟩
    rw [st.epsilon] at hlt
    linarith
  | false =>
    simp only [hh, Bool.not_false, if_true, Bool.false_eq_true, if_false] at c1 c2 k1 k2
    refine ⟨p, a, c1, c2, fun hlt => ?_, k1, k2⟩
    rw [st.epsilon] at hlt
    exact q8 hlt

/-- The relation is kept by any number of turns. -/
theorem Related.turns {R : Readout ι K} {b b' : List Nat} {ts ts' : List (Turn K)}
    (hts : List.Forall₂ (R.Turns b b') ts ts') : ∀ {s t : ACTStates K} {c c' : Controller K},
    R.Related b b' s t → s.WF → t.WF → 0 < s.epsilon → s.epsilon ≤ 1 → 0 ≤ s.depression_constant →
    run ⟨s⟩ (turnOps ts) = .ok c → run ⟨t⟩ (turnOps ts') = .ok c' →
    R.Related b b' c.state c'.state := by
  induction hts with
  | nil =>
    intro s t c c' hR _ _ _ _ _ h1 h2
    cases h1
    cases h2
    exact hR
  | @cons x y ts ts' hxy _ ih =>
    intro s t c c' hR hs ht he0 he1 hd h1 h2
    simp only [turnOps, List.flatMap_cons, Turn.ops] at h1 h2
    rw [run_append, bind_ok] at h1 h2
    obtain ⟨⟨s2⟩, h1, h1'⟩ := h1
    obtain ⟨⟨t2⟩, h2, h2'⟩ := h2
    rw [run_append, bind_ok] at h1 h2
    obtain ⟨⟨s1⟩, h1, h1''⟩ := h1
    obtain ⟨⟨t1⟩, h2, h2''⟩ := h2
    have r1 := hR.round hs ht he0 hd hxy h1 h2
    have ws := run_wf hs h1
    have wt := run_wf ht h2
    obtain ⟨U, -, st, -⟩ := round_ok hs h1
    have e1 : s1.epsilon = s.epsilon := st.epsilon
    have e2 : s1.depression_constant = s.depression_constant := st.depression
    rw [← hxy.reset] at h2''
    cases hr : x.reset with
    | false =>
      rw [hr] at h1'' h2''
      cases h1''
      cases h2''
      exact ih r1 ws wt (by rw [e1]; exact he0) (by rw [e1]; exact he1) (by rw [e2]; exact hd) h1' h2'
    | true =>
      rw [hr] at h1'' h2''
      simp only [if_true, run, bind_ok, Op.call] at h1'' h2''
      obtain ⟨⟨s3⟩, k1, k2⟩ := h1''
      obtain ⟨⟨t3⟩, k3, k4⟩ := h2''
      cases k2
      cases k4
      have rs := Controller.resetBatches_ok ws k1
      have rt := Controller.resetBatches_ok wt k3
      exact ih (r1.reset ws wt (by rw [e1]; exact he1) k1 k3) (Controller.ResetStep.wf ws rs)
        (Controller.ResetStep.wf wt rt)
        (by rw [rs.epsilon, e1]; exact he0) (by rw [rs.epsilon, e1]; exact he1)
        (by rw [rs.depression, e2]; exact hd) h1' h2'

end Readout

/-- C106.  Two controllers with the same `epsilon` and `depression_constant` are run by the same number of turns,
each a round and possibly a `reset_batches`.  Element `b'` of the second gets the halting probabilities of element
`b` of the first, and one of its entries gets `∑ j, coeff j * u j + bias` wherever the first is given the updates
`u j` for some entries, of any accumulators and in any number.  If that entry starts as the readout of the others, and
so do the defaults, without the bias, then afterwards it is the readout of what the first accumulated, with the bias
counted as often as probability was spent. -/
theorem C106_readout {ι : Type} [Fintype ι] (R : Readout ι K) {s t : ACTStates K} (hs : s.WF) (ht : t.WF)
    (he0 : 0 < s.epsilon) (he1 : s.epsilon ≤ 1) (hdep : 0 ≤ s.depression_constant)
    (heps : t.epsilon = s.epsilon) (hdc : t.depression_constant = s.depression_constant) {b b' : List Nat}
    (hidx : ∀ j, (R.idx j).take s.probabilities.shape.length = b)
    (hout : R.outIdx.take t.probabilities.shape.length = b')
    (hp : s.probabilities.at? b = some 0) (hp' : t.probabilities.at? b' = some 0) {a d : ι → K}
    (ha : R.Reads s.accumulators a) (ha' : R.out? t.accumulators = some (∑ j, R.coeff j * a j))
    (hd : R.Reads s.defaults d) (hd' : R.out? t.defaults = some (∑ j, R.coeff j * d j))
    {ts ts' : List (Turn K)} (hts : List.Forall₂ (R.Turns b b') ts ts') {c c' : Controller K}
    (hrun : run ⟨s⟩ (turnOps ts) = .ok c) (hrun' : run ⟨t⟩ (turnOps ts') = .ok c') :
    ∃ p x, c.probabilities.at? b = some p ∧ c'.probabilities.at? b' = some p ∧
      R.Reads c.accumulators x ∧
      R.out? c'.accumulators = some (∑ j, R.coeff j * x j + p * R.bias) ∧
      (c.haltedBatches.at? b = some true →
        R.out? c'.accumulators = some (∑ j, R.coeff j * x j + R.bias)) := by
  have h0 : ∀ x : ι → K, R.value 0 x = ∑ j, R.coeff j * x j := fun x => by
    unfold Readout.value; rw [MulZeroClass.zero_mul, add_zero]
  have hR : R.Related b b' s t := by
    refine ⟨heps, hdc, hidx, hout, ⟨d, hd, by rw [h0]; exact hd'⟩, 0, a, hp, hp', fun hlt => ?_, ha,
      by rw [h0]; exact ha'⟩
    linarith
  obtain ⟨-, -, -, -, -, p, x, e1, e2, e3, e4, e5⟩ := hR.turns hts hs ht he0 he1 hdep hrun hrun'
  refine ⟨p, x, e1, e2, e4, e5, fun hh => ?_⟩
  obtain ⟨q, f1, f2⟩ := (halted_iff (run_wf hs hrun).floating).1 hh
  have f1' : c.state.probabilities.at? b = some q := f1
  rw [e1] at f1'
  cases f1'
  have := e3 (Spec.isHalted_iff.1 f2)
  subst this
  have e5' : R.out? c'.accumulators = some (R.value 1 x) := e5
  rw [e5']
  unfold Readout.value
  rw [one_mul]

section Example
open Fixtures

/-- `y = 2 * x + 5` of the entry of element 0, found as the entry of element 1 of another controller. -/
def readout : Readout Unit ℚ where
  name _ := "out"
  leaf _ := 0
  idx _ := [0, 0]
  coeff _ := 2
  bias := 5
  outName := "out"
  outLeaf := 0
  outIdx := [1, 0]

/-- Element 0 halts in the third turn and is reset, then it runs for another turn. -/
def readSource : List (Turn ℚ) :=
  [⟨sround [2/5, 1/5] 3 6, false⟩, ⟨sround [2/5, 1] 1 6, true⟩, ⟨sround [2/5, 1] 7 6, true⟩,
    ⟨sround [1/2, 1] 4 0, false⟩]

/-- Element 1 gets the readout of the updates. -/
def readTarget : List (Turn ℚ) :=
  [⟨sround [0, 2/5] 0 11, false⟩, ⟨sround [1, 2/5] 0 7, true⟩, ⟨sround [0, 2/5] 8 19, true⟩,
    ⟨sround [1/7, 1/2] 4 13, false⟩]

theorem read_turns : List.Forall₂ (readout.Turns [0] [1]) readSource readTarget := by
  refine .cons ⟨rfl, ⟨2/5, by decide +kernel, by decide +kernel⟩, fun _ => 3, fun () => by decide +kernel,
    by decide +kernel⟩ (.cons ⟨rfl, ⟨2/5, by decide +kernel, by decide +kernel⟩, fun _ => 1,
    fun () => by decide +kernel, by decide +kernel⟩ (.cons ⟨rfl, ⟨2/5, by decide +kernel,
    by decide +kernel⟩, fun _ => 7, fun () => by decide +kernel, by decide +kernel⟩ (.cons ⟨rfl, ⟨1/2,
    by decide +kernel, by decide +kernel⟩, fun _ => 4, fun () => by decide +kernel,
    by decide +kernel⟩ .nil)))

/-- `C106_readout` applies: `simple` satisfies its hypotheses and both runs succeed.  Before the reset the third
turn gives `3` and `2 * 3 + 5`; at the end element 0 has spent half of its probability and the bias counts half. -/
theorem C106_example :
    (∃ c c', run ⟨simple⟩ (turnOps readSource) = .ok c ∧ run ⟨simple⟩ (turnOps readTarget) = .ok c' ∧
      ∃ p x, c.probabilities.at? [0] = some p ∧ c'.probabilities.at? [1] = some p ∧
        readout.Reads c.accumulators x ∧
        readout.out? c'.accumulators = some (∑ j, readout.coeff j * x j + p * readout.bias)) ∧
    obs (run ⟨simple⟩ (turnOps (readSource.take 2) ++ (sround [2/5, 1] 7 6).ops)) (fun c =>
      some (c.haltedBatches.at? [0], entry? c.accumulators "out" 0 [0, 0])) = some (some true, some 3) ∧
    obs (run ⟨simple⟩ (turnOps (readTarget.take 2) ++ (sround [0, 2/5] 8 19).ops)) (fun c =>
      some (c.haltedBatches.at? [1], entry? c.accumulators "out" 0 [1, 0])) = some (some true, some 11) ∧
    obs (run ⟨simple⟩ (turnOps readSource)) (fun c =>
      some (c.probabilities.at? [0], entry? c.accumulators "out" 0 [0, 0])) = some (some (1/2), some 2) ∧
    obs (run ⟨simple⟩ (turnOps readTarget)) (fun c =>
      some (c.probabilities.at? [1], entry? c.accumulators "out" 0 [1, 0])) =
      some (some (1/2), some (2 * 2 + 1/2 * 5)) := by
  refine ⟨?_, by decide +kernel, by decide +kernel, by decide +kernel, by decide +kernel⟩
  have h1 : succeeds (run ⟨simple⟩ (turnOps readSource)) = true := by decide +kernel
  have h2 : succeeds (run ⟨simple⟩ (turnOps readTarget)) = true := by decide +kernel
  cases e1 : run ⟨simple⟩ (turnOps readSource) with
  | error e => rw [e1] at h1; cases h1
  | ok c =>
    cases e2 : run ⟨simple⟩ (turnOps readTarget) with
    | error e => rw [e2] at h2; cases h2
    | ok c' =>
      obtain ⟨p, x, f1, f2, f3, f4, -⟩ := C106_readout readout simple_wf simple_wf (by decide +kernel)
        (by decide +kernel) (by decide +kernel) rfl rfl (b := [0]) (b' := [1]) (fun _ => rfl) rfl
        (by decide +kernel) (by decide +kernel) (a := fun _ => 0) (d := fun _ => 0)
        (fun () => by decide +kernel) (by decide +kernel) (fun () => by decide +kernel) (by decide +kernel)
        read_turns e1 e2
      exact ⟨c, c', rfl, rfl, p, x, f1, f2, f3, f4⟩

end Example

end JaxAct
