import Verif.Props.C69
import Verif.Spec.TrainingSignal
import Mathlib.Analysis.Calculus.FDeriv.Mul
import Mathlib.Analysis.Calculus.FDeriv.Add
import Mathlib.Analysis.Calculus.FDeriv.Prod
import Mathlib.Analysis.Calculus.FDeriv.Pi
import Mathlib.Analysis.Calculus.FDeriv.Comp
import Mathlib.Topology.Order.Lattice

/-! # C89 The training signal

A model is trained by differentiating a loss of what the controller returns with respect to the
parameters of the layer.  The halting probabilities and the updates of every step are functions of
those parameters; the number of steps is not differentiable but locally constant.  The derivative of
the loss is the one of Graves' paper. -/

namespace JaxAct
attribute [local instance] Arith.exact
open ACTStates Topology

namespace Graves
variable {P : Type} [NormedAddCommGroup P] [NormedSpace ℝ P]

theorem continuous_clip : Continuous (clip : ℝ → ℝ) :=
  continuous_const.min (continuous_const.max continuous_id)

omit [NormedSpace ℝ P] in
theorem crossed_near {eps dep : ℝ} (he : 0 ≤ 1 - eps) (hd : 0 ≤ dep) {h : P → Nat → ℝ} {n : Nat}
    {x : P} (hcont : ∀ j, j < n → ContinuousAt (fun y => h y j) x)
    (hc : Crossed eps dep (h x) n)
    (hlt : cumDemand dep (h x) (steps eps dep (h x) n - 1) < 1 - eps) :
    ∀ᶠ y in 𝓝 x, Crossed eps dep (h y) n ∧ steps eps dep (h y) n = steps eps dep (h x) n := by
  obtain ⟨δ, hδ, hst⟩ := steps_stable he hd hc hlt
  have : ∀ᶠ y in 𝓝 x, ∀ j ∈ Finset.range n, |h y j - h x j| ≤ δ := by
    rw [Filter.eventually_all_finset]
    intro j hj
    filter_upwards [(hcont j (Finset.mem_range.1 hj)).eventually (Metric.ball_mem_nhds _ hδ)]
      with y hy
    exact (Real.dist_eq (h y j) (h x j) ▸ Metric.mem_ball.1 hy).le
  filter_upwards [this] with y hy
  exact hst _ fun j hj => hy j (Finset.mem_range.2 hj)

omit [NormedSpace ℝ P] in
theorem not_crossed_near {eps dep : ℝ} (hd : 0 ≤ dep) {h : P → Nat → ℝ} {n : Nat}
    {x : P} (hcont : ∀ j, j < n → ContinuousAt (fun y => h y j) x)
    (hlt : cumDemand dep (h x) n < 1 - eps) : ∀ᶠ y in 𝓝 x, ¬ Crossed eps dep (h y) n := by
  have : ContinuousAt (fun y => cumDemand dep (h y) n) x := by
    unfold cumDemand
    refine tendsto_finsetSum _ fun j hj => ?_
    exact (continuous_clip.continuousAt.comp (hcont j (Finset.mem_range.1 hj))).const_mul dep
  filter_upwards [this.eventually (Iio_mem_nhds hlt)] with y hy
  rw [crossed_iff hd, not_lt]
  exact (Set.mem_Iio.1 hy).le

theorem hasFDerivAt_clip {f : P → ℝ} {f' : P →L[ℝ] ℝ} {x : P} (hf : HasFDerivAt f f' x)
    (h0 : 0 < f x) (h1 : f x < 1) : HasFDerivAt (fun y => clip (f y)) f' x := by
  refine hf.congr_of_eventuallyEq ?_
  filter_upwards [hf.continuousAt.eventually (Ioo_mem_nhds h0 h1)] with y hy
  exact Spec.clamp_of_mem (Set.mem_Ioo.1 hy).1.le (Set.mem_Ioo.1 hy).2.le

end Graves

variable {P : Type} [NormedAddCommGroup P] [NormedSpace ℝ P]

/-- Where batch element `b` stands: it halted at step `m` (from zero) with a residual above epsilon,
or it is running with an accumulated probability below one minus epsilon.  Only the two ties
(residual equal to epsilon, probability equal to one minus epsilon) are excluded. -/
def Controller.Stands (c : Controller ℝ) (b : List Nat) : Option Nat → Prop
  | some m => c.haltedBatches.at? b = some true ∧ c.iterations.at? b = some ((m + 1 : Nat) : ℝ) ∧
      ∃ r, c.residuals.at? b = some r ∧ c.state.epsilon < r
  | none => ∃ p, c.probabilities.at? b = some p ∧ p < 1 - c.state.epsilon

/-- The step before which the halting probabilities of an element matter. -/
def active (n : Nat) : Option Nat → Nat
  | some m => m
  | none => n

/-- Batch element `b` is fresh in `s`, and the rounds `rs y` give it the halting probabilities
`h y`.  They are continuous at `x`; those before the last step are differentiable there, with values
strictly between zero and one. -/
structure ElementAt (s : ACTStates ℝ) (n : Nat) (rs : P → List (Round ℝ)) (x : P) (b : List Nat)
    (last : Option Nat) (h : P → Nat → ℝ) (h' : Nat → P →L[ℝ] ℝ) : Prop where
  probability : s.probabilities.at? b = some 0
  residual : s.residuals.at? b = some 0
  iteration : s.iterations.at? b = some 0
  halting : ∀ᶠ y in 𝓝 x, ∀ j r, (rs y)[j]? = some r → r.halting.at? b = some (h y j)
  continuous : ∀ j, j < n → ContinuousAt (fun y => h y j) x
  inside : ∀ j, j < active n last → 0 < h x j ∧ h x j < 1
  deriv : ∀ j, j < active n last → HasFDerivAt (fun y => h y j) (h' j) x

/-- What the proofs below use about one batch element. -/
theorem ElementAt.facts {s : ACTStates ℝ} (hwf : s.WF)
    (he0 : 0 < s.epsilon) (he1 : s.epsilon ≤ 1) (hdep : 0 ≤ s.depression_constant)
    {n : Nat} {rs : P → List (Round ℝ)} {c : P → Controller ℝ} {x : P}
    (hrun : ∀ᶠ y in 𝓝 x, (rs y).length = n ∧ run ⟨s⟩ (roundOps (rs y)) = .ok (c y))
    {b : List Nat} {last : Option Nat} {h : P → Nat → ℝ} {h' : Nat → P →L[ℝ] ℝ}
    (hb : ElementAt s n rs x b last h h') (hst : (c x).Stands b last) :
    (∀ᶠ y in 𝓝 x, (c y).iterations.at? b =
        some (Graves.steps s.epsilon s.depression_constant (h y) n : ℝ) ∧
      (c y).residuals.at? b =
        some (Graves.remainder s.epsilon s.depression_constant (h y) n)) ∧
    match last with
    | some m => ∀ᶠ y in 𝓝 x, Graves.Crossed s.epsilon s.depression_constant (h y) n ∧
        Graves.steps s.epsilon s.depression_constant (h y) n = m + 1
    | none => ∀ᶠ y in 𝓝 x, ¬ Graves.Crossed s.epsilon s.depression_constant (h y) n := by
  have k1 : ∀ᶠ y in 𝓝 x, (c y).iterations.at? b =
        some (Graves.steps s.epsilon s.depression_constant (h y) n : ℝ) ∧
      (c y).residuals.at? b =
        some (Graves.remainder s.epsilon s.depression_constant (h y) n) := by
    filter_upwards [hrun, hb.halting] with y hy hh
    have := C68_counter_and_residual hwf he0 he1 hdep (rs y) hy.2 (h y) hb.probability hb.residual
      hb.iteration hh
    rwa [hy.1] at this
  refine ⟨k1, ?_⟩
  obtain ⟨hl, hr⟩ := hrun.self_of_nhds
  have k2 := C04_probability_and_halting hwf he0 he1 hdep (rs x) hr (h x) hb.probability
    hb.halting.self_of_nhds
  obtain ⟨k3, k4⟩ := k1.self_of_nhds
  rw [hl] at k2
  have heps : (c x).state.epsilon = s.epsilon := by
    refine (run_induction (Inv := fun t => t.epsilon = s.epsilon) ?_ ?_ ?_ _ hwf rfl hr).2
    · rintro t n x t' - ⟨-, rfl⟩ h; exact h
    · rintro t h t' - st h'; exact st.epsilon.trans h'
    · rintro t t' - st h'; exact st.epsilon.trans h'
  cases last with
  | some m =>
    obtain ⟨g1, g2, r, g3, g4⟩ := hst
    have hc := k2.2.1 g1
    have e1 : Graves.steps s.epsilon s.depression_constant (h x) n = m + 1 := by
      rw [k3] at g2; exact_mod_cast Option.some.inj g2
    rw [k4, Graves.remainder, if_pos hc] at g3
    have e2 := Option.some.inj g3
    rw [heps] at g4
    have := Graves.crossed_near (by linarith) hdep hb.continuous hc (by linarith)
    rw [e1] at this
    exact this
  | none =>
    obtain ⟨p, g1, g2⟩ := hst
    rw [heps] at g2
    have hn : ¬ Graves.Crossed s.epsilon s.depression_constant (h x) n := fun hc => by
      have := k2.1
      rw [Graves.sum_weight_of_crossed (by linarith) hc, g1] at this
      have := Option.some.inj this
      linarith
    have := k2.1
    rw [Graves.sum_weight_of_not hn, g1] at this
    exact Graves.not_crossed_near hdep hb.continuous (by rw [← Option.some.inj this]; exact g2)

/-- C89: the step counter of an element is locally constant in the parameters. -/
theorem C89_counter {s : ACTStates ℝ} (hwf : s.WF)
    (he0 : 0 < s.epsilon) (he1 : s.epsilon ≤ 1) (hdep : 0 ≤ s.depression_constant)
    {n : Nat} {rs : P → List (Round ℝ)} {c : P → Controller ℝ} {x : P}
    (hrun : ∀ᶠ y in 𝓝 x, (rs y).length = n ∧ run ⟨s⟩ (roundOps (rs y)) = .ok (c y))
    {b : List Nat} {last : Option Nat} {h : P → Nat → ℝ} {h' : Nat → P →L[ℝ] ℝ}
    (hb : ElementAt s n rs x b last h h') (hst : (c x).Stands b last) :
    ∀ᶠ y in 𝓝 x, (c y).iterations.at? b = (c x).iterations.at? b := by
  obtain ⟨k1, k2⟩ := hb.facts hwf he0 he1 hdep hrun hst
  have k3 := k1.self_of_nhds.1
  cases last with
  | some m =>
    have k4 := k2.self_of_nhds.2
    filter_upwards [k1, k2] with y h1 h2
    rw [h1.1, h2.2, k3, k4]
  | none =>
    have k4 := k2.self_of_nhds
    filter_upwards [k1, k2] with y h1 h2
    rw [h1.1, Graves.steps_of_not h2, k3, Graves.steps_of_not k4]

/-- C89: the derivative of the residual of an element. -/
theorem C89_residual {s : ACTStates ℝ} (hwf : s.WF)
    (he0 : 0 < s.epsilon) (he1 : s.epsilon ≤ 1) (hdep : 0 ≤ s.depression_constant)
    {n : Nat} {rs : P → List (Round ℝ)} {c : P → Controller ℝ} {x : P}
    (hrun : ∀ᶠ y in 𝓝 x, (rs y).length = n ∧ run ⟨s⟩ (roundOps (rs y)) = .ok (c y))
    {b : List Nat} {last : Option Nat} {h : P → Nat → ℝ} {h' : Nat → P →L[ℝ] ℝ}
    (hb : ElementAt s n rs x b last h h') (hst : (c x).Stands b last) {r : P → ℝ}
    (hr : ∀ᶠ y in 𝓝 x, (c y).residuals.at? b = some (r y)) :
    HasFDerivAt r (Signal.remainder s.depression_constant h' last) x := by
  obtain ⟨k1, k2⟩ := hb.facts hwf he0 he1 hdep hrun hst
  cases last with
  | some m =>
    have key : HasFDerivAt (fun y => 1 - ∑ j ∈ Finset.range m,
        s.depression_constant * Graves.clip (h y j))
        (Signal.remainder s.depression_constant h' (some m)) x := by
      refine (HasFDerivAt.fun_sum fun j hj => ?_).const_sub 1
      have hj := Finset.mem_range.1 hj
      exact (Graves.hasFDerivAt_clip (hb.deriv j hj) (hb.inside j hj).1
        (hb.inside j hj).2).const_mul _
    refine key.congr_of_eventuallyEq ?_
    filter_upwards [k1, k2, hr] with y h1 h2 h3
    rw [h1.2, Graves.remainder, if_pos h2.1, h2.2] at h3
    exact (Option.some.inj h3).symm
  | none =>
    refine (hasFDerivAt_const (0 : ℝ) x).congr_of_eventuallyEq ?_
    filter_upwards [k1, k2, hr] with y h1 h2 h3
    rw [h1.2, Graves.remainder, if_neg h2] at h3
    exact (Option.some.inj h3).symm

/-- C89: the derivative of an accumulator entry. -/
theorem C89_entry {s : ACTStates ℝ} (hwf : s.WF)
    (he0 : 0 < s.epsilon) (he1 : s.epsilon ≤ 1) (hdep : 0 ≤ s.depression_constant)
    {n : Nat} {rs : P → List (Round ℝ)} {c : P → Controller ℝ} {x : P}
    (hrun : ∀ᶠ y in 𝓝 x, (rs y).length = n ∧ run ⟨s⟩ (roundOps (rs y)) = .ok (c y))
    {name : String} {k : Nat} {i : List Nat} {a0 : ℝ}
    {last : Option Nat} {h : P → Nat → ℝ} {h' : Nat → P →L[ℝ] ℝ}
    (hb : ElementAt s n rs x (i.take s.probabilities.shape.length) last h h')
    (hst : (c x).Stands (i.take s.probabilities.shape.length) last)
    (hacc : entry? s.accumulators name k i = some a0)
    {u : P → Nat → ℝ} {u' : Nat → P →L[ℝ] ℝ}
    (hu : ∀ᶠ y in 𝓝 x, ∀ j r, (rs y)[j]? = some r → entry? r.updates name k i = some (u y j))
    (hu' : ∀ j, j < n → j ≤ active n last → HasFDerivAt (fun y => u y j) (u' j) x) {a : P → ℝ}
    (ha : ∀ᶠ y in 𝓝 x, entry? (c y).accumulators name k i = some (a y)) :
    HasFDerivAt a (Signal.result s.depression_constant n (h x) (u x) h' u' last) x := by
  obtain ⟨-, k2⟩ := hb.facts hwf he0 he1 hdep hrun hst
  have k1 : ∀ᶠ y in 𝓝 x, a y = a0 + ∑ t ∈ Finset.range n,
      Graves.weight s.epsilon s.depression_constant (h y) t * u y t := by
    filter_upwards [hrun, hb.halting, hu, ha] with y hy hh hu ha
    have := (C04_graves_weights hwf he0 he1 hdep (rs y) hy.2 (u y) (h y) hb.probability hacc hu
      hh).1
    rw [hy.1, ha] at this
    exact Option.some.inj this
  have hprod : ∀ j, j < n → j < active n last →
      HasFDerivAt (fun y => s.depression_constant * Graves.clip (h y j) * u y j)
        ((s.depression_constant * u x j) • h' j + (s.depression_constant * h x j) • u' j) x := by
    intro j hn hj
    have h1 := (Graves.hasFDerivAt_clip (hb.deriv j hj) (hb.inside j hj).1
      (hb.inside j hj).2).const_mul s.depression_constant
    have h2 := h1.fun_mul (hu' j hn hj.le)
    have e : Graves.clip (h x j) = h x j :=
      Spec.clamp_of_mem (hb.inside j hj).1.le (hb.inside j hj).2.le
    refine h2.congr_fderiv ?_
    rw [e, smul_smul, add_comm, mul_comm (u x j)]
  cases last with
  | some m =>
    have hm : m < n := by
      obtain ⟨g1, g2⟩ := k2.self_of_nhds
      have := (Graves.steps_of_crossed (by linarith) g1).2.1
      omega
    have key : HasFDerivAt (fun y => a0 + (∑ j ∈ Finset.range m,
          s.depression_constant * Graves.clip (h y j) * u y j +
        (1 - ∑ j ∈ Finset.range m, s.depression_constant * Graves.clip (h y j)) * u y m))
        (Signal.result s.depression_constant n (h x) (u x) h' u' (some m)) x := by
      have h1 : HasFDerivAt (fun y => ∑ j ∈ Finset.range m,
          s.depression_constant * Graves.clip (h y j) * u y j) _ x :=
        HasFDerivAt.fun_sum fun j hj => hprod j ((Finset.mem_range.1 hj).trans hm)
          (Finset.mem_range.1 hj)
      have h2 : HasFDerivAt (fun y => 1 - ∑ j ∈ Finset.range m,
          s.depression_constant * Graves.clip (h y j))
          (- ∑ j ∈ Finset.range m, s.depression_constant • h' j) x :=
        (HasFDerivAt.fun_sum fun j hj => (Graves.hasFDerivAt_clip
          (hb.deriv j (Finset.mem_range.1 hj)) (hb.inside j (Finset.mem_range.1 hj)).1
          (hb.inside j (Finset.mem_range.1 hj)).2).const_mul s.depression_constant).const_sub 1
      refine ((h1.fun_add (h2.fun_mul (hu' m hm le_rfl))).const_add a0).congr_fderiv ?_
      have e : ∀ j ∈ Finset.range m, s.depression_constant * Graves.clip (h x j) =
          s.depression_constant * h x j := fun j hj => by
        have hj := Finset.mem_range.1 hj
        rw [Graves.clip]
        exact congrArg _ (Spec.clamp_of_mem (hb.inside j hj).1.le (hb.inside j hj).2.le)
      rw [Finset.sum_congr rfl e]
      ext v
      simp only [Signal.result, add_apply, sum_apply, smul_apply, neg_apply, smul_eq_mul,
        Finset.sum_add_distrib, mul_sub, sub_mul, Finset.sum_sub_distrib]
      have e2 : ∑ j ∈ Finset.range m, s.depression_constant * u x m * (h' j) v =
          u x m * ∑ j ∈ Finset.range m, s.depression_constant * (h' j) v := by
        rw [Finset.mul_sum]; exact Finset.sum_congr rfl fun j _ => by ring
      rw [e2]
      ring
    refine key.congr_of_eventuallyEq ?_
    filter_upwards [k1, k2] with y h1 h2
    rw [h1, Graves.sum_of_crossed (by linarith) h2.1, Graves.remainder, if_pos h2.1, h2.2]
    rfl
  | none =>
    have key : HasFDerivAt (fun y => a0 + ∑ j ∈ Finset.range n,
          s.depression_constant * Graves.clip (h y j) * u y j)
        (Signal.result s.depression_constant n (h x) (u x) h' u' Option.none) x :=
      (HasFDerivAt.fun_sum fun j hj => hprod j (Finset.mem_range.1 hj)
        (Finset.mem_range.1 hj)).const_add a0
    refine key.congr_of_eventuallyEq ?_
    filter_upwards [k1, k2] with y h1 h2
    rw [h1, Graves.sum_of_not h2]

/-- C89: the training signal.  `L` is any differentiable loss of accumulator entries (`E`), residuals
and step counters (`B`) anywhere in the batch.  Its derivative with respect to the parameters is the
chain rule with the derivatives of `Signal`; the counters contribute nothing. -/
theorem C89_training_signal {s : ACTStates ℝ} (hwf : s.WF)
    (he0 : 0 < s.epsilon) (he1 : s.epsilon ≤ 1) (hdep : 0 ≤ s.depression_constant)
    {n : Nat} {rs : P → List (Round ℝ)} {c : P → Controller ℝ} {x : P}
    (hrun : ∀ᶠ y in 𝓝 x, (rs y).length = n ∧ run ⟨s⟩ (roundOps (rs y)) = .ok (c y))
    {last : List Nat → Option Nat} {h : List Nat → P → Nat → ℝ}
    {h' : List Nat → Nat → P →L[ℝ] ℝ} {B : Type} [Fintype B] {el : B → List Nat}
    (hb : ∀ j, ElementAt s n rs x (el j) (last (el j)) (h (el j)) (h' (el j)))
    (hst : ∀ j, (c x).Stands (el j) (last (el j)))
    {E : Type} [Fintype E] {name : E → String} {k : E → Nat} {i : E → List Nat} {a0 : E → ℝ}
    {of : E → B} (hof : ∀ e, el (of e) = (i e).take s.probabilities.shape.length)
    (hacc : ∀ e, entry? s.accumulators (name e) (k e) (i e) = some (a0 e))
    {u : E → P → Nat → ℝ} {u' : E → Nat → P →L[ℝ] ℝ}
    (hu : ∀ e, ∀ᶠ y in 𝓝 x, ∀ j r, (rs y)[j]? = some r →
      entry? r.updates (name e) (k e) (i e) = some (u e y j))
    (hu' : ∀ e j, j < n → j ≤ active n (last (el (of e))) →
      HasFDerivAt (fun y => u e y j) (u' e j) x)
    {a : P → E → ℝ} {r N : P → B → ℝ}
    (ha : ∀ᶠ y in 𝓝 x, ∀ e, entry? (c y).accumulators (name e) (k e) (i e) = some (a y e))
    (hr : ∀ᶠ y in 𝓝 x, ∀ j, (c y).residuals.at? (el j) = some (r y j))
    (hN : ∀ᶠ y in 𝓝 x, ∀ j, (c y).iterations.at? (el j) = some (N y j))
    {L : (E → ℝ) × (B → ℝ) × (B → ℝ) → ℝ} {L' : (E → ℝ) × (B → ℝ) × (B → ℝ) →L[ℝ] ℝ}
    (hL : HasFDerivAt L L' (a x, r x, N x)) :
    HasFDerivAt (fun y => L (a y, r y, N y))
      (L'.comp ((ContinuousLinearMap.pi fun e => Signal.result s.depression_constant n
          (h (el (of e)) x) (u e x) (h' (el (of e))) (u' e) (last (el (of e)))).prod
        ((ContinuousLinearMap.pi fun j => Signal.remainder s.depression_constant (h' (el j))
          (last (el j))).prod 0))) x := by
  have h1 : HasFDerivAt a (ContinuousLinearMap.pi fun e => Signal.result s.depression_constant n
      (h (el (of e)) x) (u e x) (h' (el (of e))) (u' e) (last (el (of e)))) x := by
    rw [hasFDerivAt_pi]
    intro e
    refine C89_entry hwf he0 he1 hdep hrun (hof e ▸ hb (of e)) (hof e ▸ hst (of e)) (hacc e) (hu e)
      (hu' e) (ha.mono fun y hy => hy e)
  have h2 : HasFDerivAt r (ContinuousLinearMap.pi fun j => Signal.remainder s.depression_constant
      (h' (el j)) (last (el j))) x := by
    rw [hasFDerivAt_pi]
    exact fun j => C89_residual hwf he0 he1 hdep hrun (hb j) (hst j) (hr.mono fun y hy => hy j)
  have h3 : HasFDerivAt N (0 : P →L[ℝ] B → ℝ) x := by
    refine (hasFDerivAt_const (N x) x).congr_of_eventuallyEq ?_
    have : ∀ᶠ y in 𝓝 x, ∀ j, (c y).iterations.at? (el j) = (c x).iterations.at? (el j) :=
      Filter.eventually_all.2 fun j => C89_counter hwf he0 he1 hdep hrun (hb j) (hst j)
    filter_upwards [this, hN] with y hy hNy
    funext j
    have := hy j
    rw [hNy j, hN.self_of_nhds j] at this
    exact Option.some.inj this
  exact hL.comp x (h1.prodMk (h2.prodMk h3))

section Example

/-! A batch of one element whose layer has one parameter `x`: halting probability `x` at each of
three steps, updates `x * x`, 1 and `3 * x`.  Near `x = 2/5` the element halts at the third step, so
the result is `x * x² + x + (1 - 2 x) * 3 x` and the residual `1 - 2 x`. -/

/-- The three rounds. -/
noncomputable def paramRounds (x : ℝ) : List (Round ℝ) :=
  [⟨[("out", .leaf (.tensor (single (x * x))))], single x⟩,
    ⟨[("out", .leaf (.tensor (single 1)))], single x⟩,
    ⟨[("out", .leaf (.tensor (single (3 * x))))], single x⟩]

/-- Their updates. -/
noncomputable def paramUpdate (x : ℝ) : Nat → ℝ
  | 0 => x * x
  | 1 => 1
  | _ => 3 * x

theorem paramRun (x : ℝ) : ∃ c, run ⟨realState⟩ (roundOps (paramRounds x)) = .ok c := by
  have h0 : Except.isOk (run ⟨realState⟩ (roundOps (paramRounds 0))) = true := by decide +kernel
  have hx := C53_tracing realState_wf (roundOps (paramRounds x))
  have hy := C53_tracing realState_wf (roundOps (paramRounds 0))
  rw [show (roundOps (paramRounds x)).map Op.abstract = (roundOps (paramRounds 0)).map Op.abstract
    from rfl] at hx
  generalize @run Unit Arith.abstract ⟨realState.abstract⟩
    ((roundOps (paramRounds 0)).map Op.abstract) = r at hx hy
  cases hr : run ⟨realState⟩ (roundOps (paramRounds 0)) with
  | error e => rw [hr] at h0; cases h0
  | ok c =>
    rw [hr] at hy
    cases hy
    cases hr' : run ⟨realState⟩ (roundOps (paramRounds x)) with
    | ok c' => exact ⟨c', rfl⟩
    | error e => rw [hr'] at hx; cases hx

/-- All hypotheses of the training signal hold here.  The loss is the square of the result plus the
residual; its derivative at 2/5 is `2 * 88/125 * (-8/25) - 2`. -/
example : ∃ (a r : ℝ → ℝ) (c : ℝ → Controller ℝ),
    (∀ x, run ⟨realState⟩ (roundOps (paramRounds x)) = .ok (c x)) ∧
    (∀ x, entry? (c x).accumulators "out" 0 [0] = some (a x)) ∧
    (∀ x, (c x).residuals.at? [0] = some (r x)) ∧
    HasDerivAt (fun x => a x * a x + r x) (2 * (88/125) * (-8/25) - 2) (2/5) := by
  choose c hc using paramRun
  have he : (0 : ℝ) < realState.epsilon ∧ realState.epsilon ≤ 1 := by
    show (0 : ℝ) < 1/10 ∧ (1/10 : ℝ) ≤ 1; norm_num
  have hd : (0 : ℝ) ≤ realState.depression_constant := zero_le_one
  have hu : ∀ x j r, (paramRounds x)[j]? = some r →
      entry? r.updates "out" 0 [0] = some (paramUpdate x j) := by
    intro x j r h
    match j, h with
    | 0, h => cases h; rfl
    | 1, h => cases h; rfl
    | 2, h => cases h; rfl
  have hh : ∀ (x : ℝ) (j : Nat) (r : Round ℝ), (paramRounds x)[j]? = some r → r.halting.at? [0] = some x := by
    intro x j r h
    match j, h with
    | 0, h => cases h; rfl
    | 1, h => cases h; rfl
    | 2, h => cases h; rfl
  have hA := fun x => (C04_graves_weights realState_wf he.1 he.2 hd (paramRounds x) (hc x)
    (paramUpdate x) (fun _ => x) (i := [0]) (name := "out") (k := 0) (a0 := 0) rfl rfl (hu x)
    (hh x)).1
  have hB := fun x => C68_counter_and_residual realState_wf he.1 he.2 hd (paramRounds x) (hc x)
    (b := [0]) (fun _ => x) rfl rfl rfl (hh x)
  have hC := fun x => (C04_probability_and_halting realState_wf he.1 he.2 hd (paramRounds x) (hc x)
    (b := [0]) (fun _ => x) rfl (hh x)).2
  have clip25 : Graves.clip (2/5 : ℝ) = 2/5 := Spec.clamp_of_mem (by norm_num) (by norm_num)
  have hcum : ∀ t, Graves.cumDemand (1 : ℝ) (fun _ => 2/5) t = t * (2/5) := fun t => by
    simp [Graves.cumDemand, clip25]
  have hcr : ∀ t, Graves.Crossed (1/10 : ℝ) 1 (fun _ => 2/5) t ↔ 9/10 < (t : ℝ) * (2/5) :=
    fun t => by
      rw [Graves.crossed_iff zero_le_one, hcum]
      constructor <;> intro h <;> linarith
  have hst : Graves.steps (1/10 : ℝ) 1 (fun _ => 2/5) 3 = 3 :=
    Graves.steps_unique (by norm_num) ((hcr 3).2 (by norm_num)) (by rw [hcr]; norm_num)
      ((hcr 3).2 (by norm_num))
  have hrem : Graves.remainder (1/10 : ℝ) 1 (fun _ => 2/5) 3 = 1/5 := by
    rw [Graves.remainder, if_pos ((hcr 3).2 (by norm_num)), hst, hcum]; norm_num
  have ha25 : 0 + ∑ t ∈ Finset.range (paramRounds (2/5)).length, Graves.weight realState.epsilon
      realState.depression_constant (fun _ => 2/5) t * paramUpdate (2/5) t = 88/125 := by
    show 0 + ∑ t ∈ Finset.range 3, Graves.weight (1/10 : ℝ) 1 (fun _ => 2/5) t *
      paramUpdate (2/5) t = 88/125
    rw [Graves.sum_of_crossed (by norm_num) ((hcr 3).2 (by norm_num)), hrem, hst]
    simp [Finset.sum_range_succ, clip25, paramUpdate]
    norm_num
  have hstands : (c (2/5)).Stands [0] (some 2) := by
    refine ⟨(hC (2/5)).2 ((hcr 3).2 (by norm_num)), ?_, 1/5, ?_, ?_⟩
    · have := (hB (2/5)).1
      rw [show Graves.steps realState.epsilon realState.depression_constant (fun _ => 2/5)
        (paramRounds (2/5)).length = 3 from hst] at this
      exact this
    · have := (hB (2/5)).2
      rw [show Graves.remainder realState.epsilon realState.depression_constant (fun _ => 2/5)
        (paramRounds (2/5)).length = 1/5 from hrem] at this
      exact this
    · have : (c (2/5)).state.epsilon = 1/10 := by
        refine (run_induction (Inv := fun t => t.epsilon = 1/10) ?_ ?_ ?_ _ realState_wf rfl
          (hc (2/5))).2
        · rintro t n x t' - ⟨-, rfl⟩ h; exact h
        · rintro t h t' - st h'; exact st.epsilon.trans h'
        · rintro t t' - st h'; exact st.epsilon.trans h'
      rw [this]; norm_num
  have hel : ElementAt realState 3 paramRounds (2/5) [0] (some 2) (fun x _ => x)
      (fun _ => ContinuousLinearMap.id ℝ ℝ) :=
    ⟨rfl, rfl, rfl, .of_forall hh, fun _ _ => continuousAt_id, fun _ _ => by norm_num,
      fun _ _ => hasFDerivAt_id _⟩
  have hdu : ∀ j, HasFDerivAt (fun x => paramUpdate x j)
      ((match j with | 0 => 4/5 | 1 => 0 | _ => 3 : ℝ) • ContinuousLinearMap.id ℝ ℝ)
      (2/5 : ℝ) := by
    intro j
    match j with
    | 0 =>
      refine ((hasFDerivAt_id (2/5 : ℝ)).fun_mul (hasFDerivAt_id (2/5 : ℝ))).congr_fderiv ?_
      ext; simp; norm_num
    | 1 => exact (hasFDerivAt_const (1 : ℝ) _).congr_fderiv (by simp)
    | j + 2 => exact (hasFDerivAt_id (2/5 : ℝ)).const_mul 3
  let A : (Unit → ℝ) × (Unit → ℝ) × (Unit → ℝ) →L[ℝ] ℝ :=
    (ContinuousLinearMap.proj ()).comp (.fst ℝ _ _)
  let R : (Unit → ℝ) × (Unit → ℝ) × (Unit → ℝ) →L[ℝ] ℝ :=
    (ContinuousLinearMap.proj ()).comp ((ContinuousLinearMap.fst ℝ _ _).comp (.snd ℝ _ _))
  have hL : ∀ q, HasFDerivAt (fun p : (Unit → ℝ) × (Unit → ℝ) × (Unit → ℝ) =>
      p.1 () * p.1 () + p.2.1 ()) (A q • A + A q • A + R) q := fun q =>
    (A.hasFDerivAt.fun_mul A.hasFDerivAt).fun_add R.hasFDerivAt
  have key := C89_training_signal (P := ℝ) (B := Unit) (E := Unit) realState_wf he.1 he.2 hd
    (n := 3) (rs := paramRounds) (c := c) (x := 2/5) (.of_forall fun x => ⟨rfl, hc x⟩)
    (last := fun _ => some 2) (h := fun _ x _ => x) (h' := fun _ _ => ContinuousLinearMap.id ℝ ℝ)
    (el := fun _ => [0]) (fun _ => hel) (fun _ => hstands) (name := fun _ => "out") (k := fun _ => 0)
    (i := fun _ => [0]) (a0 := fun _ => 0) (of := id) (fun _ => rfl) (fun _ => rfl)
    (u := fun _ => paramUpdate) (u' := fun _ j => _) (fun _ => .of_forall hu)
    (fun _ j _ _ => hdu j) (a := fun x _ => _) (r := fun x _ => _) (N := fun x _ => _)
    (.of_forall fun x _ => hA x) (.of_forall fun x _ => (hB x).2)
    (.of_forall fun x _ => (hB x).1)
    (L := fun p => p.1 () * p.1 () + p.2.1 ()) (L' := _) (hL _)
  refine ⟨_, _, c, hc, hA, fun x => (hB x).2, ?_⟩
  refine key.hasDerivAt.congr_deriv ?_
  have e1 : realState.depression_constant = 1 := rfl
  simp only [ha25]
  simp [A, R, Signal.result, Signal.remainder, Finset.sum_range_succ, paramUpdate, e1]
  norm_num

end Example
end JaxAct
