import Verif.Spec.Tangent
import Verif.Lemmas.Families
import Verif.Props.Fixtures
import Mathlib.Analysis.Calculus.Deriv.Abs
import Mathlib.Analysis.Calculus.Deriv.Add
import Mathlib.Analysis.Calculus.Deriv.Mul
import Mathlib.Topology.Order.Lattice

/-!
# C77 Forward-mode differentiation gives the true derivative

`jax.jvp` runs the library on values with tangents.  The run raises what the plain run raises, its values
are those of the plain run, and its tangents are the derivatives of the plain run, except on the set where
the library is not differentiable: an element exactly on the threshold, or a halting probability exactly
at a corner of the clip.
-/

namespace JaxAct
open ACTStates Filter Topology
variable {ι α β : Type}

/-! ### Runs over families -/

section Run
variable [Arith α] [Arith β] {R : (ι → α) → β → Prop}

/-- One call. -/
theorem call_rel {s : ι → ACTStates α} {S : ACTStates β} (hwf : ∀ θ, (s θ).WF) (hWF : S.WF)
    (hs : StateRel R s S) {op : ι → Op α} {OP : Op β} (ho : CallRel R op OP)
    (hit : ∀ h H, op = (fun θ => .iterate (h θ)) → OP = .iterate H → TensorRel R h H →
      ∀ b p x P X, (∀ θ, (s θ).probabilities.at? b = some (p θ)) →
      (∀ θ, (h θ).at? b = some (x θ)) → R p P → R x X → StepRel R S.probabilities.dtype
        S.iterations.dtype H.dtype (fun θ => (s θ).epsilon) (fun θ => (s θ).depression_constant) p x
        S.epsilon S.depression_constant P X)
    (hre : op = (fun _ => .reset) → ∀ b p P, (∀ θ, (s θ).probabilities.at? b = some (p θ)) → R p P →
      ResetRel R S.probabilities.dtype (fun θ => (s θ).epsilon) p S.epsilon P) :
    OutcomesRel R (fun θ => (op θ).call ⟨s θ⟩) (OP.call ⟨S⟩) := by
  have hal : ∀ θ, OutcomesAlike ((op θ).call ⟨s θ⟩) (OP.call ⟨S⟩) := fun θ =>
    call_alike (hwf θ) hWF (hs.alike θ) (ho.alike θ)
  cases hR : OP.call ⟨S⟩ with
  | error e =>
    have : (fun θ => (op θ).call ⟨s θ⟩) = fun _ => .error e := by
      funext θ
      have := hal θ
      rw [hR] at this
      generalize (op θ).call ⟨s θ⟩ = r at this
      cases this
      rfl
    rw [this]
    exact .error e
  | ok C =>
    have h1 : ∀ θ, ∃ c, (op θ).call ⟨s θ⟩ = .ok c ∧ StatesAlike c.state C.state := by
      intro θ
      have := hal θ
      rw [hR] at this
      generalize (op θ).call ⟨s θ⟩ = r at this
      cases this with
      | ok h => exact ⟨_, rfl, h⟩
    choose c hc hcal using h1
    have : (fun θ => (op θ).call ⟨s θ⟩) = fun θ => .ok (c θ) := funext hc
    rw [this]
    refine .ok ?_
    cases ho with
    | cache n ht =>
      exact cache_rel hs ht (fun θ => Controller.cacheUpdate_ok_iff.1 (hc θ))
        (Controller.cacheUpdate_ok_iff.1 hR) hcal
    | iterate hh =>
      exact iterate_rel hwf hWF hs hh (hit _ _ rfl rfl hh)
        (fun θ => Controller.iterateAct_ok (hwf θ) (hc θ)) (Controller.iterateAct_ok hWF hR) hcal
    | reset =>
      exact reset_rel hwf hWF hs (hre rfl) (fun θ => Controller.resetBatches_ok (hwf θ) (hc θ))
        (Controller.resetBatches_ok hWF hR) hcal

/-- A sequence of calls. -/
theorem run_rel {G : ACTStates α → Op α → Prop} (θ₀ : ι)
    (hG : ∀ (s : ι → ACTStates α) (S : ACTStates β) (op : ι → Op α) (OP : Op β), (∀ θ, (s θ).WF) → S.WF →
      StateRel R s S → CallRel R op OP → G (s θ₀) (op θ₀) →
      OutcomesRel R (fun θ => (op θ).call ⟨s θ⟩) (OP.call ⟨S⟩))
    {ops : List (ι → Op α)} {OPS : List (Op β)} (ho : List.Forall₂ (CallRel R) ops OPS) :
    ∀ {s : ι → ACTStates α} {S : ACTStates β}, (∀ θ, (s θ).WF) → S.WF → StateRel R s S →
      Along G ⟨s θ₀⟩ (ops.map (· θ₀)) →
      OutcomesRel R (fun θ => run ⟨s θ⟩ (ops.map (· θ))) (run ⟨S⟩ OPS) := by
  induction ho with
  | nil => intro s S _ _ hs _; exact .ok hs
  | cons h1 h2 ih =>
    rename_i op OP ops OPS
    intro s S hwf hWF hs ha
    have key := hG s S op OP hwf hWF hs h1 ha.1
    simp only [List.map_cons, run]
    cases hR : OP.call ⟨S⟩ with
    | error e =>
      rw [hR] at key
      generalize hf : (fun θ => (op θ).call ⟨s θ⟩) = f at key
      cases key
      have : ∀ θ, (op θ).call ⟨s θ⟩ = .error e := fun θ => congrFun hf θ
      simp only [this]
      exact .error e
    | ok C =>
      rw [hR] at key
      generalize hf : (fun θ => (op θ).call ⟨s θ⟩) = f at key
      cases key with
      | ok hc =>
        rename_i c
        have hcall : ∀ θ, (op θ).call ⟨s θ⟩ = .ok (c θ) := fun θ => congrFun hf θ
        simp only [hcall, ok_bind]
        refine ih (fun θ => ?_) ?_ hc (ha.2 _ (hcall θ₀))
        · exact run_wf (ops := [op θ]) (hwf θ) (by simp [run, hcall θ])
        · exact run_wf (ops := [OP]) hWF (by simp [run, hR])

end Run

/-! ### Scalar steps on dual numbers -/

section Scalars
variable {K : Type} [Field K] [LinearOrder K]
attribute [local instance] Arith.exact Arith.dual

theorem convS_exact (a b : DType) (x : K) : convS a b x = x := by unfold convS; split <;> rfl

theorem convS_dual (a b : DType) (x : Dual K) : convS a b x = x := by unfold convS; split <;> rfl

theorem max_re (X : Dual K) : (Arith.max (Arith.zero : Dual K) X).re = max 0 X.re := by
  show (if (0 : K) < X.re then X else if X.re < 0 then ⟨0, 0⟩ else ⟨0, (0 + X.im) / 2⟩ : Dual K).re = _
  split
  · next h => exact (max_eq_right h.le).symm
  · next h =>
    rw [max_eq_left (not_lt.1 h)]
    split <;> rfl

theorem min_re (X : Dual K) : (Arith.min (Arith.one : Dual K) X).re = min 1 X.re := by
  show (if (1 : K) < X.re then ⟨1, 0⟩ else if X.re < 1 then X else ⟨1, (0 + X.im) / 2⟩ : Dual K).re = _
  split
  · next h => exact (min_eq_left h.le).symm
  · next h =>
    split
    · exact (min_eq_right (not_lt.1 h)).symm
    · next h' => exact (min_eq_left (not_lt.1 h')).symm

theorem clamp_re (X : Dual K) : (Spec.clamp X).re = Spec.clamp X.re := by
  unfold Spec.clamp
  rw [min_re, max_re]
  rfl

theorem isHalted_re (d : DType) (E P : Dual K) : Spec.isHalted d E P = Spec.isHalted d E.re P.re := by
  unfold Spec.isHalted; rfl

theorem crosses_re (d : DType) (E D P X : Dual K) :
    Spec.crosses d E D P X = Spec.crosses d E.re D.re P.re X.re := by
  show decide (1 - E.re < D.re * (Spec.clamp X).re + P.re) = _
  rw [clamp_re]; rfl

theorem weight_re (d : DType) (E D P X : Dual K) :
    (Spec.weight d E D P X).re = Spec.weight d E.re D.re P.re X.re := by
  unfold Spec.weight
  rw [crosses_re]
  split
  · rfl
  · show D.re * (Spec.clamp X).re = _
    rw [clamp_re]; rfl

end Scalars

/-! ### Values -/

section Primal
variable {K : Type} [Field K] [LinearOrder K]
attribute [local instance] Arith.exact Arith.dual

/-- The value part of a dual number. -/
def Primal (f : Unit → K) (X : Dual K) : Prop := f () = X.re

theorem primal_call {s : Unit → ACTStates K} {S : ACTStates (Dual K)} {op : Unit → Op K} {OP : Op (Dual K)}
    (hwf : ∀ θ, (s θ).WF) (hWF : S.WF) (hs : StateRel Primal s S) (ho : CallRel Primal op OP) :
    OutcomesRel Primal (fun θ => (op θ).call ⟨s θ⟩) (OP.call ⟨S⟩) := by
  have e1 : (s ()).epsilon = S.epsilon.re := hs.epsilon
  have e2 : (s ()).depression_constant = S.depression_constant.re := hs.depression
  refine call_rel hwf hWF hs ho ?_ ?_
  · intro h H _ _ _ b p x P X _ _ rp rx
    unfold Primal at rp rx
    refine ⟨?_, ?_, ?_, ?_⟩
    · show _ + _ = P.re + Dual.re (Spec.weight _ _ _ _ _)
      rw [weight_re, convS_exact, convS_dual, rp, rx, e1, e2]
    · intro r Q hr
      unfold Primal at hr ⊢
      simp only [Spec.step, convS_exact, convS_dual, crosses_re, isHalted_re, rp, rx, e1, e2]
      split
      · rfl
      · exact hr
    · intro n N hn
      unfold Primal at hn ⊢
      simp only [Spec.step, isHalted_re, rp, e1]
      by_cases hb : Spec.isHalted S.probabilities.dtype S.epsilon.re P.re = true
      · rw [if_pos hb, if_pos hb]; exact hn
      · rw [if_neg hb, if_neg hb]
        show n () + 1 = N.re + 1
        rw [hn]
    · intro dA dU a u A U ha hu
      unfold Primal at ha hu ⊢
      simp only [Spec.accStep, convS_exact, convS_dual, isHalted_re, rp, e1]
      split
      · exact ha
      · show a () + _ * u () = A.re + Dual.re (Spec.weight _ _ _ _ _) * U.re
        rw [weight_re, ha, hu, rx, e2]
  · intro _ b p P _ rp
    unfold Primal at rp
    refine ⟨?_, ?_⟩
    · intro d' x X hx
      unfold Primal at hx ⊢
      simp only [Spec.keepIf, convS_exact, convS_dual, isHalted_re, rp, e1]
      show x () * _ = X.re * Dual.re (Arith.ofBool _)
      rw [hx]
      congr 1
      unfold Arith.ofBool
      split <;> rfl
    · intro a x A X ha hx
      unfold Primal at ha hx ⊢
      simp only [Spec.resetEntry, isHalted_re, rp, e1]
      by_cases hb : Spec.isHalted S.probabilities.dtype S.epsilon.re P.re = true
      · rw [if_pos hb, if_pos hb]; exact hx
      · rw [if_neg hb, if_neg hb]; exact ha

/-- C77, values: running on values with tangents raises the same exception as the plain run, or returns
the same values; the tangents have no influence.  No regularity is asked for. -/
theorem C77_values {s : ACTStates K} {S : ACTStates (Dual K)} (hwf : s.WF) (hWF : S.WF)
    (hs : StateRel Primal (fun _ => s) S) {ops : List (Op K)} {OPS : List (Op (Dual K))}
    (ho : List.Forall₂ (fun op OP => CallRel Primal (fun _ => op) OP) ops OPS) :
    OutcomesRel Primal (fun _ => run ⟨s⟩ ops) (run ⟨S⟩ OPS) := by
  have main := run_rel (R := Primal (K := K)) (G := fun _ _ => True) ()
    (fun s S op OP hwf hWF hs ho _ => primal_call hwf hWF hs ho)
    (ops := ops.map fun op _ => op) (OPS := OPS) (by rw [List.forall₂_map_left_iff]; exact ho)
    (fun _ => hwf) hWF hs ?_
  · simpa only [List.map_map, Function.comp_def, List.map_id'] using main
  · have : ∀ (l : List (Op K)) (c : Controller K), Along (fun _ _ => True) c l := by
      intro l
      induction l with
      | nil => intro _; trivial
      | cons op l ih => intro c; exact ⟨trivial, fun c' _ => ih c'⟩
    exact this _ _

end Primal

/-! ### Derivatives -/

section Jvp
attribute [local instance] Arith.exact Arith.dual
variable {θ₀ : ℝ} {f g : ℝ → ℝ} {X Y : Dual ℝ}

theorem Tangent.congr (h : Tangent θ₀ f X) (e : g =ᶠ[𝓝 θ₀] f) : Tangent θ₀ g X :=
  ⟨e.eq_of_nhds.trans h.1, h.2.congr_of_eventuallyEq e⟩

theorem Tangent.const (x : ℝ) : Tangent θ₀ (fun _ => x) ⟨x, 0⟩ := ⟨rfl, hasDerivAt_const _ _⟩

theorem Tangent.add (h : Tangent θ₀ f X) (k : Tangent θ₀ g Y) (d : DType) :
    Tangent θ₀ (fun θ => Arith.add d (f θ) (g θ)) (Arith.add d X Y) :=
  ⟨by show f θ₀ + g θ₀ = X.re + Y.re; rw [h.1, k.1], h.2.add k.2⟩

theorem Tangent.sub (h : Tangent θ₀ f X) (k : Tangent θ₀ g Y) (d : DType) :
    Tangent θ₀ (fun θ => Arith.sub d (f θ) (g θ)) (Arith.sub d X Y) :=
  ⟨by show f θ₀ - g θ₀ = X.re - Y.re; rw [h.1, k.1], h.2.sub k.2⟩

theorem Tangent.mul (h : Tangent θ₀ f X) (k : Tangent θ₀ g Y) (d : DType) :
    Tangent θ₀ (fun θ => Arith.mul d (f θ) (g θ)) (Arith.mul d X Y) := by
  refine ⟨by show f θ₀ * g θ₀ = X.re * Y.re; rw [h.1, k.1], ?_⟩
  have := h.2.mul k.2
  rw [h.1, k.1] at this
  exact this

theorem Tangent.continuousAt (h : Tangent θ₀ f X) : ContinuousAt f θ₀ := h.2.continuousAt

/-- A comparison that is not a tie does not change nearby. -/
theorem eventually_lt {f g : ℝ → ℝ} (hf : ContinuousAt f θ₀) (hg : ContinuousAt g θ₀)
    (h : f θ₀ ≠ g θ₀) :
    ∀ᶠ θ in 𝓝 θ₀, Arith.lt (f θ) (g θ) = Arith.lt (f θ₀) (g θ₀) := by
  rcases lt_or_gt_of_ne h with h | h
  · filter_upwards [hf.eventually_lt hg h] with θ hθ
    show decide (f θ < g θ) = decide (f θ₀ < g θ₀)
    simp [hθ, h]
  · filter_upwards [hg.eventually_lt hf h] with θ hθ
    show decide (f θ < g θ) = decide (f θ₀ < g θ₀)
    simp [hθ.not_gt, h.not_gt]

/-- A choice that does not change nearby. -/
theorem Tangent.ite (hf : Tangent θ₀ f X) (hg : Tangent θ₀ g Y) {c : ℝ → Bool} {C : Bool}
    (h : ∀ᶠ θ in 𝓝 θ₀, c θ = C) :
    Tangent θ₀ (fun θ => if c θ then f θ else g θ) (if C then X else Y) := by
  cases C with
  | true => exact hf.congr (by filter_upwards [h] with θ hθ; simp [hθ])
  | false => exact hg.congr (by filter_upwards [h] with θ hθ; simp [hθ])

theorem Tangent.clamp (h : Tangent θ₀ f X) (h0 : f θ₀ ≠ 0) (h1 : f θ₀ ≠ 1) :
    Tangent θ₀ (fun θ => Spec.clamp (f θ)) (Spec.clamp X) := by
  have hc := h.continuousAt
  have e := h.1
  have k : Spec.clamp X = if (1 : ℝ) < (if (0 : ℝ) < X.re then X else if X.re < 0 then ⟨0, 0⟩ else
      ⟨0, (0 + X.im) / 2⟩ : Dual ℝ).re then ⟨1, 0⟩ else
      if (if (0 : ℝ) < X.re then X else if X.re < 0 then ⟨0, 0⟩ else
        ⟨0, (0 + X.im) / 2⟩ : Dual ℝ).re < 1 then (if (0 : ℝ) < X.re then X else if X.re < 0 then ⟨0, 0⟩
        else ⟨0, (0 + X.im) / 2⟩ : Dual ℝ) else
      ⟨1, (0 + (if (0 : ℝ) < X.re then X else if X.re < 0 then ⟨0, 0⟩
        else ⟨0, (0 + X.im) / 2⟩ : Dual ℝ).im) / 2⟩ := rfl
  rw [k, ← e]
  rcases lt_or_gt_of_ne h0 with l0 | l0
  · rw [if_neg l0.not_gt, if_pos l0, if_neg (by norm_num), if_pos (by norm_num)]
    refine (Tangent.const 0).congr ?_
    filter_upwards [hc.eventually_lt continuousAt_const l0] with θ hθ
    show min 1 (max 0 (f θ)) = 0
    rw [max_eq_left hθ.le]; norm_num
  · rw [if_pos l0]
    rcases lt_or_gt_of_ne h1 with l1 | l1
    · rw [if_neg (by rw [← e]; exact l1.not_gt), if_pos (by rw [← e]; exact l1)]
      refine h.congr ?_
      filter_upwards [hc.eventually_lt continuousAt_const l1,
        continuousAt_const.eventually_lt hc l0] with θ a b
      show min 1 (max 0 (f θ)) = f θ
      rw [max_eq_right b.le, min_eq_right a.le]
    · rw [if_pos (by rw [← e]; exact l1)]
      refine (Tangent.const 1).congr ?_
      filter_upwards [continuousAt_const.eventually_lt hc l1,
        continuousAt_const.eventually_lt hc l0] with θ a b
      show min 1 (max 0 (f θ)) = 1
      rw [max_eq_right b.le, min_eq_left a.le]

theorem tangent_call {s : ℝ → ACTStates ℝ} {S : ACTStates (Dual ℝ)} {op : ℝ → Op ℝ} {OP : Op (Dual ℝ)}
    (hwf : ∀ θ, (s θ).WF) (hWF : S.WF) (hs : StateRel (Tangent θ₀) s S) (ho : CallRel (Tangent θ₀) op OP)
    (hreg : (op θ₀).Regular (s θ₀)) :
    OutcomesRel (Tangent θ₀) (fun θ => (op θ).call ⟨s θ⟩) (OP.call ⟨S⟩) := by
  have thr : Tangent θ₀ (fun θ => Spec.threshold S.probabilities.dtype (s θ).epsilon)
      (Spec.threshold S.probabilities.dtype S.epsilon) := (Tangent.const 1).sub hs.epsilon .f64
  have halted : ∀ {p : ℝ → ℝ} {P : Dual ℝ}, Tangent θ₀ p P → p θ₀ ≠ 1 - (s θ₀).epsilon →
      ∀ᶠ θ in 𝓝 θ₀, Spec.isHalted S.probabilities.dtype (s θ).epsilon (p θ) =
        Spec.isHalted S.probabilities.dtype S.epsilon P := by
    intro p P hp hne
    filter_upwards [eventually_lt thr.continuousAt hp.continuousAt hne.symm] with θ hθ
    rw [isHalted_re, ← hp.1, ← hs.epsilon.1]
    exact hθ
  refine call_rel hwf hWF hs ho ?_ ?_
  · intro h H e _ _ b p x P X hp hx rp rx
    rw [e] at hreg
    obtain ⟨g1, g2, g3⟩ := hreg b (p θ₀) (x θ₀) (hp θ₀) (hx θ₀)
    have dem : ContinuousAt (fun θ => (s θ).depression_constant * Spec.clamp (x θ) + p θ) θ₀ :=
      ((hs.depression.continuousAt.mul
        (continuousAt_const.inf (continuousAt_const.sup rx.continuousAt)))).add rp.continuousAt
    have ev : ∀ᶠ θ in 𝓝 θ₀, Spec.crosses S.probabilities.dtype (s θ).epsilon
        (s θ).depression_constant (p θ) (x θ) =
        Spec.crosses S.probabilities.dtype S.epsilon S.depression_constant P X := by
      have hne : Spec.threshold S.probabilities.dtype (s θ₀).epsilon ≠
          (s θ₀).depression_constant * Spec.clamp (x θ₀) + p θ₀ := by
        rw [add_comm]; exact g2.symm
      filter_upwards [eventually_lt thr.continuousAt dem hne] with θ hθ
      rw [crosses_re, ← hs.epsilon.1, ← hs.depression.1, ← rp.1, ← rx.1]
      exact hθ
    have wt : Tangent θ₀ (fun θ => Spec.weight S.probabilities.dtype (s θ).epsilon
        (s θ).depression_constant (p θ) (x θ))
        (Spec.weight S.probabilities.dtype S.epsilon S.depression_constant P X) := by
      by_cases hc : p θ₀ + (s θ₀).depression_constant * Graves.clip (x θ₀) < 1 - (s θ₀).epsilon
      · obtain ⟨k0, k1⟩ := g3 hc
        exact ((Tangent.const 1).sub rp _).ite (hs.depression.mul (rx.clamp k0 k1) _) ev
      · have hlt : 1 - (s θ₀).epsilon < p θ₀ + (s θ₀).depression_constant * Graves.clip (x θ₀) :=
          lt_of_le_of_ne (not_lt.1 hc) g2.symm
        have hC : Spec.crosses S.probabilities.dtype S.epsilon S.depression_constant P X = true := by
          rw [crosses_re, ← hs.epsilon.1, ← hs.depression.1, ← rp.1, ← rx.1]
          refine decide_eq_true ?_
          rw [add_comm] at hlt
          exact hlt
        have : Spec.weight S.probabilities.dtype S.epsilon S.depression_constant P X =
            Arith.sub S.probabilities.dtype Arith.one P := by
          unfold Spec.weight; rw [hC]; rfl
        rw [this]
        refine ((Tangent.const 1).sub rp S.probabilities.dtype).congr ?_
        filter_upwards [ev] with θ hθ
        unfold Spec.weight
        rw [hθ, hC]; rfl
    have hl := halted rp g1
    refine ⟨?_, ?_, ?_, ?_⟩
    · simp only [convS_exact, convS_dual]
      exact rp.add wt _
    · intro r Q hr
      simp only [Spec.step, convS_exact, convS_dual]
      exact ((Tangent.const 1).sub rp _).ite hr
        (by filter_upwards [ev, hl] with θ a b; rw [a, b])
    · intro n N hn
      simp only [Spec.step]
      exact hn.ite (hn.add (Tangent.const 1) _) hl
    · intro dA dU a u A U ha hu
      simp only [Spec.accStep, convS_exact, convS_dual]
      exact ha.ite (ha.add (wt.mul hu _) _) hl
  · intro e b p P hp rp
    rw [e] at hreg
    have hl := halted rp (hreg b (p θ₀) (hp θ₀))
    refine ⟨?_, ?_⟩
    · intro d' x X hx
      simp only [Spec.keepIf, convS_exact, convS_dual]
      refine hx.mul (((Tangent.const 1).ite (Tangent.const 0) (C := !Spec.isHalted _ _ _) ?_)) d'
      filter_upwards [hl] with θ a
      rw [a]
    · intro a x A X ha hx
      simp only [Spec.resetEntry]
      exact hx.ite ha hl

/-- C77, derivatives: let epsilon, depression constant, every tensor of the controller and every argument
of the calls be differentiable functions of a parameter, with the tangents given to the run on dual
numbers.  If the calls are regular at `θ₀`, the dual run raises what every plain run raises, or the entries
of its result hold the values and the derivatives at `θ₀` of the entries of the plain results. -/
theorem C77_jvp {s : ℝ → ACTStates ℝ} {S : ACTStates (Dual ℝ)} (hwf : ∀ θ, (s θ).WF) (hWF : S.WF)
    (hs : StateRel (Tangent θ₀) s S) {ops : List (ℝ → Op ℝ)} {OPS : List (Op (Dual ℝ))}
    (ho : List.Forall₂ (CallRel (Tangent θ₀)) ops OPS)
    (hreg : Along (fun s op => op.Regular s) ⟨s θ₀⟩ (ops.map (· θ₀))) :
    OutcomesRel (Tangent θ₀) (fun θ => run ⟨s θ⟩ (ops.map (· θ))) (run ⟨S⟩ OPS) :=
  run_rel θ₀ (fun _ _ _ _ hwf hWF hs ho hg => tangent_call hwf hWF hs ho hg) ho hwf hWF hs hreg

/-! ### A controller with one batch element -/

namespace OneElement

/-- A `float32` tensor with one entry. -/
def one (x : α) : Tensor α := ⟨.f32, ⟨[1], fun _ _ => x⟩⟩

/-- The tree that is this tensor. -/
def tree (x : α) : PyTree (Leaf α) := .leaf (.tensor (one x))

/-- Fresh controller with one accumulator. -/
def start (eps z o : α) : ACTStates α where
  epsilon := eps
  iterations := one z
  residuals := one z
  probabilities := one z
  defaults := [("out", tree z)]
  accumulators := [("out", tree z)]
  updates := [("out", .none)]
  depression_constant := o
  error_mode := Option.none

/-- Cache `u`, iterate with `h`. -/
def calls (u h : α) : List (Op α) := [.cache "out" (tree u), .iterate (one h)]

theorem start_wf (eps z o : α) : (start eps z o).WF where
  floating := rfl
  res_shape := rfl
  res_dtype := rfl
  it_shape := rfl
  it_dtype := by show DType.f32 ≠ DType.bool; decide
  acc_keys := List.nodup_singleton _
  def_keys := List.nodup_singleton _
  upd_keys := List.nodup_singleton _
  def_iff := by intro n; exact Iff.rfl
  upd_iff := by intro n; exact Iff.rfl
  batched := by
    intro n t h
    obtain ⟨-, rfl⟩ := Fixtures.get?_one h
    intro l hl
    have : (tree z).treeLeaves = [.tensor (one z)] := rfl
    rw [this, List.mem_singleton] at hl
    exact ⟨one z, hl, rfl, ⟨[], rfl⟩⟩
  same := by
    intro n t u h1 h2
    obtain ⟨-, rfl⟩ := Fixtures.get?_one h1
    obtain ⟨-, rfl⟩ := Fixtures.get?_one h2
    exact ⟨rfl, .cons ⟨one z, one z, rfl, rfl, rfl, rfl⟩ .nil⟩

theorem one_rel {R : (ι → α) → β → Prop} {x : ι → α} {X : β} (h : R x X) :
    TensorRel R (fun θ => one (x θ)) (one X) := by
  refine ⟨fun θ => ⟨rfl, rfl⟩, fun i Y hY => ?_⟩
  unfold Tensor.at? Arr.at? one at *
  simp only at *
  split at hY
  · next hi =>
    cases hY
    exact ⟨x, fun θ => by rw [dif_pos hi], h⟩
  · cases hY

theorem tree_rel {R : (ι → α) → β → Prop} {x : ι → α} {X : β} (h : R x X) :
    TreeRel R (fun θ => tree (x θ)) (tree X) := by
  refine ⟨fun θ => ⟨rfl, rfl⟩, fun k i Y hY => ?_⟩
  cases k with
  | succ k => cases hY
  | zero => exact (one_rel h).2 i Y hY

theorem dict_rel {R : (ι → α) → β → Prop} {x : ι → α} {X : β} (h : R x X) :
    DictRel R (fun θ => [("out", tree (x θ))]) [("out", tree X)] := by
  refine ⟨fun θ n => ?_, fun n k i Y hY => ?_⟩
  · simp only [Dict.get?]
    split
    · exact .some ((tree_rel h).1 θ)
    · exact .none
  · unfold entry? leaf? at hY ⊢
    simp only [Dict.get?] at hY ⊢
    by_cases hn : "out" = n
    · simp only [hn, if_true] at hY ⊢
      exact (tree_rel h).2 k i Y (by unfold PyTree.entry?; exact hY)
    · simp only [hn, if_false] at hY
      cases hY

theorem start_rel {R : (ι → α) → β → Prop} {e z o : ι → α} {E Z O : β} (he : R e E) (hz : R z Z)
    (ho : R o O) : StateRel R (fun θ => start (e θ) (z θ) (o θ)) (start E Z O) := by
  refine ⟨he, ho, fun _ => rfl, one_rel hz, one_rel hz, one_rel hz, dict_rel hz, dict_rel hz,
    fun θ n => ?_, fun n k i Y hY => ?_⟩
  · simp only [start, Dict.get?]
    split
    · exact .some ⟨rfl, rfl⟩
    · exact .none
  · unfold entry? leaf? at hY
    simp only [start, Dict.get?] at hY
    by_cases hn : "out" = n
    · simp only [hn, if_true] at hY
      cases hY
    · simp only [hn, if_false] at hY
      cases hY

theorem calls_rel {R : (ι → α) → β → Prop} {u h : ι → α} {U H : β} (hu : R u U) (hh : R h H) :
    List.Forall₂ (CallRel R) [fun θ => .cache "out" (tree (u θ)), fun θ => .iterate (one (h θ))]
      (calls U H) :=
  .cons (.cache _ (tree_rel hu)) (.cons (.iterate (one_rel hh)) .nil)

theorem at_one {x y : α} {i : List Nat} (h : (one x).at? i = some y) : y = x := by
  unfold Tensor.at? Arr.at? one at h
  simp only at h
  split at h
  · cases h; rfl
  · cases h

/-- The cumulative probability after the two calls. -/
theorem prob_after {e h u : ℝ} {c : Controller ℝ} (hr : run ⟨start e 0 1⟩ (calls u h) = .ok c) :
    c.state.probabilities.at? [0] =
      some (if 1 - e < Graves.clip h then 1 else Graves.clip h) := by
  simp only [calls, run, Op.call, bind_ok] at hr
  obtain ⟨c1, h1, c2, h2, h3⟩ := hr
  cases h3
  have st1 := Controller.cacheUpdate_ok_iff.1 h1
  have w1 := Controller.CacheStep.wf (start_wf e 0 1) st1
  have st2 := Controller.iterateAct_ok w1 h2
  rw [st1.eq] at st2
  obtain ⟨k, -, -⟩ := st2.cell [0] 0 0 0 h rfl rfl rfl rfl
  rw [k]
  simp only [convS_exact]
  have hx : Spec.crosses (α := ℝ) .f32 e 1 0 h = decide (1 - e < Graves.clip h) := by
    show decide (1 - e < 1 * Graves.clip h + 0) = _
    rw [one_mul, add_zero]
  show some ((0 : ℝ) + Spec.weight .f32 e 1 0 h) = _
  unfold Spec.weight
  rw [hx]
  by_cases hc : 1 - e < Graves.clip h
  · rw [if_pos (decide_eq_true hc), if_pos hc]
    show some ((0 : ℝ) + (1 - 0)) = _
    norm_num
  · rw [if_neg (by simpa using hc), if_neg hc]
    show some ((0 : ℝ) + 1 * Graves.clip h) = _
    norm_num

/-- The two calls succeed whatever the numbers. -/
theorem calls_ok {α : Type} [Arith α] (e z o u h : α) : ∃ c, run ⟨start e z o⟩ (calls u h) = .ok c := by
  have hq : Fixtures.succeeds (run ⟨start (0 : ℚ) 0 0⟩ (calls 0 0)) = true := by decide +kernel
  have ha := C53_values_do_not_matter (start_wf (0 : ℚ) 0 0) (start_wf e z o)
    ((start_rel (R := fun (_ : Unit → ℚ) (_ : α) => True) (e := fun _ => 0) (z := fun _ => 0)
      (o := fun _ => 0) trivial trivial trivial).alike ())
    (ops := calls 0 0) (ops' := calls u h)
    (.cons (.cache _ ⟨rfl, rfl⟩) (.cons (.iterate ⟨rfl, rfl⟩) .nil))
  cases hr : run ⟨start e z o⟩ (calls u h) with
  | ok c => exact ⟨c, rfl⟩
  | error x =>
    rw [hr] at ha
    generalize run ⟨start (0 : ℚ) 0 0⟩ (calls 0 0) = r at ha hq
    cases ha
    cases hq

/-- A halting probability equal to the parameter: what the derivative claim would say about the
cumulative probability. -/
theorem claim {D : Dual ℝ}
    (h : OutcomesRel (Tangent θ₀) (fun θ => run ⟨start (1 / 10 : ℝ) 0 1⟩ (calls 3 θ))
      (run ⟨start ⟨1 / 10, 0⟩ ⟨0, 0⟩ ⟨1, 0⟩⟩ (calls ⟨3, 0⟩ D))) :
    ∃ d, HasDerivAt (fun θ : ℝ => if 1 - 1 / 10 < Graves.clip θ then 1 else Graves.clip θ) d θ₀ := by
  have hok := fun θ : ℝ => calls_ok (1 / 10 : ℝ) 0 1 3 θ
  choose c hc using hok
  obtain ⟨C, hC⟩ := calls_ok (⟨1 / 10, 0⟩ : Dual ℝ) ⟨0, 0⟩ ⟨1, 0⟩ ⟨3, 0⟩ D
  rw [hC] at h
  generalize hf : (fun θ : ℝ => run ⟨start (1 / 10 : ℝ) 0 1⟩ (calls 3 θ)) = f at h
  cases h with
  | ok hrel =>
    rename_i c'
    have hp : ∀ θ, (c' θ).state.probabilities.at? [0] =
        some (if 1 - 1 / 10 < Graves.clip θ then 1 else Graves.clip θ) :=
      fun θ => prob_after (congrFun hf θ)
    obtain ⟨X, hX⟩ := Controller.at?_some_of_shape (b := C.state.probabilities)
      (hrel.probabilities.1 θ₀).1.symm (hp θ₀)
    obtain ⟨g, hg, -, hd⟩ := hrel.probabilities.2 _ X hX
    have : g = fun θ => if 1 - 1 / 10 < Graves.clip θ then 1 else Graves.clip θ := by
      funext θ
      have := hg θ
      rw [hp θ] at this
      exact (Option.some.inj this).symm
    exact ⟨_, this ▸ hd⟩

end OneElement

open OneElement

/-- The hypotheses hold together: halting probability `θ` at `θ₀ = 1/2` with update `3`. -/
theorem C77_example : OutcomesRel (Tangent (1 / 2)) (fun θ => run ⟨start (1 / 10 : ℝ) 0 1⟩ (calls 3 θ))
    (run ⟨start ⟨1 / 10, 0⟩ ⟨0, 0⟩ ⟨1, 0⟩⟩ (calls ⟨3, 0⟩ ⟨1 / 2, 1⟩)) := by
  refine C77_jvp (s := fun _ => start (1 / 10 : ℝ) 0 1)
    (ops := [fun _ => .cache "out" (tree 3), fun θ => .iterate (one θ)]) (fun _ => start_wf ..)
    (start_wf ..) (start_rel (Tangent.const _) (Tangent.const _) (Tangent.const _))
    (calls_rel (Tangent.const _) ⟨rfl, hasDerivAt_id _⟩) ⟨trivial, fun c' hc => ⟨?_, fun _ _ => trivial⟩⟩
  have st := Controller.cacheUpdate_ok_iff.1 
    (show Controller.cacheUpdate ⟨start (1 / 10 : ℝ) 0 1⟩ "out" (tree 3) = .ok c' from hc)
  rw [st.eq]
  intro b p x hp hx
  rw [at_one hp, at_one hx]
  have : Graves.clip (1 / 2 : ℝ) = 1 / 2 := by unfold Graves.clip; norm_num
  show (0 : ℝ) ≠ 1 - 1 / 10 ∧ (0 : ℝ) + 1 * Graves.clip (1 / 2) ≠ 1 - 1 / 10 ∧
    ((0 : ℝ) + 1 * Graves.clip (1 / 2) < 1 - 1 / 10 → (1 / 2 : ℝ) ≠ 0 ∧ (1 / 2 : ℝ) ≠ 1)
  rw [this]
  norm_num

/-- C77, the corner of the clip: with a halting probability of exactly `0` the plain result is not
differentiable (and the tangent that comes out is half of the one that went in, see below). -/
theorem C77_corner : ¬ OutcomesRel (Tangent 0) (fun θ => run ⟨start (1 / 10 : ℝ) 0 1⟩ (calls 3 θ))
    (run ⟨start ⟨1 / 10, 0⟩ ⟨0, 0⟩ ⟨1, 0⟩⟩ (calls ⟨3, 0⟩ ⟨0, 1⟩)) := by
  intro h
  obtain ⟨d, hd⟩ := claim h
  have h1 : HasDerivAt (fun θ : ℝ => max 0 θ) d 0 := by
    refine hd.congr_of_eventuallyEq ?_
    filter_upwards [gt_mem_nhds (show (0 : ℝ) < 1 / 2 by norm_num)] with θ hθ
    have : Graves.clip θ = max 0 θ := by
      unfold Graves.clip
      exact min_eq_right (max_le (by norm_num) (by linarith))
    have hm : max 0 θ ≤ 1 / 2 := max_le (by norm_num) hθ.le
    rw [this, if_neg (by linarith)]
  have h2 : HasDerivAt (fun θ : ℝ => 2 * max 0 θ - θ) (2 * d - 1) 0 :=
    (h1.const_mul 2).sub (hasDerivAt_id 0)
  refine not_differentiableAt_abs_zero (h2.congr_of_eventuallyEq (Eventually.of_forall fun θ => ?_)).differentiableAt
  show |θ| = 2 * max 0 θ - θ
  rcases le_total 0 θ with h | h
  · rw [abs_of_nonneg h, max_eq_right h]; ring
  · rw [abs_of_nonpos h, max_eq_left h]; ring

/-- C77, the threshold: with a halting probability that takes the element exactly to the threshold the
plain result is not even continuous. -/
theorem C77_jump : ¬ OutcomesRel (Tangent (9 / 10))
    (fun θ => run ⟨start (1 / 10 : ℝ) 0 1⟩ (calls 3 θ))
    (run ⟨start ⟨1 / 10, 0⟩ ⟨0, 0⟩ ⟨1, 0⟩⟩ (calls ⟨3, 0⟩ ⟨9 / 10, 1⟩)) := by
  intro h
  obtain ⟨d, hd⟩ := claim h
  have hc := hd.continuousAt
  have h0 : Graves.clip (9 / 10 : ℝ) = 9 / 10 := by unfold Graves.clip; norm_num
  have h1 := hc.eventually_lt (continuousAt_const (y := (19 / 20 : ℝ))) (by rw [h0]; norm_num)
  obtain ⟨ε, hε, hb⟩ := Metric.eventually_nhds_iff.1 h1
  have h2 : (9 / 10 : ℝ) < Graves.clip (9 / 10 + ε / 2) := by
    unfold Graves.clip
    exact lt_min (by norm_num) (lt_max_of_lt_right (by linarith))
  have h3 := hb (y := 9 / 10 + ε / 2) (by rw [Real.dist_eq]; rw [add_sub_cancel_left, abs_of_pos] <;> linarith)
  rw [if_pos (by linarith)] at h3
  norm_num at h3

end Jvp

section Example
open OneElement
attribute [local instance] Arith.exact Arith.dual

/-- Probability, accumulator and residual after the two calls on dual numbers. -/
private def look (h : Dual ℚ) : Option (Option (Dual ℚ) × Option (Dual ℚ) × Option (Dual ℚ)) :=
  match run ⟨start (⟨1 / 10, 0⟩ : Dual ℚ) ⟨0, 0⟩ ⟨1, 0⟩⟩ (calls ⟨3, 0⟩ h) with
  | .ok c => some (c.state.probabilities.at? [0], entry? c.state.accumulators "out" 0 [0],
      c.state.residuals.at? [0])
  | .error _ => Option.none

/-- Value and tangent. -/
private def d (x y : ℚ) : Dual ℚ := ⟨x, y⟩

/-- Over the rationals: at `1/2` the probability has tangent `1` and the accumulator tangent `3`; at the
corner `0` they are halved; at `19/20`, a crossing step, both vanish and the residual is constant. -/
example :
    look (d (1 / 2) (1)) = some (some (d (1 / 2) (1)), some (d (3 / 2) (3)), some (d (0) (0))) ∧
    look (d (0) (1)) = some (some (d (0) (1 / 2)), some (d (0) (3 / 2)), some (d (0) (0))) ∧
    look (d (19 / 20) (1)) = some (some (d (1) (0)), some (d (3) (0)), some (d (1) (0))) := by
  refine ⟨?_, ?_, ?_⟩ <;> decide +kernel

end Example

end JaxAct
