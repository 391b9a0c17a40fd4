import Verif.Props.C53
import Verif.Props.C68
import Mathlib.Analysis.Calculus.Deriv.Add
import Mathlib.Analysis.Calculus.Deriv.Mul

/-! # C69 How results respond to the halting probabilities

Training differentiates through the controller.  For a fixed number of steps the result is an affine
function of each halting probability, with the slopes of Graves' paper. -/

namespace JaxAct
variable {K : Type} [Field K] [LinearOrder K] [IsStrictOrderedRing K]
attribute [local instance] Arith.exact
open ACTStates

/-- Rounds that give an accumulator entry the updates `u` and its batch element the halting
probabilities `h`, and what comes out of them. -/
structure Outcome (s : ACTStates K) (name : String) (k : Nat) (i : List Nat) (u h : Nat → K)
    (n : Nat) (c' : Controller K) : Prop where
  rounds : ∃ rs : List (Round K), rs.length = n ∧ run ⟨s⟩ (roundOps rs) = .ok c' ∧
    (∀ t r, rs[t]? = some r → entry? r.updates name k i = some (u t)) ∧
    (∀ t r, rs[t]? = some r →
      r.halting.at? (i.take s.probabilities.shape.length) = some (h t))

/-- C69: the response of a halted element, when the number of steps stays the same.  Changing the
halting probabilities changes the accumulator by the change of each demand times the difference
between its update and the last one; the last halting probability and later ones do not matter.  The
ponder cost changes by minus the change of the demands. -/
theorem C69_response {s : ACTStates K} (hwf : s.WF)
    (he0 : 0 < s.epsilon) (he1 : s.epsilon ≤ 1) (hdep : 0 ≤ s.depression_constant)
    {name : String} {k : Nat} {i : List Nat} {a0 : K} {u h h' : Nat → K} {n : Nat}
    (hp : s.probabilities.at? (i.take s.probabilities.shape.length) = some 0)
    (hr : s.residuals.at? (i.take s.probabilities.shape.length) = some 0)
    (hi : s.iterations.at? (i.take s.probabilities.shape.length) = some 0)
    (hacc : entry? s.accumulators name k i = some a0) {c c' : Controller K}
    (hc : Outcome s name k i u h n c) (hc' : Outcome s name k i u h' n c')
    (hhalt : c.haltedBatches.at? (i.take s.probabilities.shape.length) = some true)
    (hhalt' : c'.haltedBatches.at? (i.take s.probabilities.shape.length) = some true) {N : Nat}
    (hN : c.iterations.at? (i.take s.probabilities.shape.length) = some (N : K))
    (hN' : c'.iterations.at? (i.take s.probabilities.shape.length) = some (N : K))
    {a a' r r' : K} (ha : entry? c.accumulators name k i = some a)
    (ha' : entry? c'.accumulators name k i = some a')
    (hR : c.residuals.at? (i.take s.probabilities.shape.length) = some r)
    (hR' : c'.residuals.at? (i.take s.probabilities.shape.length) = some r') :
    a' - a = ∑ j ∈ Finset.range (N - 1),
      s.depression_constant * (Graves.clip (h' j) - Graves.clip (h j)) * (u j - u (N - 1)) ∧
    r' - r = - ∑ j ∈ Finset.range (N - 1),
      s.depression_constant * (Graves.clip (h' j) - Graves.clip (h j)) := by
  obtain ⟨rs, rfl, h1, h2, h3⟩ := hc.rounds
  obtain ⟨rs', hl, h1', h2', h3'⟩ := hc'.rounds
  have k1 := (C04_graves_weights hwf he0 he1 hdep rs h1 u h hp hacc h2 h3).1
  have k1' := (C04_graves_weights hwf he0 he1 hdep rs' h1' u h' hp hacc h2' h3').1
  obtain ⟨k2, k3⟩ := C68_counter_and_residual hwf he0 he1 hdep rs h1 h hp hr hi h3
  obtain ⟨k2', k3'⟩ := C68_counter_and_residual hwf he0 he1 hdep rs' h1' h' hp hr hi h3'
  have k4 := (C04_probability_and_halting hwf he0 he1 hdep rs h1 h hp h3).2.1 hhalt
  have k4' := (C04_probability_and_halting hwf he0 he1 hdep rs' h1' h' hp h3').2.1 hhalt'
  rw [hl] at k1' k2' k3' k4'
  rw [ha] at k1
  rw [ha'] at k1'
  rw [hN] at k2
  rw [hN'] at k2'
  rw [hR] at k3
  rw [hR'] at k3'
  have e1 : N = Graves.steps s.epsilon s.depression_constant h rs.length := by
    exact_mod_cast Option.some.inj k2
  have e2 : N = Graves.steps s.epsilon s.depression_constant h' rs.length := by
    exact_mod_cast Option.some.inj k2'
  have hs := e2.symm.trans e1
  rw [Option.some.inj k1, Option.some.inj k1', Option.some.inj k3, Option.some.inj k3', e1,
    ← Graves.sum_response (by linarith) k4 k4' hs, ← Graves.remainder_response k4 k4' hs]
  exact ⟨by ring, rfl⟩

/-- C69: the response of an element that has not halted. -/
theorem C69_response_running {s : ACTStates K} (hwf : s.WF)
    (he0 : 0 < s.epsilon) (he1 : s.epsilon ≤ 1) (hdep : 0 ≤ s.depression_constant)
    {name : String} {k : Nat} {i : List Nat} {a0 : K} {u h h' : Nat → K} {n : Nat}
    (hp : s.probabilities.at? (i.take s.probabilities.shape.length) = some 0)
    (hacc : entry? s.accumulators name k i = some a0) {c c' : Controller K}
    (hc : Outcome s name k i u h n c) (hc' : Outcome s name k i u h' n c')
    (hhalt : c.haltedBatches.at? (i.take s.probabilities.shape.length) ≠ some true)
    (hhalt' : c'.haltedBatches.at? (i.take s.probabilities.shape.length) ≠ some true)
    {a a' : K} (ha : entry? c.accumulators name k i = some a)
    (ha' : entry? c'.accumulators name k i = some a') :
    a' - a = ∑ j ∈ Finset.range n,
      s.depression_constant * (Graves.clip (h' j) - Graves.clip (h j)) * u j := by
  obtain ⟨rs, rfl, h1, h2, h3⟩ := hc.rounds
  obtain ⟨rs', hl, h1', h2', h3'⟩ := hc'.rounds
  have k1 := (C04_graves_weights hwf he0 he1 hdep rs h1 u h hp hacc h2 h3).1
  have k1' := (C04_graves_weights hwf he0 he1 hdep rs' h1' u h' hp hacc h2' h3').1
  have k4 := mt (C04_probability_and_halting hwf he0 he1 hdep rs h1 h hp h3).2.2 hhalt
  have k4' := mt (C04_probability_and_halting hwf he0 he1 hdep rs' h1' h' hp h3').2.2 hhalt'
  rw [hl] at k1' k4'
  rw [ha, Graves.sum_of_not k4] at k1
  rw [ha', Graves.sum_of_not k4'] at k1'
  rw [Option.some.inj k1, Option.some.inj k1', add_sub_add_left_eq_sub, ← Finset.sum_sub_distrib]
  exact Finset.sum_congr rfl fun j _ => by ring

/-- C69: the number of steps stays the same under small changes, unless the demands before the last
step add up to exactly the threshold.  That sum is `1 - r` for the residual `r`. -/
theorem C69_stable {s : ACTStates K} (hwf : s.WF)
    (he0 : 0 < s.epsilon) (he1 : s.epsilon ≤ 1) (hdep : 0 ≤ s.depression_constant)
    {name : String} {k : Nat} {i : List Nat} {u h : Nat → K} {n : Nat}
    (hp : s.probabilities.at? (i.take s.probabilities.shape.length) = some 0)
    (hr : s.residuals.at? (i.take s.probabilities.shape.length) = some 0)
    (hi : s.iterations.at? (i.take s.probabilities.shape.length) = some 0) {c : Controller K}
    (hc : Outcome s name k i u h n c)
    (hhalt : c.haltedBatches.at? (i.take s.probabilities.shape.length) = some true) {r : K}
    (hR : c.residuals.at? (i.take s.probabilities.shape.length) = some r) (hlt : s.epsilon < r) :
    ∃ δ, 0 < δ ∧ ∀ (h' : Nat → K) (u' : Nat → K) (c' : Controller K),
      (∀ j, j < n → |h' j - h j| ≤ δ) → Outcome s name k i u' h' n c' →
      c'.haltedBatches.at? (i.take s.probabilities.shape.length) = some true ∧
      c'.iterations.at? (i.take s.probabilities.shape.length) =
        c.iterations.at? (i.take s.probabilities.shape.length) := by
  obtain ⟨rs, rfl, h1, h2, h3⟩ := hc.rounds
  obtain ⟨k2, k3⟩ := C68_counter_and_residual hwf he0 he1 hdep rs h1 h hp hr hi h3
  have k4 := (C04_probability_and_halting hwf he0 he1 hdep rs h1 h hp h3).2.1 hhalt
  rw [hR, Graves.remainder, if_pos k4] at k3
  have k5 := Option.some.inj k3
  obtain ⟨δ, hδ, hd⟩ := Graves.steps_stable (by linarith) hdep k4 (by linarith)
  refine ⟨δ, hδ, fun h' u' c' hh hc' => ?_⟩
  obtain ⟨rs', hl, h1', h2', h3'⟩ := hc'.rounds
  obtain ⟨x, y⟩ := hd h' hh
  have m := (C68_counter_and_residual hwf he0 he1 hdep rs' h1' h' hp hr hi h3').1
  have m' := (C04_probability_and_halting hwf he0 he1 hdep rs' h1' h' hp h3').2
  rw [hl] at m m'
  exact ⟨m'.2 x, by rw [m, k2, y]⟩

/-- C69: the derivative.  `a x` is the accumulator entry when the halting probability of step `t` is
`x`.  At a point inside the unit interval where the number of steps is stable its derivative is the
depression constant times the difference between the update of that step and the last update; it is
zero for the last step and later ones. -/
theorem C69_derivative {s : ACTStates ℝ} (hwf : s.WF)
    (he0 : 0 < s.epsilon) (he1 : s.epsilon ≤ 1) (hdep : 0 ≤ s.depression_constant)
    {name : String} {k : Nat} {i : List Nat} {a0 : ℝ} {u h : Nat → ℝ} {n : Nat}
    (hp : s.probabilities.at? (i.take s.probabilities.shape.length) = some 0)
    (hr : s.residuals.at? (i.take s.probabilities.shape.length) = some 0)
    (hi : s.iterations.at? (i.take s.probabilities.shape.length) = some 0)
    (hacc : entry? s.accumulators name k i = some a0) {t : Nat} (ht0 : 0 < h t) (ht1 : h t < 1)
    (c : ℝ → Controller ℝ) (hc : ∀ x, Outcome s name k i u (Function.update h t x) n (c x))
    (hhalt : (c (h t)).haltedBatches.at? (i.take s.probabilities.shape.length) = some true)
    {N : Nat} (hN : (c (h t)).iterations.at? (i.take s.probabilities.shape.length) = some (N : ℝ))
    {r : ℝ → ℝ} (hR : ∀ x, (c x).residuals.at? (i.take s.probabilities.shape.length) = some (r x))
    (hlt : s.epsilon < r (h t)) {a : ℝ → ℝ}
    (ha : ∀ x, entry? (c x).accumulators name k i = some (a x)) :
    HasDerivAt a (if t < N - 1 then s.depression_constant * (u t - u (N - 1)) else 0) (h t) ∧
    HasDerivAt r (if t < N - 1 then - s.depression_constant else 0) (h t) := by
  obtain ⟨δ, hδ, hst⟩ := C69_stable hwf he0 he1 hdep hp hr hi (hc (h t)) hhalt (hR _) hlt
  have hev : ∀ᶠ x in nhds (h t), |x - h t| ≤ δ ∧ 0 < x ∧ x < 1 := by
    filter_upwards [Metric.ball_mem_nhds (h t) hδ, Ioo_mem_nhds ht0 ht1] with x hx hx'
    exact ⟨(Real.dist_eq x (h t) ▸ Metric.mem_ball.1 hx).le, hx'.1, hx'.2⟩
  have hclip : ∀ x : ℝ, 0 < x → x < 1 → Graves.clip x = x := fun x h0 h1 =>
    Spec.clamp_of_mem h0.le h1.le
  have key : ∀ᶠ x in nhds (h t),
      a x = a (h t) + (if t < N - 1 then s.depression_constant * (u t - u (N - 1)) else 0) *
        (x - h t) ∧
      r x = r (h t) + (if t < N - 1 then - s.depression_constant else 0) * (x - h t) := by
    filter_upwards [hev] with x hx
    obtain ⟨hx1, hx2, hx3⟩ := hx
    obtain ⟨g1, g2⟩ := hst (Function.update h t x) u (c x) (fun j _ => by
      rcases eq_or_ne j t with rfl | hj
      · simpa using hx1
      · simp [Function.update_of_ne hj, hδ.le]) (hc x)
    obtain ⟨e1, e2⟩ := C69_response hwf he0 he1 hdep hp hr hi hacc (hc (h t)) (hc x) hhalt g1 hN
      (g2.trans hN) (ha _) (ha _) (hR _) (hR _)
    have hterm : ∀ j, Graves.clip (Function.update h t x j) -
        Graves.clip (Function.update h t (h t) j) = if j = t then x - h t else 0 := by
      intro j
      split
      · next hj => rw [hj]; simp [hclip x hx2 hx3, hclip _ ht0 ht1]
      · next hj => simp [Function.update_of_ne hj]
    simp only [hterm, mul_ite, ite_mul, mul_zero, zero_mul, Finset.sum_ite_eq',
      Finset.mem_range] at e1 e2
    constructor
    · split at e1 <;> next hj => rw [sub_eq_iff_eq_add'.1 e1]; simp [hj]; try ring
    · split at e2 <;> next hj => rw [sub_eq_iff_eq_add'.1 e2]; simp [hj]; try ring
  have aff : ∀ y m : ℝ, HasDerivAt (fun x => y + m * (x - h t)) m (h t) := fun y m => by
    simpa using (((hasDerivAt_id' (h t)).sub_const (h t)).const_mul m).const_add y
  exact ⟨(aff _ _).congr_of_eventuallyEq (key.mono fun x hx => hx.1),
    (aff _ _).congr_of_eventuallyEq (key.mono fun x hx => hx.2)⟩

section Example
open Fixtures

/-- Element 1 of the fresh controller with halting probabilities 1/3, 1/3, 2/3 and updates 4, 8, 6:
raising the first probability by 1/6 lowers the result by 1/3 = 1/6 * (6 - 4). -/
example :
    let look := fun c : Controller ℚ => some (c.iterations.at? [1], c.haltedBatches.at? [1],
      entry? c.accumulators "tree" 1 [1, 0])
    obs (run ⟨fresh⟩ (roundOps [round [0, 1/3] 4 2, round [0, 1/3] 8 2, round [0, 2/3] 6 2])) look =
      some (some 3, some true, some (1 + (4/3 + 8/3 + 6/3))) ∧
    obs (run ⟨fresh⟩ (roundOps [round [0, 1/2] 4 2, round [0, 1/3] 8 2, round [0, 2/3] 6 2])) look =
      some (some 3, some true, some (1 + (4/3 + 8/3 + 6/3) - 1/3)) := by decide +kernel

/-! A case of the derivative: a batch of one element, accumulator `out`, halting probabilities 2/5,
updates 0, 1, 2, and the derivative with respect to the first halting probability. -/

/-- A tensor of one real number. -/
noncomputable def single (x : ℝ) : Tensor ℝ := ⟨.f32, ⟨[1], fun _ _ => x⟩⟩

/-- A state with the accumulator `out`. -/
noncomputable def realState : ACTStates ℝ where
  epsilon := 1/10
  iterations := single 0
  residuals := single 0
  probabilities := single 0
  defaults := [("out", .leaf (.tensor (single 0)))]
  accumulators := [("out", .leaf (.tensor (single 0)))]
  updates := [("out", .none)]
  depression_constant := 1
  error_mode := Option.none

theorem realState_wf : realState.WF where
  floating := rfl
  res_shape := rfl
  res_dtype := rfl
  it_shape := rfl
  it_dtype := by show DType.f32 ≠ DType.bool; decide
  acc_keys := by unfold Dict.WF; show (["out"] : List String).Nodup; decide
  def_keys := by unfold Dict.WF; show (["out"] : List String).Nodup; decide
  upd_keys := by unfold Dict.WF; show (["out"] : List String).Nodup; decide
  def_iff := by intro n; exact Iff.rfl
  upd_iff := by intro n; exact Iff.rfl
  batched := by
    intro n t h
    obtain ⟨-, rfl⟩ := get?_one h
    intro l hl
    obtain rfl := List.mem_singleton.1 hl
    exact ⟨single 0, rfl, rfl, ⟨[], rfl⟩⟩
  same := by
    intro n t u h1 h2
    obtain ⟨-, rfl⟩ := get?_one h1
    obtain ⟨-, rfl⟩ := get?_one h2
    exact ⟨rfl, .cons ⟨single 0, single 0, rfl, rfl, rfl, rfl⟩ .nil⟩

/-- Three rounds, the first with halting probability `x`. -/
noncomputable def realRounds (x : ℝ) : List (Round ℝ) :=
  [⟨[("out", .leaf (.tensor (single 0)))], single x⟩,
    ⟨[("out", .leaf (.tensor (single 1)))], single (2/5)⟩,
    ⟨[("out", .leaf (.tensor (single 2)))], single (2/5)⟩]

theorem realRun (x : ℝ) : ∃ c, run ⟨realState⟩ (roundOps (realRounds x)) = .ok c := by
  have h0 : Except.isOk (run ⟨realState⟩ (roundOps (realRounds 0))) = true := by decide +kernel
  have hx := C53_tracing realState_wf (roundOps (realRounds x))
  have hy := C53_tracing realState_wf (roundOps (realRounds 0))
  rw [show (roundOps (realRounds x)).map Op.abstract = (roundOps (realRounds 0)).map Op.abstract
    from rfl] at hx
  generalize @run Unit Arith.abstract ⟨realState.abstract⟩
    ((roundOps (realRounds 0)).map Op.abstract) = r at hx hy
  cases hr : run ⟨realState⟩ (roundOps (realRounds 0)) with
  | error e => rw [hr] at h0; cases h0
  | ok c =>
    rw [hr] at hy
    cases hy
    cases hr' : run ⟨realState⟩ (roundOps (realRounds x)) with
    | ok c' => exact ⟨c', rfl⟩
    | error e => rw [hr'] at hx; cases hx

theorem realOutcome (x : ℝ) : ∃ c, Outcome realState "out" 0 [0] (fun j => (j : ℝ))
    (Function.update (fun _ => 2/5) 0 x) 3 c := by
  obtain ⟨c, hc⟩ := realRun x
  refine ⟨c, ⟨realRounds x, rfl, hc, fun t r h => ?_, fun t r h => ?_⟩⟩
  · match t, h with
    | 0, h => cases h; exact congrArg some Nat.cast_zero.symm
    | 1, h => cases h; exact congrArg some Nat.cast_one.symm
    | 2, h => cases h; exact congrArg some (Nat.cast_ofNat (n := 2)).symm
  · match t, h with
    | 0, h => cases h; rfl
    | 1, h => cases h; rfl
    | 2, h => cases h; rfl

/-- All hypotheses of the derivative hold here, and the derivative of the result is 0 - 2. -/
example : ∃ (a r : ℝ → ℝ) (c : ℝ → Controller ℝ),
    (∀ x, Outcome realState "out" 0 [0] (fun j => (j : ℝ)) (Function.update (fun _ => 2/5) 0 x) 3
      (c x)) ∧
    (∀ x, entry? (c x).accumulators "out" 0 [0] = some (a x)) ∧
    (∀ x, (c x).residuals.at? [0] = some (r x)) ∧
    HasDerivAt a (-2) (2/5) ∧ HasDerivAt r (-1) (2/5) := by
  choose c hc using realOutcome
  have he : (0 : ℝ) < realState.epsilon ∧ realState.epsilon ≤ 1 := by
    show (0 : ℝ) < 1/10 ∧ (1/10 : ℝ) ≤ 1; norm_num
  have hd : (0 : ℝ) ≤ realState.depression_constant := zero_le_one
  have hrun := fun x => (hc x).rounds
  choose rs hl h1 h2 h3 using hrun
  have hA := fun x => C04_graves_weights realState_wf he.1 he.2 hd (rs x) (h1 x) (fun j => (j : ℝ))
    (Function.update (fun _ => 2/5) 0 x) (i := [0]) (name := "out") (k := 0) (a0 := 0) rfl rfl
    (h2 x) (h3 x)
  have hB := fun x => C68_counter_and_residual realState_wf he.1 he.2 hd (rs x) (h1 x) (b := [0])
    (Function.update (fun _ => 2/5) 0 x) rfl rfl rfl (h3 x)
  have hC := fun x => (C04_probability_and_halting realState_wf he.1 he.2 hd (rs x) (h1 x)
    (b := [0]) (Function.update (fun _ => 2/5) 0 x) rfl (h3 x)).2
  have clip25 : Graves.clip (2/5 : ℝ) = 2/5 := Spec.clamp_of_mem (by norm_num) (by norm_num)
  have hcum : ∀ t, Graves.cumDemand (1 : ℝ) (fun _ => 2/5) t = t * (2/5) := fun t => by
    simp [Graves.cumDemand, clip25]
  have hcr : ∀ t, Graves.Crossed (1/10 : ℝ) 1 (fun _ => 2/5) t ↔ 9/10 < (t : ℝ) * (2/5) :=
    fun t => by
      rw [Graves.crossed_iff zero_le_one, hcum]
      constructor <;> intro h <;> linarith
  have hst : Graves.steps (1/10 : ℝ) 1 (fun _ => 2/5) 3 = 3 :=
    Graves.steps_unique (by norm_num) ((hcr 3).2 (by norm_num)) (by rw [hcr]; norm_num)
      ((hcr 3).2 (by norm_num))
  have hup : Function.update (fun _ => (2/5 : ℝ)) 0 (2/5) = fun _ : Nat => (2/5 : ℝ) := by
    funext j; simp [Function.update_apply]
  have hB' := hB (2/5)
  have hC' := hC (2/5)
  simp only [hl, hup] at hB' hC'
  refine ⟨fun x => 0 + ∑ t ∈ Finset.range (rs x).length, Graves.weight realState.epsilon
      realState.depression_constant (Function.update (fun _ => 2/5) 0 x) t * (t : ℝ),
    fun x => Graves.remainder realState.epsilon realState.depression_constant
      (Function.update (fun _ => 2/5) 0 x) (rs x).length, c, hc, fun x => (hA x).1,
    fun x => (hB x).2, ?_⟩
  have := C69_derivative realState_wf he.1 he.2 hd (name := "out") (k := 0) (i := [0]) (a0 := 0)
    (u := fun j => (j : ℝ)) (h := fun _ => 2/5) (n := 3) (t := 0) rfl rfl rfl rfl (by norm_num)
    (by norm_num) c hc (N := 3) ?_ ?_ (fun x => (hB x).2) ?_ (fun x => (hA x).1)
  · have e1 : realState.depression_constant = 1 := rfl
    simp only [e1] at this ⊢
    norm_num at this ⊢
    exact this
  · exact hC'.2 ((hcr 3).2 (by norm_num))
  · have : Graves.steps realState.epsilon realState.depression_constant (fun _ => 2/5) 3 = 3 := hst
    rw [this] at hB'
    exact hB'.1
  · simp only [hl, hup]
    show (1/10 : ℝ) < Graves.remainder (1/10) 1 (fun _ => 2/5) 3
    rw [Graves.remainder, if_pos ((hcr 3).2 (by norm_num)), hst, hcum]
    norm_num

end Example
end JaxAct
