import Verif.Basic.Special
import Verif.Props.C31
import Verif.Props.C03
import Verif.Lemmas.Slice

/-!
# C60 Not-a-number and infinite inputs

Floating point arithmetic with infinities and NaN, over any rounding `R` (`Basic/Special`).
-/

namespace JaxAct
open ACTStates

namespace Ext

@[simp] theorem add_nan (r : ℚ → Ext) (x : Ext) : add r x nan = nan := by cases x <;> rfl
@[simp] theorem nan_add (r : ℚ → Ext) (x : Ext) : add r nan x = nan := by cases x <;> rfl
@[simp] theorem mul_nan (r : ℚ → Ext) (x : Ext) : mul r x nan = nan := by cases x <;> rfl
@[simp] theorem nan_mul (r : ℚ → Ext) (x : Ext) : mul r nan x = nan := by cases x <;> rfl
@[simp] theorem lt_nan (x : Ext) : lt x nan = false := by cases x <;> rfl
@[simp] theorem max_nan (x : Ext) : max x nan = nan := by cases x <;> rfl
@[simp] theorem min_nan (x : Ext) : min x nan = nan := by cases x <;> rfl
@[simp] theorem round_nan (r : ℚ → Ext) : round r nan = nan := rfl

end Ext

section General
variable {R : DType → ℚ → Ext} [A : Arith Ext]

theorem convS_nan (hA : A = Arith.special R) (f t : DType) : convS f t Ext.nan = Ext.nan := by
  subst hA; unfold convS; split <;> rfl

theorem isHalted_nan (hA : A = Arith.special R) (d : DType) (eps : Ext) :
    Spec.isHalted d eps Ext.nan = false := by
  subst hA; exact Ext.lt_nan _

theorem demand_nan (hA : A = Arith.special R) (d : DType) (dep : Ext) :
    Spec.demand d dep Ext.nan = Ext.nan := by
  subst hA
  unfold Spec.demand Spec.clamp
  show Ext.mul (R d) _ (Ext.min _ (Ext.max _ Ext.nan)) = _
  simp

theorem weight_nan (hA : A = Arith.special R) (d : DType) (eps dep p : Ext) :
    Spec.weight d eps dep p Ext.nan = Ext.nan := by
  have hc : Spec.crosses d eps dep p Ext.nan = false := by
    unfold Spec.crosses
    rw [demand_nan hA]
    subst hA
    show Ext.lt _ (Ext.add (R d) Ext.nan p) = false
    simp
  unfold Spec.weight
  rw [hc, demand_nan hA]
  rfl

/-- Once the probability is NaN the whole demand is taken as the weight. -/
theorem weight_of_nan (hA : A = Arith.special R) (d : DType) (eps dep h : Ext) :
    Spec.weight d eps dep Ext.nan h = Spec.demand d dep h := by
  have hc : Spec.crosses d eps dep Ext.nan h = false := by
    unfold Spec.crosses
    subst hA
    show Ext.lt _ (Ext.add (R d) _ Ext.nan) = false
    simp
  unfold Spec.weight
  rw [hc]
  rfl

/-- A NaN probability stays NaN. -/
theorem step_of_nan (hA : A = Arith.special R) {d di : DType} {eps dep r n h : Ext} :
    (Spec.step d di eps dep ⟨.nan, r, n⟩ h).prob = .nan := by
  unfold Spec.step
  simp only
  generalize Spec.weight d eps dep Ext.nan h = w
  subst hA
  exact Ext.nan_add (R d) w

theorem keepIf_nan (hA : A = Arith.special R) {d : DType} {k : Bool} :
    Spec.keepIf d k Ext.nan = .nan := by
  unfold Spec.keepIf
  generalize convS .bool d (Arith.ofBool k : Ext) = w
  subst hA
  exact Ext.nan_mul (R d) w

/-- C60.  A NaN halting probability makes the cumulative probability of its batch element NaN, and the
element counts as not halted -- **also if it was halted before**. -/
theorem C60_nan_halting_poisons (hA : A = Arith.special R) {s : ACTStates Ext} (hs : s.WF)
    {h : Tensor Ext} {c : Controller Ext} (ok : Controller.iterateAct ⟨s⟩ h = .ok c)
    {b : List Nat} (hb : h.at? b = some .nan) :
    c.probabilities.at? b = some .nan ∧ c.haltedBatches.at? b = some false := by
  have st := Controller.iterateAct_ok hs ok
  obtain ⟨p, hp⟩ := Controller.at?_some_of_shape (b := s.probabilities) st.hshape.symm hb
  obtain ⟨r, n, x, -, -, hx, h1, -, -⟩ := st.cellAt hs hp
  rw [hb] at hx
  cases hx
  have e : c.probabilities.at? b = some .nan := by
    show c.state.probabilities.at? b = _
    rw [h1, convS_nan hA]
    unfold Spec.step
    simp only
    rw [weight_nan hA]
    subst hA
    exact congrArg some (Ext.add_nan _ _)
  refine ⟨e, (halted_iff (s := c.state) (Controller.IterStep.wf hs st).floating).2
    ⟨_, e, isHalted_nan hA _ _⟩⟩

/-- C60.  A NaN cumulative probability stays NaN through any history, `reset_batches` included; the
element is never halted again, so `is_completely_halted` is false for ever. -/
theorem C60_nan_forever (hA : A = Arith.special R) {s : ACTStates Ext} (hs : s.WF)
    {b : List Nat} (hb : s.probabilities.at? b = some .nan) {ops : List (Op Ext)}
    {c : Controller Ext} (h : run ⟨s⟩ ops = .ok c) :
    c.probabilities.at? b = some .nan ∧ c.haltedBatches.at? b = some false ∧
      c.isCompletelyHalted = false := by
  have key := run_induction (Inv := fun t => t.probabilities.at? b = some Ext.nan) ?_ ?_ ?_ ops hs
    hb h
  · have hh := (halted_iff (s := c.state) key.1.floating).2 ⟨_, key.2, isHalted_nan hA _ _⟩
    refine ⟨key.2, hh, ?_⟩
    rw [← Bool.not_eq_true]
    unfold Controller.isCompletelyHalted
    rw [Arr.all_iff]
    intro hall
    exact absurd (hall b false hh) (by decide)
  · rintro t n x t' - ⟨-, rfl⟩ h; exact h
  · rintro t g t' hw st ht
    obtain ⟨r, n, x, -, -, -, h1, -, -⟩ := st.cellAt hw ht
    rw [h1]
    exact congrArg some (step_of_nan hA)
  · rintro t t' hw st ht
    obtain ⟨r, n, hr, hn⟩ := hw.cell ht
    obtain ⟨h1, -, -⟩ := st.cell b _ r n ht hr hn
    rw [h1]
    unfold Spec.resetCell
    simp only
    rw [isHalted_nan hA]
    exact congrArg some (keepIf_nan hA)

/-- C60.  Once the probability is NaN the accumulators take every further update with its full
depressed, clamped halting probability as weight, without any limit on the total -- also for an
element that was halted and complete before. -/
theorem C60_nan_accumulates (hA : A = Arith.special R) {s : ACTStates Ext} (hs : s.WF)
    {h : Tensor Ext} {c : Controller Ext} (ok : Controller.iterateAct ⟨s⟩ h = .ok c)
    {name : String} {k : Nat} {i : List Nat} {a : Ext}
    (hb : s.probabilities.at? (i.take s.probabilities.shape.length) = some .nan)
    (ha : entry? s.accumulators name k i = some a) :
    ∃ u x dA dU, entry? s.updates name k i = some u ∧
      h.at? (i.take s.probabilities.shape.length) = some x ∧
      let d := s.probabilities.dtype
      let w := Arith.mul d (Arith.cast d s.depression_constant)
        (Arith.min Arith.one (Arith.max Arith.zero (convS h.dtype d x)))
      let dM := DType.promote d dU
      entry? c.accumulators name k i = some
        (Arith.add dA a (convS dM dA (Arith.mul dM (convS d dM w) (convS dU dM u)))) := by
  have st := Controller.iterateAct_ok hs ok
  obtain ⟨u, p, x, dA, dU, h1, h2, h3, h4⟩ := st.entry hs ha
  rw [hb] at h2
  cases h2
  refine ⟨u, x, dA, dU, h1, h3, ?_⟩
  show entry? c.state.accumulators name k i = _
  rw [h4]
  unfold Spec.accStep
  rw [isHalted_nan hA, weight_of_nan hA]
  rfl

/-- C60.  Infinite halting probabilities are clamped like large numbers: plus infinity acts as 1, minus
infinity as 0. -/
theorem C60_infinite_halting_clamped (hA : A = Arith.special R) {s : ACTStates Ext} (hs : s.WF)
    {h g : Tensor Ext} (hd : h.dtype = s.probabilities.dtype) (gd : g.dtype = s.probabilities.dtype)
    {c d : Controller Ext} (ok : Controller.iterateAct ⟨s⟩ h = .ok c)
    (ok' : Controller.iterateAct ⟨s⟩ g = .ok d) {b : List Nat} {neg : Bool}
    (hb : h.at? b = some (.inf neg)) (gb : g.at? b = some (if neg then Arith.zero else Arith.one)) :
    c.probabilities.at? b = d.probabilities.at? b ∧ c.residuals.at? b = d.residuals.at? b ∧
    c.iterations.at? b = d.iterations.at? b ∧
    ∀ name k i, entry? c.accumulators name k (b ++ i) = entry? d.accumulators name k (b ++ i) := by
  have st := Controller.iterateAct_ok hs ok
  have st' := Controller.iterateAct_ok hs ok'
  obtain ⟨p, hp⟩ := Controller.at?_some_of_shape (b := s.probabilities) st.hshape.symm hb
  obtain ⟨r, n, x, hr, hn, hx, h1, h2, h3⟩ := st.cellAt hs hp
  obtain ⟨r', n', x', hr', hn', hx', g1, g2, g3⟩ := st'.cellAt hs hp
  rw [hb] at hx; rw [gb] at hx'; rw [hr] at hr'; rw [hn] at hn'
  cases hx; cases hx'; cases hr'; cases hn'
  rw [hd] at h1 h2 h3
  rw [gd] at g1 g2 g3
  have hc : Spec.clamp (Ext.inf neg) =
      Spec.clamp (if neg then Arith.zero else Arith.one : Ext) := by
    subst hA; cases neg <;> rfl
  have hdem : ∀ d dep, Spec.demand d dep (Ext.inf neg) =
      Spec.demand d dep (if neg then Arith.zero else Arith.one) := fun d dep => by
    unfold Spec.demand; rw [hc]
  have hcr : ∀ d eps dep p, Spec.crosses d eps dep p (Ext.inf neg) =
      Spec.crosses d eps dep p (if neg then Arith.zero else Arith.one) := fun d eps dep p => by
    unfold Spec.crosses; rw [hdem]
  have hw : ∀ d eps dep p, Spec.weight d eps dep p (Ext.inf neg) =
      Spec.weight d eps dep p (if neg then Arith.zero else Arith.one) := fun d eps dep p => by
    unfold Spec.weight; rw [hcr, hdem]
  have hcv : ∀ (e : DType) (x : Ext), convS e e x = x := fun e x => by unfold convS; rw [if_pos rfl]
  rw [hcv] at h1 h2 h3 g1 g2 g3
  simp only [Spec.step, hw, hcr] at h1 h2 h3 g1 g2 g3
  refine ⟨h1.trans g1.symm, h2.trans g2.symm, h3.trans g3.symm, fun name k i => ?_⟩
  show entry? c.state.accumulators name k _ = entry? d.state.accumulators name k _
  have hlen := length_of_at? hp
  cases ha : entry? s.accumulators name k (b ++ i) with
  | none => rw [st.entry_none ha, st'.entry_none ha]
  | some a =>
    obtain ⟨l, e1, e2⟩ := entry?_eq_some.1 ha
    obtain ⟨t, e3, e4⟩ := leaf?_eq_some.1 e1
    obtain ⟨u, a', u1, u2, u3⟩ := st.tree name t e3
    obtain ⟨v, b', v1, v2, v3⟩ := st'.tree name t e3
    rw [u1] at v1; cases v1
    obtain ⟨ta, tu, ta', f1, f2, f3, f4⟩ := u3.leaf k l e4
    obtain ⟨tb, tv, tb', i1, i2, i3, i4⟩ := v3.leaf k l e4
    subst f1; cases i1
    rw [f2] at i2; cases i2
    obtain ⟨y, hy⟩ := Controller.at?_some_of_shape (b := tu) f4.ushape
      (show ta.at? (b ++ i) = some a from e2)
    have t1 : (b ++ i).take s.probabilities.shape.length = b := by rw [← hlen, List.take_left]
    have k1 := f4.entry _ a y p _ e2 hy (by rw [t1]; exact hp) (by rw [t1]; exact hb)
    have k2 := i4.entry _ a y p _ e2 hy (by rw [t1]; exact hp) (by rw [t1]; exact gb)
    rw [entry?_eq_some.2 ⟨_, leaf?_eq_some.2 ⟨a', u2, f3⟩, k1⟩,
      entry?_eq_some.2 ⟨_, leaf?_eq_some.2 ⟨b', v2, i3⟩, k2⟩, hd, gd, hcv, hcv]
    unfold Spec.accStep
    rw [hw]

/-- C60.  A viewer mask does not hide NaN or an infinity: where the mask is False, a non-finite
probability shows as NaN instead of 0. -/
theorem C60_mask_leaks (hA : A = Arith.special R) (hR : ∀ d, R d 0 = .num 0)
    {v v' : Viewer Ext} (hs : v.state.WF) {mask : Tensor Ext} (h : v.maskData mask = .ok v')
    {b : List Nat} (hm : mask.at? b = some Arith.zero) {x : Ext} (hx : ∀ q, x ≠ .num q) :
    (v.state.probabilities.at? b = some x → v'.state.probabilities.at? b = some .nan) ∧
    (v.state.residuals.at? b = some x → v'.state.residuals.at? b = some .nan) ∧
    ∀ n k rest, b.length = mask.shape.length →
      entry? v.state.accumulators n k (b ++ rest) = some x →
      entry? v'.state.accumulators n k (b ++ rest) = some .nan := by
  have hz : ∀ d : DType, Arith.mul d (maskFactor d (Arith.zero : Ext)) x = .nan := by
    intro d
    have hf : maskFactor d (Arith.zero : Ext) = .num 0 := by
      subst hA
      unfold maskFactor convS
      split
      · rfl
      · exact hR d
    rw [hf]
    subst hA
    show Ext.mul _ _ _ = _
    cases x with
    | num q => exact absurd rfl (hx q)
    | inf a => show Ext.infMul a 0 = _; unfold Ext.infMul; rw [if_pos rfl]
    | nan => rfl
  obtain ⟨m1, -, m3, m4, -⟩ := C31_mask_entries hs h
  refine ⟨fun hp => ?_, fun hp => ?_, fun n k rest hl hp => ?_⟩
  · have := m3 b
    unfold Masked at this
    rw [this, hp, hm]
    exact congrArg some (hz _)
  · have := m4 b
    unfold Masked at this
    rw [this, hp, hm]
    exact congrArg some (hz _)
  · obtain ⟨l, e1, e2⟩ := entry?_eq_some.1 hp
    cases l with
    | obj o => cases e2
    | tensor a =>
      obtain ⟨a', f1, -, -, f4⟩ := m1 n k a e1
      have := f4 b rest hl
      unfold Masked at this
      refine entry?_eq_some.2 ⟨_, f1, ?_⟩
      show a'.at? _ = _
      have e2 : a.at? (b ++ rest) = some x := e2
      rw [this, e2, hm]
      exact congrArg some (hz _)

end General

section Example
attribute [local instance] ieeeSpecial

/-- A rank one float32 tensor. -/
private def xv (xs : List Ext) : Tensor Ext := ⟨.f32, ⟨[xs.length], fun i _ => xs.getD (i.headD 0) .nan⟩⟩

/-- A controller with one accumulator. -/
private def xs0 : ACTStates Ext where
  epsilon := .num (1/8)
  iterations := xv [.num 0, .num 0]
  residuals := xv [.num 0, .num 0]
  probabilities := xv [.num 0, .num 0]
  defaults := [("out", .leaf (.tensor (xv [.num 0, .num 0])))]
  accumulators := [("out", .leaf (.tensor (xv [.num 0, .num 0])))]
  updates := [("out", .none)]
  depression_constant := .num 1
  error_mode := none

private def xround (h u : List Ext) : Round Ext := ⟨[("out", .leaf (.tensor (xv u)))], xv h⟩

private def xobs {β : Type} (r : Res (Controller Ext)) (f : Controller Ext → β) : Option β :=
  match r with
  | .ok c => some (f c)
  | .error _ => none

/-- Element 0 halts in the first round with accumulator 2.  In the second round the layer reports NaN
for it: it is no longer halted.  Then it accumulates again: 2 + 1 * 2 + 1 * 2. -/
example :
    xobs (run ⟨xs0⟩ (roundOps [xround [.num 1, .num (1/4)] [.num 2, .num 2]]))
      (fun c => (c.haltedBatches.at? [0], entry? c.accumulators "out" 0 [0])) =
      some (some true, some (.num 2)) ∧
    xobs (run ⟨xs0⟩ (roundOps [xround [.num 1, .num (1/4)] [.num 2, .num 2],
        xround [.nan, .num (1/4)] [.nan, .num 2]]))
      (fun c => (c.haltedBatches.at? [0], entry? c.accumulators "out" 0 [0],
        entry? c.accumulators "out" 0 [1])) =
      some (some false, some (.num 2), some (.num 1)) ∧
    xobs (run ⟨xs0⟩ (roundOps [xround [.num 1, .num (1/4)] [.num 2, .num 2],
        xround [.nan, .num (1/4)] [.nan, .num 2], xround [.num 1, .num 1] [.num 2, .num 2],
        xround [.num 1, .num 1] [.num 2, .num 2]]))
      (fun c => (c.probabilities.at? [0], entry? c.accumulators "out" 0 [0],
        c.haltedBatches.at? [1], entry? c.accumulators "out" 0 [1])) =
      some (some .nan, some (.num 6), some true, some (.num 2)) := by
  decide +kernel

/-- After a reset the probability is still NaN. -/
example : xobs (run ⟨xs0⟩ (roundOps [xround [.nan, .num 1] [.num 2, .num 2]] ++ [.reset]))
      (fun c => (c.probabilities.at? [0], c.probabilities.at? [1])) =
    some (some .nan, some (.num 0)) := by decide +kernel

/-- Infinite halting probabilities. -/
example : xobs (run ⟨xs0⟩ (roundOps [xround [.inf false, .inf true] [.num 2, .num 2]]))
      (fun c => (c.probabilities.at? [0], c.probabilities.at? [1])) =
    some (some (.num 1), some (.num 0)) := by decide +kernel

/-- A view of element 1 only still shows NaN for element 0. -/
example : (match Viewer.maskData ⟨{ xs0 with probabilities := xv [.inf false, .num (1/4)] }⟩
      { xv [.num 0, .num 1] with dtype := .bool } with
    | .ok v => some (v.state.probabilities.at? [0], v.state.probabilities.at? [1])
    | .error _ => Option.none) = some (some .nan, some (.num (1/4))) := by decide +kernel

/-- Overflow: twice the largest float32 is infinite. -/
example : Arith.mul .f32 (.num 2) (.num (DType.largest .f32)) = Ext.inf false := by decide +kernel

/-- Rounding keeps zero. -/
example : ∀ d, DType.ieeeRound d 0 = .num 0 := by intro d; cases d <;> decide +kernel

end Example
end JaxAct
