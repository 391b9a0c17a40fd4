import Verif.Spec.Pace
import Verif.Props.C109

/-!
# C112 An iteration can be split

What an update contributes is determined by the halting probability it is given in all, not by the number of
iterations in which it is given.
-/

namespace JaxAct
open PyTree ACTStates

section Exact
variable {K : Type} [Field K] [LinearOrder K] [IsStrictOrderedRing K]
attribute [local instance] Arith.exact

theorem Held.nonneg {b : List Nat} {q : Place} {u S : K} {rs : List (Round K)} (h : Held b q u rs S) : 0 ≤ S := by
  induction h with
  | nil => exact le_rfl
  | @cons _ _ h _ _ _ _ _ ih =>
    have : 0 ≤ Graves.clip h := le_min zero_le_one (le_max_left _ _)
    linarith

/-- An element of a state and an accumulator entry of it. -/
structure EntryOf (b : List Nat) (q : Place) (eps dep p a : K) (s : ACTStates K) : Prop where
  wf : s.WF
  epsilon : s.epsilon = eps
  depression : s.depression_constant = dep
  idx : q.idx.take s.probabilities.shape.length = b
  prob : s.probabilities.at? b = some p
  entry : entry? s.accumulators q.name q.leaf q.idx = some a
  legal : 1 - eps < p → p = 1

/-- The cumulative probability when `x` is spent. -/
def afterSpending (eps p x : K) : K := if 1 - eps < p + x then 1 else p + x

/-- One round. -/
theorem EntryOf.round {b : List Nat} {q : Place} {eps dep p a u h : K} {s s' : ACTStates K}
    (hs : EntryOf b q eps dep p a s) (hdep : 0 ≤ dep) {r : Round K} (hrun : run ⟨s⟩ r.ops = .ok ⟨s'⟩)
    (hh : r.halting.at? b = some h) {d : DType} (hu : r.UpdateAt q d u) :
    EntryOf b q eps dep (afterSpending eps p (dep * Graves.clip h))
      (a + (afterSpending eps p (dep * Graves.clip h) - p) * u) s' := by
  obtain ⟨wf, rfl, rfl, hi, hp, ha, hl⟩ := hs
  obtain ⟨lf, a1, a2⟩ := entry?_eq_some.1 ha
  obtain ⟨ta, rfl, -, -⟩ := wf.leaf_tensor a1
  obtain ⟨r0, n0, hr0, -⟩ := wf.cell hp
  obtain ⟨b1, b2, b3, b4, b5, b6, y, dU, v, n, b7, b8, b9, -, tb, b11, b12, b13⟩ :=
    PausedStates.half wf hrun hp hr0 hi ⟨ta, a1, rfl, a2⟩
  rw [hh] at b7
  cases b7
  obtain ⟨rfl, rfl⟩ := b8 _ _ hu
  have hc : ∀ x : K, Spec.clamp x = Graves.clip x := fun _ => rfl
  have hcl : 0 ≤ s.depression_constant * Graves.clip h :=
    mul_nonneg hdep (le_min zero_le_one (le_max_left _ _))
  have hq : (Spec.step s.probabilities.dtype s.iterations.dtype s.epsilon s.depression_constant ⟨p, r0, n⟩
      (convS r.halting.dtype s.probabilities.dtype h)).prob =
      afterSpending s.epsilon p (s.depression_constant * Graves.clip h) := by
    show p + Spec.weight _ _ _ p _ = _
    rw [Spec.convS_exact]
    unfold afterSpending
    cases hx : Spec.crosses s.probabilities.dtype s.epsilon s.depression_constant p h with
    | true =>
      rw [Spec.weight_of_crosses hx, if_pos (by rw [add_comm]; exact Spec.crosses_iff.1 hx)]
      ring
    | false =>
      rw [Spec.weight_of_not hx, if_neg (fun hlt => by
        rw [Spec.crosses_iff.2 (by rw [hc, add_comm]; exact hlt)] at hx; cases hx), hc]
  refine ⟨b1, b2, b3, by rw [b5]; exact hi, by rw [← hq]; exact b9, entry?_eq_some.2 ⟨_, b11, ?_⟩, fun hlt => ?_⟩
  · show tb.at? q.idx = _
    rw [b13]
    congr 1
    rw [← hq]
    show _ = a + (p + Spec.weight _ _ _ p _ - p) * u
    rw [add_sub_cancel_left]
    unfold Spec.accStep
    split
    · rename_i hh'
      have hlt := Spec.isHalted_iff.1 hh'
      rw [Spec.weight_of_crosses (Spec.crosses_of_halted hdep hh'), hl hlt]
      ring
    · simp only [Spec.convS_exact]
      rfl
  · unfold afterSpending at hlt ⊢
    split
    · rfl
    · rename_i hn
      rw [if_neg hn] at hlt
      exact absurd hlt hn

/-- Rounds that hold an update. -/
theorem EntryOf.held {b : List Nat} {q : Place} {eps dep u S : K} (heps : 0 ≤ eps) (hdep : 0 ≤ dep)
    {rs : List (Round K)} (hr : Held b q u rs S) : ∀ {p a : K} {s : ACTStates K} {c : Controller K},
    EntryOf b q eps dep p a s → run ⟨s⟩ (roundOps rs) = .ok c →
    EntryOf b q eps dep (afterSpending eps p (dep * S)) (a + (afterSpending eps p (dep * S) - p) * u) c.state := by
  induction hr with
  | nil =>
    intro p a s c hs hrun
    cases hrun
    have : afterSpending eps p (dep * 0) = p := by
      unfold afterSpending
      rw [mul_zero, add_zero]
      split
      · rename_i hlt; exact (hs.legal hlt).symm
      · rfl
    rw [this, sub_self, zero_mul, add_zero]
    exact hs
  | @cons r rs h S d hh hu rest ih =>
    intro p a s c hs hrun
    simp only [roundOps, List.flatMap_cons] at hrun
    rw [run_append, bind_ok] at hrun
    obtain ⟨⟨s1⟩, h1, h2⟩ := hrun
    have hS : 0 ≤ dep * S := mul_nonneg hdep rest.nonneg
    have hcl : 0 ≤ dep * Graves.clip h := mul_nonneg hdep (le_min zero_le_one (le_max_left _ _))
    have key : afterSpending eps (afterSpending eps p (dep * Graves.clip h)) (dep * S) =
        afterSpending eps p (dep * (Graves.clip h + S)) := by
      rw [mul_add, ← add_zero (dep * S), ← add_assoc]
      unfold afterSpending
      rw [add_zero, add_zero]
      by_cases hx : 1 - eps < p + dep * Graves.clip h
      · rw [if_pos hx, if_pos (show 1 - eps < p + (dep * Graves.clip h + dep * S) by linarith)]
        split
        · rfl
        · linarith
      · rw [if_neg hx, add_assoc]
    have := ih (hs.round hdep h1 hh hu) h2
    rw [key] at this
    refine ⟨this.wf, this.epsilon, this.depression, this.idx, this.prob, ?_, this.legal⟩
    rw [this.entry]
    congr 1
    ring

theorem EntryOf.paced {b b' : List Nat} {q q' : Place} {eps dep dep' : K} (heps : 0 ≤ eps) (hdep : 0 ≤ dep)
    (hdep' : 0 ≤ dep') {rs rs' : List (Round K)} (hrs : Paced dep dep' b b' q q' rs rs') :
    ∀ {p a : K} {s t : ACTStates K} {c c' : Controller K}, EntryOf b q eps dep p a s → EntryOf b' q' eps dep' p a t →
    run ⟨s⟩ (roundOps rs) = .ok c → run ⟨t⟩ (roundOps rs') = .ok c' →
    ∃ p a, EntryOf b q eps dep p a c.state ∧ EntryOf b' q' eps dep' p a c'.state := by
  induction hrs with
  | nil =>
    intro p a s t c c' hs ht h1 h2
    cases h1
    cases h2
    exact ⟨p, a, hs, ht⟩
  | hold hx hy hsp _ ih =>
    intro p a s t c c' hs ht h1 h2
    simp only [roundOps, List.flatMap_append] at h1 h2
    rw [run_append, bind_ok] at h1 h2
    obtain ⟨⟨s1⟩, h1, h1'⟩ := h1
    obtain ⟨⟨t1⟩, h2, h2'⟩ := h2
    have e1 := EntryOf.held heps hdep hx hs h1
    have e2 := EntryOf.held heps hdep' hy ht h2
    rw [hsp] at e1
    exact ih e1 e2 h1' h2'

/-- C112.  Element `b` of one controller and element `b'` of another one (or of the same), with the same cumulative
probability and `epsilon`, and the same number in an accumulator entry of each.  They are given the same updates in the
same order and each for the same total of depressed halting probabilities, but the number of iterations an update is
held, and how the total is divided among these, may differ.  Afterwards both have the same cumulative probability and
accumulated entry, and either both are halted or neither is. -/
theorem C112_split {s t : ACTStates K} (hs : s.WF) (ht : t.WF) (he : 0 ≤ s.epsilon) (heps : t.epsilon = s.epsilon)
    (hdep : 0 ≤ s.depression_constant) (hdep' : 0 ≤ t.depression_constant) {b b' : List Nat} {q q' : Place} {p a : K}
    (hidx : q.idx.take s.probabilities.shape.length = b) (hidx' : q'.idx.take t.probabilities.shape.length = b')
    (hp : s.probabilities.at? b = some p) (hp' : t.probabilities.at? b' = some p)
    (h1 : (Controller.haltedBatches ⟨s⟩).at? b = some true → p = 1)
    (ha : entry? s.accumulators q.name q.leaf q.idx = some a)
    (ha' : entry? t.accumulators q'.name q'.leaf q'.idx = some a) {rs rs' : List (Round K)}
    (hrs : Paced s.depression_constant t.depression_constant b b' q q' rs rs') {c c' : Controller K}
    (hrun : run ⟨s⟩ (roundOps rs) = .ok c) (hrun' : run ⟨t⟩ (roundOps rs') = .ok c') :
    c.haltedBatches.at? b = c'.haltedBatches.at? b' ∧ c.probabilities.at? b = c'.probabilities.at? b' ∧
    ∃ a, entry? c.accumulators q.name q.leaf q.idx = some a ∧
      entry? c'.accumulators q'.name q'.leaf q'.idx = some a := by
  have legal : 1 - s.epsilon < p → p = 1 :=
    fun hlt => h1 ((halted_iff hs.floating).2 ⟨p, hp, Spec.isHalted_iff.2 hlt⟩)
  obtain ⟨p', a', e1, e2⟩ := EntryOf.paced he hdep hdep' hrs ⟨hs, rfl, rfl, hidx, hp, ha, legal⟩
    ⟨ht, heps, rfl, hidx', hp', ha', legal⟩ hrun hrun'
  refine ⟨?_, e1.prob.trans e2.prob.symm, a', e1.entry, e2.entry⟩
  have key : ∀ {c : Controller K} {b : List Nat} {q : Place} {dep : K}, EntryOf b q s.epsilon dep p' a' c.state →
      c.haltedBatches.at? b = some (decide (1 - s.epsilon < p')) := by
    intro c b q dep h
    have := (halted_iff (s := c.state) h.wf.floating).2 ⟨p', h.prob, rfl⟩
    rw [h.epsilon] at this
    exact this
  rw [key e1, key e2]

section Example
open Fixtures

/-- Element 0 is given each update for one iteration. -/
def wholeRounds : List (Round ℚ) := [sround [2/5, 1] 3 6, sround [2/5, 1] 1 6, sround [1, 1] 8 6]

/-- Element 1 is given the first for two iterations, the second for three and the last for two. -/
def splitRounds : List (Round ℚ) :=
  [sround [1, 1/10] 0 3, sround [1, 3/10] 0 3, sround [1, 1/5] 2 1, sround [1, 0] 2 1, sround [1, 1/5] 2 1,
    sround [1, 1/20] 0 8, sround [1, 19/20] 0 8]

theorem split_paced : Paced 1 1 [0] [1] ⟨"out", 0, [0, 0]⟩ ⟨"out", 0, [1, 0]⟩ wholeRounds splitRounds := by
  have one : ∀ {h u v w : ℚ}, Held [0] ⟨"out", 0, [0, 0]⟩ u [sround [h, v] u w] (Graves.clip h + 0) :=
    .cons (d := .f32) rfl ⟨_, rfl, rfl, rfl⟩ .nil
  have more : ∀ {h u v w S : ℚ} {rs : List (Round ℚ)}, Held [1] ⟨"out", 0, [1, 0]⟩ u rs S →
      Held [1] ⟨"out", 0, [1, 0]⟩ u (sround [v, h] w u :: rs) (Graves.clip h + S) :=
    fun hr => .cons (d := .f32) rfl ⟨_, rfl, rfl, rfl⟩ hr
  refine .hold (xs := [_]) (ys := [_, _]) one (more (more .nil)) ?_ (.hold (xs := [_]) (ys := [_, _, _]) one
    (more (more (more .nil))) ?_ (.hold (xs := [_]) (ys := [_, _]) one (more (more .nil)) ?_ .nil)) <;>
  · simp only [Graves.clip]; norm_num

/-- The theorem applies to the two. -/
theorem C112_example : ∃ c c', run ⟨simple⟩ (roundOps wholeRounds) = .ok c ∧
    run ⟨simple⟩ (roundOps splitRounds) = .ok c' ∧ c.haltedBatches.at? [0] = c'.haltedBatches.at? [1] ∧
    entry? c.accumulators "out" 0 [0, 0] = entry? c'.accumulators "out" 0 [1, 0] := by
  have h1 : succeeds (run ⟨simple⟩ (roundOps wholeRounds)) = true := by decide +kernel
  have h2 : succeeds (run ⟨simple⟩ (roundOps splitRounds)) = true := by decide +kernel
  cases e1 : run ⟨simple⟩ (roundOps wholeRounds) with
  | error e => rw [e1] at h1; cases h1
  | ok c =>
    cases e2 : run ⟨simple⟩ (roundOps splitRounds) with
    | error e => rw [e2] at h2; cases h2
    | ok c' =>
      obtain ⟨k1, -, a, k3, k4⟩ := C112_split simple_wf simple_wf (by norm_num [simple, fresh]) rfl
        (by norm_num [simple, fresh]) (by norm_num [simple, fresh]) (b := [0]) (b' := [1])
        (q := ⟨"out", 0, [0, 0]⟩) (q' := ⟨"out", 0, [1, 0]⟩) (p := 0) (a := 0) rfl rfl (by decide +kernel)
        (by decide +kernel) (fun h => absurd h (by decide +kernel)) (by decide +kernel) (by decide +kernel)
        split_paced e1 e2
      exact ⟨c, c', rfl, rfl, k1, k3.trans k4.symm⟩

/-- Both get `3 * 2/5 + 2/5 + 8 * 1/5`.  Their residuals and counters differ. -/
theorem C112_example_values :
    obs (run ⟨simple⟩ (roundOps wholeRounds)) (fun c => some [entry? c.accumulators "out" 0 [0, 0],
      c.residuals.at? [0], c.iterations.at? [0]]) = some [some (16/5), some (1/5), some 3] ∧
    obs (run ⟨simple⟩ (roundOps splitRounds)) (fun c => some [entry? c.accumulators "out" 0 [1, 0],
      c.residuals.at? [1], c.iterations.at? [1]]) = some [some (16/5), some (3/20), some 7] := by
  constructor <;> decide +kernel

end Example
end Exact

end JaxAct
