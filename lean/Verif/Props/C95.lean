import Verif.Spec.Stream
import Verif.Props.C15
import Verif.Props.C57
import Verif.Props.C68

/-! # C95 Streams: with resets an element makes one ACT computation after the other -/

namespace JaxAct
variable {K : Type} [Field K] [LinearOrder K] [IsStrictOrderedRing K]
attribute [local instance] Arith.exact
open ACTStates

namespace Graves

omit [IsStrictOrderedRing K] in
theorem began_le (eps dep : K) (h : Nat → K) (reset : Nat → Bool) :
    ∀ n, began eps dep h reset n ≤ n
  | 0 => le_rfl
  | n + 1 => by
    have := began_le eps dep h reset n
    simp only [began]
    split <;> omega

end Graves

/-- The bookkeeping of element `b` is that of an ACT computation after `n` steps. -/
structure GravesAt (eps dep : K) (g : Nat → K) (n : Nat) (b : List Nat) (s : ACTStates K) : Prop where
  epsilon : s.epsilon = eps
  depression : s.depression_constant = dep
  prob : s.probabilities.at? b = some (∑ t ∈ Finset.range n, Graves.weight eps dep g t)
  iter : s.iterations.at? b = some (Graves.steps eps dep g n : K)
  resid : s.residuals.at? b = some (Graves.remainder eps dep g n)

theorem GravesAt.halted_iff {eps dep : K} {g : Nat → K} {n : Nat} {b : List Nat} {s : ACTStates K}
    (h : GravesAt eps dep g n b s) (hwf : s.WF) (he0 : 0 < eps) (he1 : eps ≤ 1) (hdep : 0 ≤ dep) :
    (Controller.haltedBatches ⟨s⟩).at? b = some true ↔ Graves.Crossed eps dep g n := by
  rw [← (Graves.spec_weight (d := s.probabilities.dtype) he0 (by linarith) hdep
      (h := g) (t := n)).2, JaxAct.halted_iff hwf.floating, h.epsilon]
  constructor
  · rintro ⟨p, hp, hh⟩
    rw [h.prob] at hp
    cases hp
    exact hh
  · intro hh
    exact ⟨_, h.prob, hh⟩

/-- The bookkeeping under one round. -/
theorem GravesAt.step {eps dep : K} {g : Nat → K} {n : Nat} {b : List Nat} {s : ACTStates K}
    (hg : GravesAt eps dep g n b s) (he0 : 0 < eps) (he1 : eps ≤ 1)
    (hdep : 0 ≤ dep) {r : Round K} {U : Dict (PyTree (Leaf K))} {s' : ACTStates K}
    (st : IterStep { s with updates := U } r.halting s') (hh : r.halting.at? b = some (g n)) :
    GravesAt eps dep g (n + 1) b s' := by
  obtain ⟨q1, q2, e5, e6, e7⟩ := hg
  obtain ⟨g1, g2⟩ := Graves.spec_weight (d := s.probabilities.dtype) he0 (by linarith) hdep
    (h := g) (t := n)
  have hcell := st.cell b _ _ _ _ e5 e7 e6 hh
  simp only [Spec.convS_exact] at hcell
  obtain ⟨f1, f2, f3⟩ := hcell
  refine ⟨st.epsilon.trans q1, st.depression.trans q2, ?_, ?_, ?_⟩
  · rw [f1, Spec.step_prob, Finset.sum_range_succ]
    simp only [q1, q2]
    rw [g1]
  · rw [f3]
    unfold Spec.step
    simp only [q1]
    rw [Graves.steps_succ]
    by_cases hc : Graves.Crossed eps dep g n
    · rw [if_pos (g2.2 hc), if_pos hc]
    · rw [if_neg (fun x => hc (g2.1 x)), if_neg hc, Nat.cast_add, Nat.cast_one]
      rfl
  · rw [f2]
    unfold Spec.step
    simp only [q1, q2]
    rw [Graves.remainder_succ]
    by_cases hc : Graves.Crossed eps dep g n
    · rw [if_pos hc, g2.2 hc]; simp
    · have hn := Bool.eq_false_iff.2 fun x => hc (g2.1 x)
      rw [if_neg hc, hn, Graves.sum_weight_of_not hc]
      have hx : (Spec.crosses s.probabilities.dtype eps dep
          (Graves.cumDemand dep g n) (g n) = true) ↔ Graves.Crossed eps dep g (n + 1) := by
        rw [Graves.crossed_succ hc, Graves.cumDemand_succ, Spec.crosses_iff, add_comm]
        rfl
      by_cases hc' : Graves.Crossed eps dep g (n + 1)
      · rw [if_pos hc', hx.2 hc']; rfl
      · rw [if_neg hc', Bool.eq_false_iff.2 fun x => hc' (hx.1 x)]
        simp only [Bool.false_and]
        rw [Graves.remainder, if_neg hc]
        rfl

/-- An entry under one round. -/
theorem GravesAt.entry {eps dep : K} {g u : Nat → K} {n : Nat} {s : ACTStates K} {i : List Nat}
    (hg : GravesAt eps dep g n (i.take s.probabilities.shape.length) s) (he0 : 0 < eps) (he1 : eps ≤ 1)
    (hdep : 0 ≤ dep) {r : Round K} {U : Dict (PyTree (Leaf K))} {s' : ACTStates K}
    (hw : ({ s with updates := U } : ACTStates K).WF)
    (st : IterStep { s with updates := U } r.halting s')
    (hh : r.halting.at? (i.take s.probabilities.shape.length) = some (g n)) {name : String} {k : Nat}
    {a0 : K} (ha : entry? s.accumulators name k i =
      some (a0 + ∑ t ∈ Finset.range n, Graves.weight eps dep g t * u t))
    (hu : entry? U name k i = some (u n)) :
    entry? s'.accumulators name k i =
      some (a0 + ∑ t ∈ Finset.range (n + 1), Graves.weight eps dep g t * u t) := by
  obtain ⟨q1, q2, e5, -, -⟩ := hg
  obtain ⟨g1, g2⟩ := Graves.spec_weight (d := s.probabilities.dtype) he0 (by linarith) hdep
    (h := g) (t := n)
  obtain ⟨u', p, x, dA, dU, f1, f2, f3, f4⟩ := st.entry hw (n := name) (k := k) (i := i) ha
  simp only at f1 f2 f3 f4
  rw [hu] at f1
  cases f1
  rw [e5] at f2
  cases f2
  rw [hh] at f3
  cases f3
  rw [f4, Spec.accStep_eq, Spec.convS_exact, q1, q2, g1, Finset.sum_range_succ]
  congr 1
  split
  · rename_i hhalt
    have hc := g2.1 hhalt
    have : Graves.weight eps dep g n = 0 := by
      unfold Graves.weight
      rw [if_neg (by simpa using hc.mono (Nat.le_succ _)), if_neg (by simpa using hc)]
    rw [this]; ring
  · ring

/-- Before the first step. -/
theorem GravesAt.zero {eps dep : K} (he1 : eps ≤ 1) (g : Nat → K) {b : List Nat} {s : ACTStates K}
    (h1 : s.epsilon = eps) (h2 : s.depression_constant = dep) (hp : s.probabilities.at? b = some 0)
    (hi : s.iterations.at? b = some 0) (hr : s.residuals.at? b = some 0) :
    GravesAt eps dep g 0 b s := by
  refine ⟨h1, h2, by simpa using hp, ?_, ?_⟩
  · rw [hi, Graves.steps_zero, Nat.cast_zero]
  · rw [hr, Graves.remainder, if_neg (Graves.not_crossed_zero (by linarith))]

/-- The element after the calls of a stream: its present computation, which began at step `m`, has made the
steps from `m` to `n`.  `u` are the updates of an entry that started with its default `a0`. -/
structure StreamAt (s0 : ACTStates K) (h : Nat → K) (m n : Nat) (b : List Nat) (c : Controller K) :
    Prop where
  /-- Cumulative probability: the sum of the weights of these steps. -/
  probability : c.probabilities.at? b = some (∑ t ∈ Finset.range (n - m),
    Graves.weight s0.epsilon s0.depression_constant (Graves.after m h) t)
  /-- Counter: the number of these steps up to the one that halted the element. -/
  iterations : c.iterations.at? b =
    some (Graves.steps s0.epsilon s0.depression_constant (Graves.after m h) (n - m) : K)
  /-- Residual: the remainder of the step that halted it. -/
  residual : c.residuals.at? b =
    some (Graves.remainder s0.epsilon s0.depression_constant (Graves.after m h) (n - m))
  /-- Halted if the running sum of these steps has exceeded the threshold. -/
  halted : c.haltedBatches.at? b = some true ↔
    Graves.Crossed s0.epsilon s0.depression_constant (Graves.after m h) (n - m)

/-- An entry after the calls of a stream: its default and the weighted updates of the present computation. -/
def StreamEntry (s0 : ACTStates K) (h u : Nat → K) (m n : Nat) (name : String) (k : Nat) (i : List Nat)
    (a0 : K) (c : Controller K) : Prop :=
  entry? c.accumulators name k i = some (a0 + ∑ t ∈ Finset.range (n - m),
    Graves.weight s0.epsilon s0.depression_constant (Graves.after m h) t * u (m + t))

/-- The calls of one more turn. -/
theorem turnOps_concat {α : Type} (ts : List (Turn α)) (t : Turn α) :
    turnOps (ts ++ [t]) = turnOps ts ++ (t.round.ops ++ if t.reset then [Op.reset] else []) := by
  simp [turnOps, Turn.ops]

/-- The bookkeeping and all entries of an element over a stream. -/
theorem stream_induction {s : ACTStates K} (hwf : s.WF) (he0 : 0 < s.epsilon) (he1 : s.epsilon ≤ 1)
    (hdep : 0 ≤ s.depression_constant) {b : List Nat} (h : Nat → K) (reset : Nat → Bool)
    (hp : s.probabilities.at? b = some 0) (hr : s.residuals.at? b = some 0)
    (hi : s.iterations.at? b = some 0) (ts : List (Turn K)) :
    ∀ {c : Controller K}, run ⟨s⟩ (turnOps ts) = .ok c →
    (∀ t x, ts[t]? = some x → x.round.halting.at? b = some (h t) ∧ x.reset = reset t) →
    let m := Graves.began s.epsilon s.depression_constant h reset ts.length
    c.state.WF ∧ c.state.probabilities.shape = s.probabilities.shape ∧ c.state.defaults = s.defaults ∧
    GravesAt s.epsilon s.depression_constant (Graves.after m h) (ts.length - m) b c.state ∧
    ∀ (name : String) (k : Nat) (i : List Nat) (a0 : K) (u : Nat → K),
      i.take s.probabilities.shape.length = b → entry? s.accumulators name k i = some a0 →
      entry? s.defaults name k i = some a0 →
      (∀ t x, ts[t]? = some x → entry? x.round.updates name k i = some (u t)) →
      StreamEntry s h u m ts.length name k i a0 c := by
  induction ts using List.reverseRecOn with
  | nil =>
    intro c hrun _
    cases hrun
    refine ⟨hwf, rfl, rfl, GravesAt.zero he1 _ rfl rfl hp hi hr, fun name k i a0 u _ ha _ _ => ?_⟩
    unfold StreamEntry
    simp only [List.length_nil, Nat.zero_sub, Finset.range_zero, Finset.sum_empty, add_zero]
    exact ha
  | append_singleton ts x ih =>
    intro c hrun hh
    rw [turnOps_concat, run_append, bind_ok] at hrun
    obtain ⟨⟨s1⟩, h1, h2⟩ := hrun
    rw [run_append, bind_ok] at h2
    obtain ⟨⟨s2⟩, h2, h3⟩ := h2
    have hlast : (ts ++ [x])[ts.length]? = some x := by simp
    have hpre : ∀ (j : Nat) y, ts[j]? = some y → (ts ++ [x])[j]? = some y := by
      intro j y hj
      rw [List.getElem?_append_left (List.getElem?_eq_some_iff.1 hj).1]; exact hj
    obtain ⟨w1, sh1, d1, b1, e1⟩ := ih h1 (fun t y hy => hh t y (hpre t y hy))
    obtain ⟨hx, hxr⟩ := hh _ _ hlast
    have hle := Graves.began_le s.epsilon s.depression_constant h reset ts.length
    generalize hm : Graves.began s.epsilon s.depression_constant h reset ts.length = m at *
    obtain ⟨U, wU, st, hU⟩ := round_ok w1 h2
    have hn : ts.length + 1 - m = ts.length - m + 1 := by omega
    have hgn : h ts.length = Graves.after m h (ts.length - m) := by
      unfold Graves.after; congr 1; omega
    simp only at sh1 d1 b1 w1
    have w2 : s2.WF := run_wf w1 h2
    have b2 := b1.step he0 he1 hdep st (hgn ▸ hx)
    have e2 : ∀ (name : String) (k : Nat) (i : List Nat) (a0 : K) (u : Nat → K),
        i.take s.probabilities.shape.length = b → entry? s.accumulators name k i = some a0 →
        entry? s.defaults name k i = some a0 →
        (∀ t y, (ts ++ [x])[t]? = some y → entry? y.round.updates name k i = some (u t)) →
        StreamEntry s h u m (ts.length + 1) name k i a0 ⟨s2⟩ := by
      intro name k i a0 u hb ha hd hu
      have he := e1 name k i a0 u hb ha hd (fun t y hy => hu t y (hpre t y hy))
      unfold StreamEntry at he ⊢
      rw [hn]
      refine GravesAt.entry (u := fun t => u (m + t)) (s := s1) (by rw [sh1, hb]; exact b1) he0 he1 hdep
        wU st (by rw [sh1, hb]; exact hgn ▸ hx) he ?_
      have := hU _ _ _ _ (hu _ _ hlast)
      rw [this]
      congr 2
      omega
    have sh2 : s2.probabilities.shape = s.probabilities.shape := st.pshape.trans sh1
    have d2 : s2.defaults = s.defaults := st.defaults.trans d1
    rw [List.length_append, List.length_singleton, Graves.began, hm]
    cases hres : x.reset with
    | false =>
      rw [hres] at h3
      cases h3
      rw [← hxr, hres]
      simp only [Bool.false_eq_true, false_and, if_false]
      exact ⟨w2, sh2, d2, hn ▸ b2, e2⟩
    | true =>
      rw [hres] at h3
      simp only [if_true, run, bind_ok, Op.call] at h3
      obtain ⟨⟨s3⟩, h4, h5⟩ := h3
      cases h5
      have w3 := Controller.ResetStep.wf w2 (Controller.resetBatches_ok w2 h4)
      have rs := Controller.resetBatches_ok w2 h4
      obtain ⟨k1, k2, k3, k4, k5, k6, k7⟩ := C15_reset_bookkeeping w2 h4
      have hhalt := b2.halted_iff w2 he0 he1 hdep
      rw [← hxr, hres]
      simp only [true_and, hn]
      by_cases hc : Graves.Crossed s.epsilon s.depression_constant (Graves.after m h)
          (ts.length - m + 1)
      · rw [if_pos hc]
        obtain ⟨z1, z2, z3⟩ := k1 b (hhalt.2 hc)
        refine ⟨w3, rs.pshape.trans sh2, rs.defaults.trans d2, ?_, ?_⟩
        · rw [Nat.sub_self]
          exact GravesAt.zero he1 _ (k5.trans b2.epsilon) (k6.trans b2.depression) z1 z3 z2
        · intro name k i a0 u hb ha hd hu
          have he := e2 name k i a0 u hb ha hd hu
          obtain ⟨-, -, q⟩ := C15_reset_accumulators w2 h4 name k i
          rcases q _ he with ⟨-, q2, -⟩ | ⟨q1, -⟩
          · unfold StreamEntry
            rw [Nat.sub_self, q2, d2, hd]
            simp
          · rw [sh2, hb, hhalt.2 hc] at q1
            cases q1
      · rw [if_neg hc, hn]
        have hnh : (Controller.haltedBatches ⟨s2⟩).at? b ≠ some true := fun y => hc (hhalt.1 y)
        obtain ⟨z1, z2, z3⟩ := k2 b hnh
        refine ⟨w3, rs.pshape.trans sh2, rs.defaults.trans d2, ⟨k5.trans b2.epsilon,
          k6.trans b2.depression, z1.trans b2.prob, z3.trans b2.iter, z2.trans b2.resid⟩, ?_⟩
        intro name k i a0 u hb ha hd hu
        have he := e2 name k i a0 u hb ha hd hu
        obtain ⟨-, -, q⟩ := C15_reset_accumulators w2 h4 name k i
        rcases q _ he with ⟨q1, -⟩ | ⟨-, q2⟩
        · rw [sh2, hb] at q1
          exact absurd q1 hnh
        · exact q2

/-- C95.  A controller is kept running by turns, each a round and possibly a `reset_batches`.  For an
element that starts fresh, with halting probability `h t` in turn `t`: let `m` be the turn at which its present
computation began according to `Graves.began`, which knows of `h` and of the turns with a reset only.  Then
its bookkeeping and its accumulators are those of Graves' ACT over the turns from `m` on.  What it was given
before has no influence, nor have the other elements and their resets. -/
theorem C95_stream {s : ACTStates K} (hwf : s.WF) (he0 : 0 < s.epsilon) (he1 : s.epsilon ≤ 1)
    (hdep : 0 ≤ s.depression_constant) {b : List Nat} (h : Nat → K) (reset : Nat → Bool)
    (hp : s.probabilities.at? b = some 0) (hr : s.residuals.at? b = some 0)
    (hi : s.iterations.at? b = some 0) (ts : List (Turn K)) {c : Controller K}
    (hrun : run ⟨s⟩ (turnOps ts) = .ok c)
    (hh : ∀ t x, ts[t]? = some x → x.round.halting.at? b = some (h t) ∧ x.reset = reset t) :
    let m := Graves.began s.epsilon s.depression_constant h reset ts.length
    StreamAt s h m ts.length b c ∧
    ∀ (name : String) (k : Nat) (i : List Nat) (a0 : K) (u : Nat → K),
      i.take s.probabilities.shape.length = b → entry? s.accumulators name k i = some a0 →
      entry? s.defaults name k i = some a0 →
      (∀ t x, ts[t]? = some x → entry? x.round.updates name k i = some (u t)) →
      StreamEntry s h u m ts.length name k i a0 c := by
  obtain ⟨w, -, -, g, e⟩ := stream_induction hwf he0 he1 hdep h reset hp hr hi ts hrun hh
  exact ⟨⟨g.prob, g.iter, g.resid, g.halted_iff w he0 he1 hdep⟩, e⟩

/-- C95, the outputs.  When a round ends with the element halted, before a reset, its computation is
complete: the steps it took since it began have weights that sum to one, and every entry is its default plus
the sum of the updates with these weights. -/
theorem C95_output {s : ACTStates K} (hwf : s.WF) (he0 : 0 < s.epsilon) (he1 : s.epsilon ≤ 1)
    (hdep : 0 ≤ s.depression_constant) {b : List Nat} (h : Nat → K) (reset : Nat → Bool)
    (hp : s.probabilities.at? b = some 0) (hr : s.residuals.at? b = some 0)
    (hi : s.iterations.at? b = some 0) (ts : List (Turn K)) (r : Round K) {c : Controller K}
    (hrun : run ⟨s⟩ (turnOps ts ++ r.ops) = .ok c)
    (hh : ∀ t x, ts[t]? = some x → x.round.halting.at? b = some (h t) ∧ x.reset = reset t)
    (hlast : r.halting.at? b = some (h ts.length)) (hhalt : c.haltedBatches.at? b = some true) :
    let m := Graves.began s.epsilon s.depression_constant h reset ts.length
    let weight := Graves.weight s.epsilon s.depression_constant (Graves.after m h)
    ∑ t ∈ Finset.range (ts.length + 1 - m), weight t = 1 ∧
    ∀ (name : String) (k : Nat) (i : List Nat) (a0 : K) (u : Nat → K),
      i.take s.probabilities.shape.length = b → entry? s.accumulators name k i = some a0 →
      entry? s.defaults name k i = some a0 →
      (∀ t x, ts[t]? = some x → entry? x.round.updates name k i = some (u t)) →
      entry? r.updates name k i = some (u ts.length) →
      entry? c.accumulators name k i =
        some (a0 + ∑ t ∈ Finset.range (ts.length + 1 - m), weight t * u (m + t)) := by
  have hb : ∀ n, n ≤ ts.length → Graves.began s.epsilon s.depression_constant h
      (fun t => if t < ts.length then reset t else false) n =
      Graves.began s.epsilon s.depression_constant h reset n := by
    intro n
    induction n with
    | zero => intro _; rfl
    | succ n ih =>
      intro hn
      have hlt : n < ts.length := by omega
      rw [Graves.began, Graves.began, ih (by omega), if_pos hlt]
  have hget : ∀ t x, (ts ++ [⟨r, false⟩])[t]? = some x →
      (t < ts.length ∧ ts[t]? = some x) ∨ (t = ts.length ∧ x = ⟨r, false⟩) := by
    intro t x hx
    rcases lt_trichotomy t ts.length with ht | ht | ht
    · rw [List.getElem?_append_left ht] at hx
      exact .inl ⟨ht, hx⟩
    · subst ht
      simp only [List.getElem?_concat_length, Option.some.injEq] at hx
      exact .inr ⟨rfl, hx.symm⟩
    · rw [List.getElem?_eq_none (by simp; omega)] at hx
      cases hx
  obtain ⟨a, e⟩ := C95_stream hwf he0 he1 hdep h (fun t => if t < ts.length then reset t else false)
    hp hr hi (ts ++ [⟨r, false⟩]) (c := c) (by rw [turnOps_concat]; simpa using hrun) (fun t x hx => by
      rcases hget t x hx with ⟨ht, hx⟩ | ⟨rfl, rfl⟩
      · rw [if_pos ht]; exact hh t x hx
      · rw [if_neg (lt_irrefl _)]; exact ⟨hlast, rfl⟩)
  have hm : Graves.began s.epsilon s.depression_constant h
      (fun t => if t < ts.length then reset t else false) (ts.length + 1) =
      Graves.began s.epsilon s.depression_constant h reset ts.length := by
    rw [Graves.began, hb _ le_rfl, if_neg (lt_irrefl _)]
    simp
  rw [List.length_append, List.length_singleton, hm] at a e
  refine ⟨?_, fun name k i a0 u h1 h2 h3 h4 h5 => e name k i a0 u h1 h2 h3 fun t x hx => ?_⟩
  · exact Graves.sum_weight_of_crossed (by linarith) (a.halted.1 hhalt)
  · rcases hget t x hx with ⟨-, hx⟩ | ⟨rfl, rfl⟩
    · exact h4 t x hx
    · exact h5

/-- C95, no step is wasted and nothing runs for ever.  With a reset in every turn no element is ever
halted after a turn, so every round advances every element.  If the halting probabilities of an element are
at least `δ`, no computation of it gets older than `(1 - epsilon) / (depression * δ)` turns without ending. -/
theorem C95_every_turn {s : ACTStates K} (hwf : s.WF) (he0 : 0 < s.epsilon) (he1 : s.epsilon ≤ 1)
    (hdep : 0 ≤ s.depression_constant) {b : List Nat} (h : Nat → K)
    (hp : s.probabilities.at? b = some 0) (hr : s.residuals.at? b = some 0)
    (hi : s.iterations.at? b = some 0) (ts : List (Turn K)) {c : Controller K}
    (hrun : run ⟨s⟩ (turnOps ts) = .ok c)
    (hh : ∀ t x, ts[t]? = some x → x.round.halting.at? b = some (h t) ∧ x.reset = true) :
    let m := Graves.began s.epsilon s.depression_constant h (fun _ => true) ts.length
    c.haltedBatches.at? b ≠ some true ∧
    c.iterations.at? b = some ((ts.length - m : Nat) : K) ∧
    ∀ δ, δ ≤ 1 → (∀ t < ts.length, δ ≤ h t) →
      ((ts.length - m : Nat) : K) * (s.depression_constant * δ) ≤ 1 - s.epsilon := by
  obtain ⟨a, -⟩ := C95_stream hwf he0 he1 hdep h (fun _ => true) hp hr hi ts hrun hh
  have hnot : ∀ n, ¬ Graves.Crossed s.epsilon s.depression_constant
      (Graves.after (Graves.began s.epsilon s.depression_constant h (fun _ => true) n) h)
      (n - Graves.began s.epsilon s.depression_constant h (fun _ => true) n) := by
    intro n
    cases n with
    | zero => exact Graves.not_crossed_zero (by linarith)
    | succ n =>
      rw [Graves.began]
      simp only [true_and]
      split
      · rw [Nat.sub_self]
        exact Graves.not_crossed_zero (by linarith)
      · assumption
  have hN := hnot ts.length
  have hle := Graves.began_le s.epsilon s.depression_constant h (fun _ => true) ts.length
  generalize Graves.began s.epsilon s.depression_constant h (fun _ => true) ts.length = m at *
  refine ⟨fun hx => hN (a.halted.1 hx), ?_, fun δ hδ1 hδ => ?_⟩
  · rw [a.iterations, Graves.steps_of_not hN]
  · have h1 : Graves.cumDemand s.depression_constant (Graves.after m h) (ts.length - m) ≤
        1 - s.epsilon := by
      by_contra hx
      exact hN ⟨_, le_rfl, not_le.1 hx⟩
    refine le_trans ?_ h1
    unfold Graves.cumDemand
    have h2 := Finset.card_nsmul_le_sum (Finset.range (ts.length - m))
      (fun j => s.depression_constant * Graves.clip (Graves.after m h j)) (s.depression_constant * δ)
      (fun j hj => mul_le_mul_of_nonneg_left (by
        have := hδ (m + j) (by have := Finset.mem_range.1 hj; omega)
        exact le_min hδ1 (this.trans (le_max_right _ _))) hdep)
    rwa [Finset.card_range, nsmul_eq_mul] at h2

section Example
open Fixtures

/-- Four turns of two elements with a reset after each.  Element 0 halts in every third turn, element 1 in every
second.  `C95_stream` says that element 0 is one step, element 1 no step into a computation after four turns,
and so they are. -/
def stream : List (Turn ℚ) := List.replicate 4 ⟨sround [2/5, 2/3] 3 6, true⟩

theorem C95_example :
    (∀ (t : Nat) (x : Turn ℚ), stream[t]? = some x → x.round.halting.at? [0] = some (2/5) ∧
      x.round.halting.at? [1] = some (2/3) ∧ x.reset = true) ∧
    Graves.began (1/10 : ℚ) 1 (fun _ => 2/5) (fun _ => true) 4 = 3 ∧
    Graves.began (1/10 : ℚ) 1 (fun _ => 2/3) (fun _ => true) 4 = 4 ∧
    obs (run ⟨simple⟩ (turnOps stream)) (fun c =>
      some (c.iterations.at? [0], c.probabilities.at? [0], entry? c.accumulators "out" 0 [0, 0])) =
      some (some 1, some (2/5), some (6/5)) ∧
    obs (run ⟨simple⟩ (turnOps stream)) (fun c =>
      some (c.iterations.at? [1], c.probabilities.at? [1], entry? c.accumulators "out" 0 [1, 0])) =
      some (some 0, some 0, some 0) := by
  refine ⟨fun t x hx => ?_, by decide +kernel, by decide +kernel, by decide +kernel, by decide +kernel⟩
  have := List.eq_of_mem_replicate (List.mem_of_getElem? hx)
  subst this
  exact ⟨by decide +kernel, by decide +kernel, rfl⟩

/-- The output of element 1 in the second turn, before the reset: weights `2/3` and `1/3`. -/
example : obs (run ⟨simple⟩ (turnOps [⟨sround [2/5, 2/3] 3 6, true⟩] ++ (sround [2/5, 2/3] 3 9).ops))
    (fun c => some (c.haltedBatches.at? [1], entry? c.accumulators "out" 0 [1, 0])) =
    some (some true, some (2/3 * 6 + 1/3 * 9)) := by decide +kernel

end Example

end JaxAct
