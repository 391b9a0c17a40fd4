import Verif.Props.C05
import Verif.Props.C61
import Verif.Props.C73
import Verif.Props.C99
import Mathlib.Algebra.Order.BigOperators.Ring.Finset

/-!
# C118 Truncation costs at most the probability not yet spent

When `max_iterations` ends the loop before an element is halted, its cumulative probability tells how far the
accumulators can be from what more iterations would have given.
-/

namespace JaxAct
open ACTStates
variable {K : Type} [Field K] [LinearOrder K] [IsStrictOrderedRing K]
attribute [local instance] Arith.exact

/-- The weights of the steps are not negative. -/
theorem Graves.weightFrom_nonneg {p eps dep : K} (he : 0 < eps) (hd : 0 ≤ dep) (h : Nat → K) (t : Nat) :
    0 ≤ weightFrom p eps dep h t := by
  unfold weightFrom
  split
  · exact mul_nonneg hd (clip_nonneg _)
  · split
    · rename_i hn
      have : ¬ 1 - eps < p + cumDemand dep h t := fun hx => hn ⟨t, le_rfl, hx⟩
      linarith
    · exact le_rfl

omit [IsStrictOrderedRing K] in
/-- Epsilon and the depression constant never change. -/
theorem run_keeps_constants {s : ACTStates K} (hwf : s.WF) {ops : List (Op K)} {c : Controller K}
    (h : run ⟨s⟩ ops = .ok c) :
    c.state.epsilon = s.epsilon ∧ c.state.depression_constant = s.depression_constant := by
  refine (run_induction (Inv := fun t => t.epsilon = s.epsilon ∧
    t.depression_constant = s.depression_constant) ?_ ?_ ?_ _ hwf ⟨rfl, rfl⟩ h).2
  · rintro t n x t' - ⟨-, rfl⟩ h; exact h
  · rintro t h t' - st h'; exact ⟨st.epsilon.trans h'.1, st.depression.trans h'.2⟩
  · rintro t t' - st h'; exact ⟨st.epsilon.trans h'.1, st.depression.trans h'.2⟩

/-- From a point on: the change of the accumulator is between the bounds of the updates times the probability
spent. -/
theorem change_between {s : ACTStates K} (hwf : s.WF) (he0 : 0 < s.epsilon)
    (hdep : 0 ≤ s.depression_constant) (rs : List (Round K)) {c : Controller K}
    (hrun : run ⟨s⟩ (roundOps rs) = .ok c) {name : String} {k : Nat} {i : List Nat} {p a lo hi : K}
    (hp : s.probabilities.at? (i.take s.probabilities.shape.length) = some p)
    (hopen : p ≤ 1 - s.epsilon ∨ p = 1) (ha : entry? s.accumulators name k i = some a)
    (hu : ∀ r ∈ rs, ∃ x, entry? r.updates name k i = some x ∧ lo ≤ x ∧ x ≤ hi)
    (hh : ∀ r ∈ rs, ∃ x, r.halting.at? (i.take s.probabilities.shape.length) = some x) :
    ∃ p' a', c.probabilities.at? (i.take s.probabilities.shape.length) = some p' ∧
      entry? c.accumulators name k i = some a' ∧ p ≤ p' ∧ (p' - p) * lo ≤ a' - a ∧
      a' - a ≤ (p' - p) * hi := by
  obtain ⟨h, hh'⟩ : ∃ h : Nat → K, ∀ (t : Nat) (r : Round K), rs[t]? = some r →
      r.halting.at? (i.take s.probabilities.shape.length) = some (h t) := by
    refine ⟨fun t => ((rs[t]?).bind fun r =>
      r.halting.at? (i.take s.probabilities.shape.length)).getD 0, fun t r hr => ?_⟩
    obtain ⟨x, hx⟩ := hh r (List.mem_of_getElem? hr)
    simp [hr, hx]
  obtain ⟨u, hu'⟩ : ∃ u : Nat → K, ∀ (t : Nat) (r : Round K), rs[t]? = some r →
      entry? r.updates name k i = some (u t) ∧ lo ≤ u t ∧ u t ≤ hi := by
    refine ⟨fun t => ((rs[t]?).bind fun r => entry? r.updates name k i).getD 0, fun t r hr => ?_⟩
    obtain ⟨x, hx, hx'⟩ := hu r (List.mem_of_getElem? hr)
    simpa [hr, hx] using hx'
  have hbd : ∀ t ∈ Finset.range rs.length, lo ≤ u t ∧ u t ≤ hi := fun t ht =>
    (hu' t _ (List.getElem?_eq_getElem (Finset.mem_range.1 ht))).2
  obtain ⟨r0, hr0⟩ := Controller.at?_some_of_shape (b := s.residuals) hwf.res_shape hp
  obtain ⟨n0, hn0⟩ := Controller.at?_some_of_shape (b := s.iterations) hwf.it_shape hp
  rcases hopen with hopen | rfl
  · have g1 := (C99_continue hwf he0 hdep rs hrun h hp hr0 hn0 hopen hh').1
    have g2 := (C99_accumulators hwf he0 hdep rs hrun u h hp hopen ha (fun t r hr => (hu' t r hr).1) hh').1
    have hw := fun t => Graves.weightFrom_nonneg (p := p) he0 hdep h t
    refine ⟨_, _, g1, g2, ?_, ?_, ?_⟩
    · exact le_add_of_nonneg_right (Finset.sum_nonneg fun t _ => hw t)
    · rw [add_sub_cancel_left, add_sub_cancel_left, Finset.sum_mul]
      exact Finset.sum_le_sum fun t ht => mul_le_mul_of_nonneg_left (hbd t ht).1 (hw t)
    · rw [add_sub_cancel_left, add_sub_cancel_left, Finset.sum_mul]
      exact Finset.sum_le_sum fun t ht => mul_le_mul_of_nonneg_left (hbd t ht).2 (hw t)
  · have g := C99_halted hwf he0 hdep rs hrun h hp hr0 hn0 (by linarith) hh'
    refine ⟨1, a, ?_, g.2.2.2.2 name k i a rfl ha, le_rfl, by simp, by simp⟩
    rw [g.1]; split <;> rfl

/-- C118.  An element that is not halted at first is run by the rounds `rs`, in the other case by `rs` and then
`more`.  Let the further updates of an accumulator entry of it lie between `lo` and `hi`.  Then the two values of
the entry differ by an amount between `lo` and `hi` times the difference of the two cumulative probabilities `p` and
`p'`, where `p ≤ p' ≤ 1`; and if the longer run halts the element, `p'` is one. -/
theorem C118_truncation {s : ACTStates K} (hwf : s.WF) (he0 : 0 < s.epsilon) (he1 : s.epsilon ≤ 1)
    (hdep : 0 ≤ s.depression_constant) (rs more : List (Round K)) {c c' : Controller K}
    (hrun : run ⟨s⟩ (roundOps rs) = .ok c) (hrun' : run ⟨s⟩ (roundOps (rs ++ more)) = .ok c')
    {name : String} {k : Nat} {i b : List Nat} (hib : i.take s.probabilities.shape.length = b)
    (hb : (Controller.haltedBatches ⟨s⟩).at? b = some false) {a lo hi : K}
    (ha : entry? c.accumulators name k i = some a)
    (hu : ∀ r ∈ more, ∃ x, entry? r.updates name k i = some x ∧ lo ≤ x ∧ x ≤ hi)
    (hh : ∀ r ∈ more, ∃ x, r.halting.at? b = some x) :
    ∃ p p' a', c.probabilities.at? b = some p ∧ c'.probabilities.at? b = some p' ∧
      entry? c'.accumulators name k i = some a' ∧ p ≤ p' ∧ p' ≤ 1 ∧
      (c'.haltedBatches.at? b = some true → p' = 1) ∧
      (p' - p) * lo ≤ a' - a ∧ a' - a ≤ (p' - p) * hi := by
  subst hib
  have hr2 : run c (roundOps more) = .ok c' := by
    have : roundOps (rs ++ more) = roundOps rs ++ roundOps more := by simp [roundOps]
    rw [this, run_append, hrun] at hrun'
    exact hrun'
  have wc : c.state.WF := run_wf hwf hrun
  have wc' : c'.state.WF := run_wf hwf hrun'
  have t1 := C14_types_invariant hwf _ hrun
  have t2 := C14_types_invariant hwf _ hrun'
  have hsh : c.state.probabilities.shape = s.probabilities.shape := t1.2.2.1
  have hsh' : c'.state.probabilities.shape = s.probabilities.shape := t2.2.2.1
  obtain ⟨p0, hp0, -⟩ := (halted_iff hwf.floating).1 hb
  obtain ⟨p, hp⟩ := Controller.at?_some_of_shape (b := c.state.probabilities) hsh hp0
  -- either open or at one, in both controllers
  have key : ∀ (ops : List (Op K)) (d : Controller K), run ⟨s⟩ ops = .ok d → ∀ q,
      d.state.probabilities.at? (i.take s.probabilities.shape.length) = some q →
      (q ≤ 1 - s.epsilon ∨ q = 1) ∧
      (d.haltedBatches.at? (i.take s.probabilities.shape.length) = some true → q = 1) := by
    intro ops d hd q hq
    have wd : d.state.WF := run_wf hwf hd
    have h1 : d.haltedBatches.at? (i.take s.probabilities.shape.length) = some true → q = 1 := by
      intro hx
      have := C05_halted_probability_is_one hwf he0 he1 hdep hb ops hd hx
      exact Option.some.inj (hq.symm.trans this)
    refine ⟨?_, h1⟩
    cases hx : Spec.isHalted d.state.probabilities.dtype d.state.epsilon q with
    | true => exact .inr (h1 ((halted_iff (s := d.state) wd.floating).2 ⟨q, hq, hx⟩))
    | false =>
      left
      have he : d.state.epsilon = s.epsilon := (run_keeps_constants hwf hd).1
      rw [← he]
      simpa using (Spec.isHalted_false_iff.1 hx)
  have he : c.state.epsilon = s.epsilon := (run_keeps_constants hwf hrun).1
  have hd : c.state.depression_constant = s.depression_constant := (run_keeps_constants hwf hrun).2
  obtain ⟨p', a', g1, g2, g3, g4, g5⟩ := change_between (s := c.state) wc (by rw [he]; exact he0)
    (by rw [hd]; exact hdep) more hr2 (name := name) (k := k) (i := i) (p := p) (a := a) (lo := lo) (hi := hi)
    (by rw [hsh]; exact hp) (by rw [he]; exact (key _ _ hrun p hp).1) ha hu (by rw [hsh]; exact hh)
  rw [hsh] at g1
  obtain ⟨q1, q2⟩ := key _ _ hrun' p' g1
  refine ⟨p, p', a', hp, g1, g2, g3, ?_, q2, g4, g5⟩
  rcases q1 with q1 | q1
  · linarith
  · exact q1.le

/-- C118, with a bound on the size of the further updates: the values differ by at most that bound times the
probability not yet spent, and when the longer run halts the element its result lies between `a + (1 - p) lo` and
`a + (1 - p) hi`, which the shorter run alone determines. -/
theorem C118_unspent_probability {s : ACTStates K} (hwf : s.WF) (he0 : 0 < s.epsilon) (he1 : s.epsilon ≤ 1)
    (hdep : 0 ≤ s.depression_constant) (rs more : List (Round K)) {c c' : Controller K}
    (hrun : run ⟨s⟩ (roundOps rs) = .ok c) (hrun' : run ⟨s⟩ (roundOps (rs ++ more)) = .ok c')
    {name : String} {k : Nat} {i b : List Nat} (hib : i.take s.probabilities.shape.length = b)
    (hb : (Controller.haltedBatches ⟨s⟩).at? b = some false) {p a a' lo hi : K}
    (hp : c.probabilities.at? b = some p) (ha : entry? c.accumulators name k i = some a)
    (ha' : entry? c'.accumulators name k i = some a')
    (hu : ∀ r ∈ more, ∃ x, entry? r.updates name k i = some x ∧ lo ≤ x ∧ x ≤ hi)
    (hh : ∀ r ∈ more, ∃ x, r.halting.at? b = some x) :
    (∀ M, 0 ≤ M → -M ≤ lo → hi ≤ M → |a' - a| ≤ (1 - p) * M) ∧
    (c'.haltedBatches.at? b = some true → a + (1 - p) * lo ≤ a' ∧ a' ≤ a + (1 - p) * hi) := by
  obtain ⟨q, p', x, h1, -, h3, h4, h5, h6, h7, h8⟩ := C118_truncation hwf he0 he1 hdep rs more hrun hrun' hib hb
    ha hu hh
  cases Option.some.inj (hp.symm.trans h1)
  cases Option.some.inj (ha'.symm.trans h3)
  refine ⟨fun M hM hl hr => abs_le.2 ⟨?_, ?_⟩, fun hx => ?_⟩
  · have e1 := mul_le_mul_of_nonneg_left hl (sub_nonneg.2 h4)
    have e2 := mul_le_mul_of_nonneg_right (sub_le_sub_right h5 p) hM
    linarith
  · have e1 := mul_le_mul_of_nonneg_left hr (sub_nonneg.2 h4)
    have e2 := mul_le_mul_of_nonneg_right (sub_le_sub_right h5 p) hM
    linarith
  · rw [h6 hx] at h7 h8
    exact ⟨by linarith, by linarith⟩

/-- C118, repairing a truncated result: for an entry and an element that start at 0, dividing by the cumulative
probability gives a value between the bounds of the updates made so far, halted or not. -/
theorem C118_normalised {s : ACTStates K} (hwf : s.WF) (he0 : 0 < s.epsilon) (he1 : s.epsilon ≤ 1)
    (hdep : 0 ≤ s.depression_constant) (rs : List (Round K)) {c : Controller K}
    (hrun : run ⟨s⟩ (roundOps rs) = .ok c) {name : String} {k : Nat} {i b : List Nat}
    (hib : i.take s.probabilities.shape.length = b) (hb : s.probabilities.at? b = some 0) {lo hi p a : K}
    (h0 : entry? s.accumulators name k i = some 0)
    (hu : ∀ r ∈ rs, ∃ x, entry? r.updates name k i = some x ∧ lo ≤ x ∧ x ≤ hi)
    (hh : ∀ r ∈ rs, ∃ x, r.halting.at? b = some x) (hp : c.probabilities.at? b = some p) (hpos : p ≠ 0)
    (ha : entry? c.accumulators name k i = some a) : 0 < p ∧ lo ≤ a / p ∧ a / p ≤ hi := by
  subst hib
  obtain ⟨p', a', g1, g2, g3, g4, g5⟩ := change_between hwf he0 hdep rs hrun hb
    (.inl (by linarith)) h0 hu hh
  cases Option.some.inj (hp.symm.trans g1)
  cases Option.some.inj (ha.symm.trans g2)
  have : 0 < p := lt_of_le_of_ne g3 (Ne.symm hpos)
  rw [sub_zero, sub_zero] at g4 g5
  exact ⟨this, (le_div_iff₀ this).2 (by linarith), (div_le_iff₀ this).2 (by linarith)⟩

/-- C118 for `execute_act`: the same layer is run with at most `m` and with at most `m'` iterations, where
`m ≤ m'`.  If the layer supplies update entries between `lo` and `hi`, the accumulator entries of the two results
differ by an amount between `lo` and `hi` times the difference of the cumulative probabilities, so by at most `1 - p`
times the largest update, with `p` the cumulative probability in the result of the shorter run. -/
theorem C118_execute_act (make : PyTree (Leaf K) → K → Res (Made K))
    (rounds : PyTree (Leaf K) → Round K) (next : PyTree (Leaf K) → PyTree (Leaf K))
    (s0 : PyTree (Leaf K)) (dep : K) {m m' : Int} (hm : m ≤ m') (check : Bool) {c0 : Controller K}
    (hmake : make s0 dep = .ok (.ctrl c0)) (hwf : c0.state.WF) (hd : c0.state.DictsWF)
    (hops : ∀ t, ∀ nu ∈ (rounds (loopStates next s0 t)).updates, nu.2.WF)
    (he0 : 0 < c0.state.epsilon) (he1 : c0.state.epsilon ≤ 1)
    (hdep : 0 ≤ c0.state.depression_constant) {c c' : Controller K} {s s' : PyTree (Leaf K)}
    (hr : (callLayer make (fun s => (rounds s).ops) next).ExecuteAct s0 dep m check (.ok (c, s)))
    (hr' : (callLayer make (fun s => (rounds s).ops) next).ExecuteAct s0 dep m' check (.ok (c', s')))
    {name : String} {l : Nat} {i b : List Nat} (hib : i.take c0.probabilities.shape.length = b)
    (hb : c0.haltedBatches.at? b = some false) {p a a' lo hi : K}
    (hp : c.probabilities.at? b = some p) (ha : entry? c.accumulators name l i = some a)
    (ha' : entry? c'.accumulators name l i = some a')
    (hu : ∀ t, ∃ x, entry? (rounds (loopStates next s0 t)).updates name l i = some x ∧ lo ≤ x ∧ x ≤ hi)
    (hh : ∀ t, ∃ x, (rounds (loopStates next s0 t)).halting.at? b = some x) :
    (∃ p', c'.probabilities.at? b = some p' ∧ p ≤ p' ∧ p' ≤ 1 ∧ (p' - p) * lo ≤ a' - a ∧
      a' - a ≤ (p' - p) * hi) ∧
    (∀ M, 0 ≤ M → -M ≤ lo → hi ≤ M → |a' - a| ≤ (1 - p) * M) ∧
    (c'.haltedBatches.at? b = some true → a + (1 - p) * lo ≤ a' ∧ a' ≤ a + (1 - p) * hi) := by
  have hops' : ∀ t, ∀ op ∈ (rounds (loopStates next s0 t)).ops, op.DictsWF := by
    intro t op ho
    unfold Round.ops at ho
    rcases List.mem_append.1 ho with ho | ho
    · obtain ⟨nu, hm, rfl⟩ := List.mem_map.1 ho
      exact hops t nu hm
    · rw [List.mem_singleton.1 ho]; trivial
  obtain ⟨k, a1, -, -, wd, ⟨d, a3, a4⟩, a5, a6⟩ := C61_loop_is_history make (fun s => (rounds s).ops) next
    s0 dep m check hmake hwf hd hops' hr
  obtain ⟨k', b1, -, -, wd', ⟨d', b3, b4⟩, b5, b6⟩ := C61_loop_is_history make (fun s => (rounds s).ops) next
    s0 dep m' check hmake hwf hd hops' hr'
  -- the shorter run made no more iterations
  have hk : k ≤ k' := by
    by_contra hlt
    obtain ⟨e, e1, e2⟩ := a6 k' (by omega)
    cases Except.ok.inj (b3.symm.trans e1)
    rcases b5 with b5 | b5
    · exact e2 ((allHalted_same b4).1 b5)
    · omega
  let rs : Nat → List (Round K) := fun t => (List.range t).map fun j => rounds (loopStates next s0 j)
  let more := (List.range' k (k' - k)).map fun j => rounds (loopStates next s0 j)
  have hrs : ∀ t, loopCalls (fun s => (rounds s).ops) next s0 t = roundOps (rs t) := by
    intro t
    simp only [loopCalls, roundOps, rs, List.flatMap_map]
  have happ : rs k' = rs k ++ more := by
    simp only [rs, more, ← List.map_append, List.range_eq_range']
    congr 1
    have := List.range'_append_1 (s := 0) (m := k) (n := k' - k)
    rw [Nat.zero_add, Nat.add_sub_cancel' hk] at this
    exact this.symm
  rw [hrs] at a3 b3
  rw [happ] at b3
  have opsWF : ∀ t, ∀ op ∈ roundOps (rs t), op.DictsWF := by
    intro t op ho
    rw [← hrs] at ho
    obtain ⟨j, -, hj⟩ := List.mem_flatMap.1 ho
    exact hops' j op hj
  have ea := entry?_same wd.accumulators
    (run_dictsWF (s := c0.state) hwf hd (opsWF k) a3).accumulators a4.accumulators name l i
  have ea' := entry?_same wd'.accumulators
    (run_dictsWF (s := c0.state) hwf hd (by rw [← happ]; exact opsWF k') b3).accumulators b4.accumulators
    name l i
  have ep : c.probabilities = d.probabilities := a4.probabilities
  have ep' : c'.probabilities = d'.probabilities := b4.probabilities
  have eh' : c'.haltedBatches = d'.haltedBatches := by
    unfold Controller.haltedBatches Controller.haltThreshold
    rw [ep', b4.epsilon]
  have hu' : ∀ r ∈ more, ∃ x, entry? r.updates name l i = some x ∧ lo ≤ x ∧ x ≤ hi := by
    intro r hr
    obtain ⟨t, -, rfl⟩ := List.mem_map.1 hr
    exact hu t
  have hh' : ∀ r ∈ more, ∃ x, r.halting.at? b = some x := by
    intro r hr
    obtain ⟨t, -, rfl⟩ := List.mem_map.1 hr
    exact hh t
  rw [ep] at hp
  rw [ep', eh']
  replace ha := ea.symm.trans ha
  replace ha' := ea'.symm.trans ha'
  refine ⟨?_, C118_unspent_probability hwf he0 he1 hdep _ _ a3 b3 hib hb hp ha ha' hu' hh'⟩
  obtain ⟨q, p', x, h1, h2, h3, h4, h5, -, h7, h8⟩ := C118_truncation hwf he0 he1 hdep _ _ a3 b3 hib hb ha hu' hh'
  cases Option.some.inj (hp.symm.trans h1)
  cases Option.some.inj (ha'.symm.trans h3)
  exact ⟨p', h2, h4, h5, h7, h8⟩

section Example
open Fixtures

/-- The example layer, stopped after one of two iterations.  Element 0 has spent half of its probability and its
entry is 2.  The updates are 4, so the theorem says that the full run gives 4, and it does: the bounds are
attained. -/
theorem C118_example : ∃ c s c' s' a a', demoLayer.ExecuteAct (bare (vec [1/2, 2/3])) 1 1 true (.ok (c, s)) ∧
    demoLayer.ExecuteAct (bare (vec [1/2, 2/3])) 1 2 true (.ok (c', s')) ∧
    entry? c.accumulators "out" 0 [0, 0] = some a ∧ entry? c'.accumulators "out" 0 [0, 0] = some a' ∧
    a + (1 - 1/2) * 4 ≤ a' ∧ a' ≤ a + (1 - 1/2) * 4 ∧ a = 2 ∧ a' = 4 := by
  have h1 : (whileFuel isActNotComplete
      (fun x => (demoLayer.adapter true x).map Carry.rebuild) 5
      (Carry.rebuild ⟨⟨simple⟩, bare (vec [1/2, 2/3]), ⟨0, 1⟩⟩)).map
        (fun z => (z.controller.probabilities.at? [0], entry? z.controller.accumulators "out" 0 [0, 0])) =
      some (some (1/2), some 2) := by decide +kernel
  have h2 : (whileFuel isActNotComplete
      (fun x => (demoLayer.adapter true x).map Carry.rebuild) 5
      (Carry.rebuild ⟨⟨simple⟩, bare (vec [1/2, 2/3]), ⟨0, 2⟩⟩)).map
        (fun z => (z.controller.haltedBatches.at? [0], entry? z.controller.accumulators "out" 0 [0, 0])) =
      some (some true, some 4) := by decide +kernel
  obtain ⟨z, hz, hobs⟩ := Option.map_eq_some_iff.1 h1
  obtain ⟨z', hz', hobs'⟩ := Option.map_eq_some_iff.1 h2
  rw [Prod.mk.injEq] at hobs hobs'
  have r1 := execute_of_fuel (demo_executes 1 true) rfl hz
  have r2 := execute_of_fuel (demo_executes 2 true) rfl hz'
  have hloop : ∀ t, loopStates id (bare (vec [1/2, 2/3])) t = bare (vec [1/2, 2/3]) := by
    intro t
    induction t with
    | zero => rfl
    | succ t ih => show (id (loopStates id _ t)).canon = _; rw [ih]; rfl
  have hd : DictWF simple.accumulators :=
    ⟨simple_wf.acc_keys, fun n t h => by rw [(get?_one h).2]; trivial⟩
  have key := (C118_execute_act _ demoRound id (bare (vec [1/2, 2/3])) 1 (m := 1) (m' := 2) (by norm_num) true
    (c0 := ⟨simple⟩) rfl simple_wf
    ⟨hd, hd, simple_wf.upd_keys, fun n t h => by rw [(get?_one h).2]; trivial⟩
    (by
      intro t nu hnu
      rw [hloop] at hnu
      cases List.mem_singleton.1 hnu
      trivial)
    (by norm_num [simple, fresh]) (by norm_num [simple, fresh]) (by norm_num [simple, fresh]) r1 r2
    (name := "out") (l := 0) (i := [0, 0]) (b := [0]) rfl (by decide +kernel) hobs.1 hobs.2 hobs'.2
    (lo := 4) (hi := 4)
    (fun t => by rw [hloop]; exact ⟨4, by decide +kernel, le_rfl, le_rfl⟩)
    (fun t => by rw [hloop]; exact ⟨1/2, by decide +kernel⟩)).2.2 hobs'.1
  exact ⟨_, _, _, _, 2, 4, r1, r2, hobs.2, hobs'.2, key.1, key.2, rfl, rfl⟩

/-- Three rounds of which the last two are cut off: updates between 2 and 8, 3/4 of the probability not spent. -/
example : obs (run ⟨simple⟩ (roundOps [sround [1/4, 1/2] 4 6]))
      (fun c => some (c.probabilities.at? [0], entry? c.accumulators "out" 0 [0, 0])) = some (some (1/4), some 1) ∧
    obs (run ⟨simple⟩ (roundOps ([sround [1/4, 1/2] 4 6] ++ [sround [1/4, 1/2] 8 6, sround [1/2, 1/2] 2 6])))
      (fun c => some (c.haltedBatches.at? [0], entry? c.accumulators "out" 0 [0, 0])) = some (some true, some 4) ∧
    (1 : ℚ) + (1 - 1/4) * 2 ≤ 4 ∧ (4 : ℚ) ≤ 1 + (1 - 1/4) * 8 :=
  ⟨by decide +kernel, by decide +kernel, by norm_num, by norm_num⟩

end Example
end JaxAct
