import Verif.Props.C61
import Verif.Props.C99
import Verif.Props.C118
import Verif.Props.C80

/-!
# C123 Halting earlier moves the weight to earlier updates

Of two computations with the same updates the one that is always ahead in probability weighs the early updates more.
Its results are therefore smaller when the updates grow with the iterations and larger when they shrink.
-/

namespace JaxAct
open PyTree ACTStates
variable {K : Type} [Field K] [LinearOrder K] [IsStrictOrderedRing K]

namespace Graves

/-- Summation by parts: of two systems of weights with the same total, the one that is ahead gives the smaller mean of
growing values. -/
theorem mean_le_of_ahead {w w' u : Nat → K} : ∀ {n : Nat},
    (∀ t ≤ n, ∑ j ∈ Finset.range t, w' j ≤ ∑ j ∈ Finset.range t, w j) →
    (∀ t, t + 1 < n → u t ≤ u (t + 1)) →
    ∑ j ∈ Finset.range n, w j = ∑ j ∈ Finset.range n, w' j →
    ∑ j ∈ Finset.range n, w j * u j ≤ ∑ j ∈ Finset.range n, w' j * u j
  | 0, _, _, _ => by simp
  | n + 1, hw, hu, heq => by
    have key : ∀ m ≤ n, ∑ j ∈ Finset.range (m + 1), w j * u j - u m * ∑ j ∈ Finset.range (m + 1), w j ≤
        ∑ j ∈ Finset.range (m + 1), w' j * u j - u m * ∑ j ∈ Finset.range (m + 1), w' j := by
      intro m
      induction m with
      | zero => intro _; simp [mul_comm]
      | succ m ih =>
        intro hm
        have i1 := ih (by omega)
        have h1 := hw (m + 1) (by omega)
        have h2 := hu m (by omega)
        rw [Finset.sum_range_succ _ (m + 1), Finset.sum_range_succ _ (m + 1), Finset.sum_range_succ _ (m + 1),
          Finset.sum_range_succ _ (m + 1)]
        nlinarith [mul_nonneg (sub_nonneg.2 h1) (sub_nonneg.2 h2)]
    have := key n le_rfl
    rw [heq] at this
    linarith

/-- The element that is ahead in demand, or has the larger epsilon, has spent at least as much at every step, and has
crossed whenever the other has. -/
theorem ahead {p eps eps' dep dep' : K} {h h' : Nat → K} (hp : p ≤ 1 - eps) (he0 : 0 ≤ eps') (hee : eps' ≤ eps)
    (hd : 0 ≤ dep) (hd' : 0 ≤ dep') {t : Nat} (hx : cumDemand dep' h' t ≤ cumDemand dep h t) :
    ∑ j ∈ Finset.range t, weightFrom p eps' dep' h' j ≤ ∑ j ∈ Finset.range t, weightFrom p eps dep h j ∧
    (CrossedFrom p eps' dep' h' t → CrossedFrom p eps dep h t) := by
  have hc : CrossedFrom p eps' dep' h' t → CrossedFrom p eps dep h t := by
    rw [crossedFrom_iff hd, crossedFrom_iff hd']
    intro h1
    linarith
  refine ⟨?_, hc⟩
  by_cases c' : CrossedFrom p eps' dep' h' t
  · rw [sum_weightFrom_of_crossed (by linarith) c', sum_weightFrom_of_crossed hp (hc c')]
  · rw [sum_weightFrom_of_not c']
    by_cases c : CrossedFrom p eps dep h t
    · rw [sum_weightFrom_of_crossed hp c]
      rw [crossedFrom_iff hd', not_lt] at c'
      linarith
    · rw [sum_weightFrom_of_not c]; exact hx

omit [IsStrictOrderedRing K] in
/-- The number of steps of the element that is ahead is not larger. -/
theorem stepsFrom_le {p eps eps' dep dep' : K} {h h' : Nat → K} {n : Nat}
    (hc : ∀ t < n, CrossedFrom p eps' dep' h' t → CrossedFrom p eps dep h t) :
    stepsFrom p eps dep h n ≤ stepsFrom p eps' dep' h' n := by
  refine Finset.card_le_card fun j hj => ?_
  rw [Finset.mem_filter] at hj ⊢
  exact ⟨hj.1, fun hx => hj.2 (hc j (Finset.mem_range.1 hj.1) hx)⟩

/-- What the last step is given is at least epsilon. -/
theorem eps_le_remainderFrom {p eps dep r : K} {h : Nat → K} (hd : 0 ≤ dep) (hp : p ≤ 1 - eps) :
    ∀ {n : Nat}, CrossedFrom p eps dep h n → eps ≤ remainderFrom p eps dep r h n
  | 0, hc => by
    rw [crossedFrom_iff hd] at hc
    simp only [cumDemand, Finset.range_zero, Finset.sum_empty, add_zero] at hc
    exact absurd hc (not_lt.2 hp)
  | n + 1, hc => by
    rw [remainderFrom_succ]
    by_cases hn : CrossedFrom p eps dep h n
    · rw [if_pos hn]; exact eps_le_remainderFrom hd hp hn
    · rw [if_neg hn, if_pos hc]
      rw [crossedFrom_iff hd, not_lt] at hn
      linarith

/-- The ponder cost, steps plus remainder, of the element that is ahead is not larger. -/
theorem ponder_le {p eps eps' dep dep' r r' : K} {h h' : Nat → K} (hp0 : 0 ≤ p) (hp : p ≤ 1 - eps) (he0 : 0 ≤ eps')
    (hee : eps' ≤ eps) (hd : 0 ≤ dep) (hd' : 0 ≤ dep') {n : Nat}
    (hx : ∀ t ≤ n, cumDemand dep' h' t ≤ cumDemand dep h t) (hc : CrossedFrom p eps' dep' h' n) :
    (stepsFrom p eps dep h n : K) + remainderFrom p eps dep r h n ≤
      stepsFrom p eps' dep' h' n + remainderFrom p eps' dep' r' h' n := by
  have hle : stepsFrom p eps dep h n ≤ stepsFrom p eps' dep' h' n :=
    stepsFrom_le fun t ht => (ahead hp he0 hee hd hd' (hx t ht.le)).2
  have hcc := (ahead hp he0 hee hd hd' (hx n le_rfl)).2 hc
  rcases hle.eq_or_lt with heq | hlt
  · have hn : stepsFrom p eps dep h n ≤ n :=
      (Finset.card_filter_le _ _).trans (by rw [Finset.card_range])
    have := hx (stepsFrom p eps dep h n - 1) (by omega)
    unfold remainderFrom
    rw [if_pos hc, if_pos hcc, ← heq]
    linarith
  · have h1 := eps_le_remainderFrom (r := r') hd' (by linarith) hc
    have h2 : remainderFrom p eps dep r h n ≤ 1 := by
      unfold remainderFrom
      rw [if_pos hcc]
      have := cumDemand_mono hd h (Nat.zero_le (stepsFrom p eps dep h n - 1))
      have h0 : cumDemand dep h 0 = 0 := rfl
      linarith
    have h3 : (stepsFrom p eps dep h n : K) + 1 ≤ stepsFrom p eps' dep' h' n := by exact_mod_cast hlt
    linarith

end Graves

section Code
attribute [local instance] Arith.exact

/-- C123.  Two elements, of one controller or two, with the same cumulative probability and accumulator entry, neither
halted, are given the same updates for the same number of rounds.  The first has the larger epsilon and the sum of its
depressed clipped halting probabilities is never behind that of the second.  Then the first is never behind in
cumulative probability and counts no more iterations; if the second is halted at the end the first is, its ponder cost
(iterations plus residual) is at most that of the second, and its result is at most that of the second when the updates
grow, and at least that of the second when they shrink. -/
theorem C123_ahead {s t : ACTStates K} (hs : s.WF) (ht : t.WF) (he0 : 0 < t.epsilon) (hee : t.epsilon ≤ s.epsilon)
    (hd : 0 ≤ s.depression_constant) (hd' : 0 ≤ t.depression_constant)
    {name name' : String} {k k' : Nat} {i i' : List Nat} {a0 p n0 : K} {b b' : List Nat}
    (hib : i.take s.probabilities.shape.length = b) (hib' : i'.take t.probabilities.shape.length = b')
    (hb : s.probabilities.at? b = some p) (hb' : t.probabilities.at? b' = some p) (hopen : p ≤ 1 - s.epsilon)
    (hn : s.iterations.at? b = some n0) (hn' : t.iterations.at? b' = some n0)
    (ha : entry? s.accumulators name k i = some a0) (ha' : entry? t.accumulators name' k' i' = some a0)
    {rs rs' : List (Round K)} (hlen : rs.length = rs'.length) (u h h' : Nat → K)
    (hu : ∀ j r, rs[j]? = some r → entry? r.updates name k i = some (u j))
    (hu' : ∀ j r, rs'[j]? = some r → entry? r.updates name' k' i' = some (u j))
    (hh : ∀ j r, rs[j]? = some r → r.halting.at? b = some (h j))
    (hh' : ∀ j r, rs'[j]? = some r → r.halting.at? b' = some (h' j))
    (hahead : ∀ m ≤ rs.length, ∑ j ∈ Finset.range m, t.depression_constant * Graves.clip (h' j) ≤
      ∑ j ∈ Finset.range m, s.depression_constant * Graves.clip (h j))
    {c d : Controller K} (h1 : run ⟨s⟩ (roundOps rs) = .ok c) (h2 : run ⟨t⟩ (roundOps rs') = .ok d) :
    (∃ q q', c.probabilities.at? b = some q ∧ d.probabilities.at? b' = some q' ∧ q' ≤ q) ∧
    (∃ n n', c.iterations.at? b = some n ∧ d.iterations.at? b' = some n' ∧ n ≤ n') ∧
    (d.haltedBatches.at? b' = some true → c.haltedBatches.at? b = some true ∧
      (0 ≤ p → ∃ n n' r r', c.iterations.at? b = some n ∧ d.iterations.at? b' = some n' ∧
        c.residuals.at? b = some r ∧ d.residuals.at? b' = some r' ∧ n + r ≤ n' + r') ∧
      ∃ a a', entry? c.accumulators name k i = some a ∧ entry? d.accumulators name' k' i' = some a' ∧
        ((∀ m, m + 1 < rs.length → u m ≤ u (m + 1)) → a ≤ a') ∧
        ((∀ m, m + 1 < rs.length → u (m + 1) ≤ u m) → a' ≤ a)) := by
  subst hib hib'
  have he0s : 0 < s.epsilon := he0.trans_le hee
  have hopen' : p ≤ 1 - t.epsilon := by linarith
  obtain ⟨r, hr⟩ := Controller.at?_some_of_shape (b := s.residuals) hs.res_shape hb
  obtain ⟨r', hr'⟩ := Controller.at?_some_of_shape (b := t.residuals) ht.res_shape hb'
  obtain ⟨g1, g2, g3, g4⟩ := C99_continue hs he0s hd rs h1 h hb hr hn hopen hh
  obtain ⟨k1, k2, k3, k4⟩ := C99_continue ht he0 hd' rs' h2 h' hb' hr' hn' hopen' hh'
  obtain ⟨f, f1⟩ := C99_accumulators hs he0s hd rs h1 u h hb hopen ha hu hh
  obtain ⟨f', f1'⟩ := C99_accumulators ht he0 hd' rs' h2 u h' hb' hopen' ha' hu' hh'
  rw [← hlen] at k1 k2 k3 k4 f' f1'
  have key : ∀ m ≤ rs.length, _ := fun m hm =>
    Graves.ahead (p := p) hopen he0.le hee hd hd' (h := h) (h' := h') (hahead m hm)
  refine ⟨⟨_, _, g1, k1, add_le_add le_rfl (key _ le_rfl).1⟩,
    ⟨_, _, g2, k2, add_le_add le_rfl (Nat.cast_le.2 (Graves.stepsFrom_le fun m hm => (key m hm.le).2))⟩, ?_⟩
  intro hhalt
  have hhalt' := g4.2 ((key _ le_rfl).2 (k4.1 hhalt))
  have heq := (f1 hhalt').trans (f1' hhalt).symm
  refine ⟨hhalt', fun hp0 => ⟨_, _, _, _, g2, k2, g3, k3, ?_⟩, _, _, f, f', fun hm => add_le_add le_rfl ?_, fun hm => add_le_add le_rfl ?_⟩
  · have := Graves.ponder_le (r := r) (r' := r') hp0 hopen he0.le hee hd hd' hahead (k4.1 hhalt)
    linarith
  · exact Graves.mean_le_of_ahead (fun m hm => (key m hm).1) hm heq
  · have := Graves.mean_le_of_ahead (u := fun j => - u j) (fun m hm => (key m hm).1)
      (fun m h => neg_le_neg (hm m h)) heq
    simp only [mul_neg, Finset.sum_neg_distrib] at this
    linarith

/-- C123 for `execute_act`.  Two layers, of which the second has the smaller epsilon and is never ahead in the
depressed clipped halting probabilities, are run from fresh controllers.  For an element that has the same updates in
both and is halted in both results, the result of the first is at most that of the second when the updates grow, and at
least that of the second when they shrink. -/
theorem C123_execute_act (make make' : PyTree (Leaf K) → K → Res (Made K))
    (rounds rounds' : PyTree (Leaf K) → Round K) (next next' : PyTree (Leaf K) → PyTree (Leaf K))
    (s0 s0' : PyTree (Leaf K)) (dep dep' : K) (max max' : Int) (check check' : Bool) {c0 c0' : Controller K}
    (hmake : make s0 dep = .ok (.ctrl c0)) (hmake' : make' s0' dep' = .ok (.ctrl c0'))
    (hwf : c0.state.WF) (hwf' : c0'.state.WF) (hdw : c0.state.DictsWF) (hdw' : c0'.state.DictsWF)
    (hops : ∀ t, ∀ nu ∈ (rounds (loopStates next s0 t)).updates, nu.2.WF)
    (hops' : ∀ t, ∀ nu ∈ (rounds' (loopStates next' s0' t)).updates, nu.2.WF)
    (he0 : 0 < c0'.state.epsilon) (hee : c0'.state.epsilon ≤ c0.state.epsilon) (he1 : c0.state.epsilon ≤ 1)
    (hd : 0 ≤ c0.state.depression_constant) (hd' : 0 ≤ c0'.state.depression_constant)
    (hfresh : ∀ b p, c0.probabilities.at? b = some p → p = 0)
    (hfresh' : ∀ b p, c0'.probabilities.at? b = some p → p = 0)
    {c c' : Controller K} {s s' : PyTree (Leaf K)}
    (hr : (callLayer make (fun s => (rounds s).ops) next).ExecuteAct s0 dep max check (.ok (c, s)))
    (hr' : (callLayer make' (fun s => (rounds' s).ops) next').ExecuteAct s0' dep' max' check' (.ok (c', s')))
    (h h' : List Nat → Nat → K)
    (hh : ∀ t b p, c0.probabilities.at? b = some p →
      (rounds (loopStates next s0 t)).halting.at? b = some (h b t))
    (hh' : ∀ t b p, c0'.probabilities.at? b = some p →
      (rounds' (loopStates next' s0' t)).halting.at? b = some (h' b t))
    {name name' : String} {l l' : Nat} {i i' : List Nat} {a0 : K} (u : Nat → K)
    {b b' : List Nat} (hb : i.take c0.probabilities.shape.length = b)
    (hb' : i'.take c0'.probabilities.shape.length = b') (hbb : (c0.probabilities.at? b).isSome)
    (hbb' : (c0'.probabilities.at? b').isSome)
    (ha : entry? c0.accumulators name l i = some a0) (ha' : entry? c0'.accumulators name' l' i' = some a0)
    (hu : ∀ t, entry? (rounds (loopStates next s0 t)).updates name l i = some (u t))
    (hu' : ∀ t, entry? (rounds' (loopStates next' s0' t)).updates name' l' i' = some (u t))
    (hahead : ∀ m, ∑ j ∈ Finset.range m, c0'.state.depression_constant * Graves.clip (h' b' j) ≤
      ∑ j ∈ Finset.range m, c0.state.depression_constant * Graves.clip (h b j))
    (hhalt : c.haltedBatches.at? b = some true) (hhalt' : c'.haltedBatches.at? b' = some true) :
    ∃ a a', entry? c.accumulators name l i = some a ∧ entry? c'.accumulators name' l' i' = some a' ∧
      ((∀ m, u m ≤ u (m + 1)) → a ≤ a') ∧ ((∀ m, u (m + 1) ≤ u m) → a' ≤ a) := by
  subst hb hb'
  have he0s : 0 < c0.state.epsilon := he0.trans_le hee
  have he1' : c0'.state.epsilon ≤ 1 := hee.trans he1
  obtain ⟨k, k1, -, ⟨cr, k3, k4⟩, k2⟩ := C61_execute_act_is_graves make rounds next s0 dep max check hmake hwf hdw hops
    he0s he1 hd hfresh hr h
  obtain ⟨k', k1', -, ⟨cr', k3', k4'⟩, k2'⟩ := C61_execute_act_is_graves make' rounds' next' s0' dep' max' check' hmake'
    hwf' hdw' hops' he0 he1' hd' hfresh' hr' h'
  obtain ⟨q, g, -, -⟩ := k2 fun t _ => hh t
  obtain ⟨q', g', -, -⟩ := k2' fun t _ => hh' t
  have g := g name l i a0 u ha fun t _ => hu t
  have g' := g' name' l' i' a0 u ha' fun t _ => hu' t
  obtain ⟨p, hp⟩ := Option.isSome_iff_exists.1 hbb
  obtain ⟨p', hp'⟩ := Option.isSome_iff_exists.1 hbb'
  have q := q _ _ hp
  have q' := q' _ _ hp'
  -- an element halted in the result has crossed
  have crossed : ∀ {c0 c cr : Controller K} {ops : List (Op K)} {b : List Nat} {f : Nat → K} {k : Nat},
      c0.state.WF → 0 ≤ c0.state.depression_constant → run c0 ops = .ok cr → c.state.Same cr.state →
      c.probabilities.at? b = some (∑ t ∈ Finset.range k,
        Graves.weight c0.state.epsilon c0.state.depression_constant f t) → c.haltedBatches.at? b = some true →
      Graves.CrossedFrom 0 c0.state.epsilon c0.state.depression_constant f k := by
    intro c0 c cr ops b f k wf hd hrun hsame hq hhalt
    obtain ⟨e1, e2⟩ := run_keeps_constants wf hrun
    have wr : cr.state.WF := run_wf wf hrun
    by_contra hn
    simp only [← C99_fresh] at hq
    rw [Graves.sum_weightFrom_of_not hn] at hq
    rw [Graves.crossedFrom_iff hd, zero_add, not_lt] at hn
    have hfl : c.state.probabilities.dtype.isFloating = true := by rw [hsame.probabilities]; exact wr.floating
    obtain ⟨x, hx, hhx⟩ := (halted_iff (s := c.state) hfl).1 hhalt
    cases hx.symm.trans hq
    rw [hsame.epsilon, e1] at hhx
    rw [Spec.isHalted_false_iff.2 hn] at hhx
    cases hhx
  have x := crossed hwf hd k3 k4 q hhalt
  have x' := crossed hwf' hd' k3' k4' q' hhalt'
  simp only [← C99_fresh] at g g'
  -- both sums up to the larger number of iterations
  have pad : ∀ {eps dc : K} {f v : Nat → K} {k n : Nat}, k ≤ n → Graves.CrossedFrom 0 eps dc f k →
      ∑ t ∈ Finset.range k, Graves.weightFrom 0 eps dc f t * v t =
        ∑ t ∈ Finset.range n, Graves.weightFrom 0 eps dc f t * v t := by
    intro eps dc f v k n hkn hx
    refine Finset.sum_subset (fun t ht => Finset.mem_range.2 ((Finset.mem_range.1 ht).trans_le hkn)) ?_
    intro t htn htk
    rw [Finset.mem_range] at htn htk
    have hkt : k ≤ t := not_lt.1 htk
    unfold Graves.weightFrom
    rw [if_neg (not_not.2 (hx.mono (by omega))), if_neg (not_not.2 (hx.mono hkt)), zero_mul]
  rw [pad (le_max_left k k') x] at g
  rw [pad (le_max_right k k') x'] at g'
  have hopen : (0 : K) ≤ 1 - c0.state.epsilon := by linarith
  have key : ∀ m, _ := fun m =>
    (Graves.ahead (p := 0) hopen he0.le hee hd hd' (h := h _) (h' := h' _) (hahead m)).1
  have heq := (Graves.sum_weightFrom_of_crossed hopen (x.mono (le_max_left k k'))).trans
    (Graves.sum_weightFrom_of_crossed (by linarith) (x'.mono (le_max_right k k'))).symm
  refine ⟨_, _, g, g', fun hm => add_le_add le_rfl ?_, fun hm => add_le_add le_rfl ?_⟩
  · exact Graves.mean_le_of_ahead (fun m _ => key m) (fun m _ => hm m) heq
  · have := Graves.mean_le_of_ahead (u := fun j => - u j) (fun m _ => key m) (fun m _ => neg_le_neg (hm m)) heq
    simp only [mul_neg, Finset.sum_neg_distrib] at this
    linarith

section Example
open Fixtures

theorem quarter : simple.depression_constant * Graves.clip (1/4 : ℚ) ≤
    simple.depression_constant * Graves.clip (1/2 : ℚ) := by decide +kernel

/-- Both elements are given the updates 1, 2, 4, 8; element 0 has halting probabilities 1/2, element 1 has 1/4. -/
theorem C123_example : ∃ c, run ⟨simple⟩ (roundOps [sround [1/2, 1/4] 1 1, sround [1/2, 1/4] 2 2,
      sround [1/2, 1/4] 4 4, sround [1/2, 1/4] 8 8]) = .ok c ∧
    c.haltedBatches.at? [0] = some true ∧ c.haltedBatches.at? [1] = some true ∧
    entry? c.accumulators "out" 0 [0, 0] = some (3/2) ∧ entry? c.accumulators "out" 0 [1, 0] = some (15/4) ∧
    (∃ n n' r r', c.iterations.at? [0] = some n ∧ c.iterations.at? [1] = some n' ∧
      c.residuals.at? [0] = some r ∧ c.residuals.at? [1] = some r' ∧ n + r ≤ n' + r') ∧
    ∃ a a', entry? c.accumulators "out" 0 [0, 0] = some a ∧ entry? c.accumulators "out" 0 [1, 0] = some a' ∧
      a ≤ a' := by
  have o : obs (run ⟨simple⟩ (roundOps [sround [1/2, 1/4] 1 1, sround [1/2, 1/4] 2 2,
      sround [1/2, 1/4] 4 4, sround [1/2, 1/4] 8 8])) (fun c => some (c.haltedBatches.at? [0],
      c.haltedBatches.at? [1], entry? c.accumulators "out" 0 [0, 0], entry? c.accumulators "out" 0 [1, 0])) =
      some (some true, some true, some (3/2), some (15/4)) := by decide +kernel
  cases hc : run ⟨simple⟩ (roundOps [sround [1/2, 1/4] 1 1, sround [1/2, 1/4] 2 2,
      sround [1/2, 1/4] 4 4, sround [1/2, 1/4] 8 8]) with
  | error e => rw [hc] at o; cases o
  | ok c =>
    rw [hc] at o
    have o := Option.some.inj o
    simp only [Prod.mk.injEq] at o
    obtain ⟨o1, o2, o3, o4⟩ := o
    have pick : ∀ {β : Type} {f : Round ℚ → Option β} {v : Nat → β},
        f (sround [1/2, 1/4] 1 1) = some (v 0) → f (sround [1/2, 1/4] 2 2) = some (v 1) →
        f (sround [1/2, 1/4] 4 4) = some (v 2) → f (sround [1/2, 1/4] 8 8) = some (v 3) →
        ∀ j r, [sround [1/2, 1/4] 1 1, sround [1/2, 1/4] 2 2, sround [1/2, 1/4] 4 4,
          sround [1/2, 1/4] 8 8][j]? = some r → f r = some (v j) := by
      intro β f v h0 h1 h2 h3 j r hr
      match j with
      | 0 => cases hr; exact h0
      | 1 => cases hr; exact h1
      | 2 => cases hr; exact h2
      | 3 => cases hr; exact h3
      | j + 4 => simp at hr
    have halves : ∀ m, ∑ j ∈ Finset.range m, simple.depression_constant * Graves.clip ((fun _ => 1/4 : Nat → ℚ) j) ≤
        ∑ j ∈ Finset.range m, simple.depression_constant * Graves.clip ((fun _ => 1/2 : Nat → ℚ) j) := by
      intro m
      exact Finset.sum_le_sum fun _ _ => quarter
    obtain ⟨-, -, h3⟩ := C123_ahead simple_wf simple_wf (by decide +kernel) le_rfl (by decide +kernel)
      (by decide +kernel) (name := "out") (name' := "out") (k := 0) (k' := 0) (i := [0, 0]) (i' := [1, 0]) (a0 := 0)
      (p := 0) (n0 := 0) (b := [0]) (b' := [1]) rfl rfl (by decide +kernel) (by decide +kernel) (by decide +kernel)
      (by decide +kernel) (by decide +kernel) (by decide +kernel) (by decide +kernel) (rs := [sround [1/2, 1/4] 1 1,
        sround [1/2, 1/4] 2 2, sround [1/2, 1/4] 4 4, sround [1/2, 1/4] 8 8]) (rs' := [sround [1/2, 1/4] 1 1,
        sround [1/2, 1/4] 2 2, sround [1/2, 1/4] 4 4, sround [1/2, 1/4] 8 8]) rfl
      (fun j => 2 ^ j) (fun _ => 1/2) (fun _ => 1/4)
      (pick (f := fun r => entry? r.updates "out" 0 [0, 0]) (by decide +kernel) (by decide +kernel)
        (by decide +kernel) (by decide +kernel))
      (pick (f := fun r => entry? r.updates "out" 0 [1, 0]) (by decide +kernel) (by decide +kernel)
        (by decide +kernel) (by decide +kernel))
      (pick (f := fun r => r.halting.at? [0]) (v := fun _ => 1/2) (by decide +kernel) (by decide +kernel)
        (by decide +kernel) (by decide +kernel))
      (pick (f := fun r => r.halting.at? [1]) (v := fun _ => 1/4) (by decide +kernel) (by decide +kernel)
        (by decide +kernel) (by decide +kernel))
      (fun m _ => halves m) hc hc
    obtain ⟨-, hpond, a, a', e1, e2, hle, -⟩ := h3 o2
    exact ⟨c, rfl, o1, o2, o3, o4, hpond le_rfl, a, a', e1, e2,
      hle fun m _ => pow_le_pow_right₀ (by norm_num) (Nat.le_succ m)⟩

/-- A round whose update is the user state, with fixed halting probabilities. -/
def climbRound : PyTree (Leaf ℚ) → Round ℚ
  | .leaf (.tensor t) => ⟨[("out", bare t)], vec [1/2, 1/4]⟩
  | _ => ⟨[], vec []⟩

/-- A layer whose updates grow by `1/4` from iteration to iteration. -/
def climbLayer : Layer ℚ :=
  callLayer (fun _ _ => .ok (.ctrl ⟨simple⟩)) (fun s => (climbRound s).ops) grow

theorem climb_states (t : Nat) : ∃ u : Tensor ℚ, loopStates grow (bare (col 1 1)) t = bare u ∧
    u.at? [0, 0] = some (1 + (t : ℚ) / 4) ∧ u.at? [1, 0] = some (1 + (t : ℚ) / 4) := by
  induction t with
  | zero => exact ⟨_, rfl, by simp [col, Arr.at?, InB], by simp [col, Arr.at?, InB]⟩
  | succ t ih =>
    obtain ⟨u, h1, h2, h3⟩ := ih
    refine ⟨⟨u.dtype, u.arr.map (· + 1/4)⟩, ?_, ?_, ?_⟩
    · unfold loopStates; rw [h1]; rfl
    · simp only [Tensor.at?, Arr.at?_map] at h2 ⊢
      rw [h2]
      simp only [Option.map_some, Option.some.injEq]
      push_cast
      ring
    · simp only [Tensor.at?, Arr.at?_map] at h3 ⊢
      rw [h3]
      simp only [Option.map_some, Option.some.injEq]
      push_cast
      ring

theorem climb_updates (t : Nat) : ∀ nu ∈ (climbRound (loopStates grow (bare (col 1 1)) t)).updates, nu.2.WF := by
  intro nu hnu
  obtain ⟨u, h1, -, -⟩ := climb_states t
  rw [h1] at hnu
  cases List.mem_singleton.1 hnu
  trivial

theorem climb_halting (t : Nat) :
    (climbRound (loopStates grow (bare (col 1 1)) t)).halting.at? [0] = some (1/2) ∧
    (climbRound (loopStates grow (bare (col 1 1)) t)).halting.at? [1] = some (1/4) := by
  obtain ⟨u, h1, -, -⟩ := climb_states t
  rw [h1]
  exact (by decide +kernel : (vec [1/2, 1/4]).at? [0] = some (1/2) ∧ (vec [1/2, 1/4]).at? [1] = some (1/4))

theorem climb_executes : ∃ c s, climbLayer.ExecuteAct (bare (col 1 1)) 1 9 true (.ok (c, s)) := by
  have hok : succeeds (run ⟨simple⟩ (climbRound (bare (col 1 1))).ops) = true := by decide +kernel
  cases hr : run ⟨simple⟩ (climbRound (bare (col 1 1))).ops with
  | error e => rw [hr] at hok; cases hok
  | ok c1 =>
    refine C50_execute_act_succeeds _ climbRound grow true ⟨simple⟩ c1 _ 1 9 rfl simple_wf rfl
      (by simp [simple]) simple_idle ?_ ?_ hr
    · exact fun l hl => ⟨col 1 1, List.mem_singleton.1 hl⟩
    · refine ⟨fun s hs => ?_, fun s hs => ?_⟩ <;>
      · obtain ⟨l, rfl⟩ := hs.leaf_iff.1 ⟨_, rfl⟩
        have h2 := hs.2
        simp only [bare, treeLeaves, PyTree.canon, leaves, List.map_cons, List.map_nil, List.cons.injEq,
          and_true] at h2
        obtain ⟨t, rfl, h3, h4⟩ := Leaf.type_some.1 h2.symm
        first
        | exact .cons (.cache _ hs) (.cons (.iterate ⟨rfl, rfl⟩) .nil)
        | exact hs

/-- The two elements of one batch, with the same growing updates: the theorem applies to the call of `execute_act`. -/
theorem C123_example_execute_act : ∃ c s a a',
    climbLayer.ExecuteAct (bare (col 1 1)) 1 9 true (.ok (c, s)) ∧
    c.haltedBatches.at? [0] = some true ∧ c.haltedBatches.at? [1] = some true ∧
    entry? c.accumulators "out" 0 [0, 0] = some a ∧ entry? c.accumulators "out" 0 [1, 0] = some a' ∧
    a = 9/8 ∧ a' = 11/8 ∧ a ≤ a' := by
  have h1 : (whileFuel isActNotComplete
      (fun x => (climbLayer.adapter true x).map Carry.rebuild) 12
      (Carry.rebuild ⟨⟨simple⟩, bare (col 1 1), ⟨0, 9⟩⟩)).map
        (fun z => (z.controller.haltedBatches.at? [0], z.controller.haltedBatches.at? [1],
          entry? z.controller.accumulators "out" 0 [0, 0], entry? z.controller.accumulators "out" 0 [1, 0])) =
      some (some true, some true, some (9/8), some (11/8)) := by decide +kernel
  obtain ⟨z, hz, hobs⟩ := Option.map_eq_some_iff.1 h1
  simp only [Prod.mk.injEq] at hobs
  obtain ⟨o1, o2, o3, o4⟩ := hobs
  have r := execute_of_fuel climb_executes rfl hz
  have zero : ∀ b p, simple.probabilities.at? b = some p → p = 0 := by
    intro b p hb
    rcases vec_two hb with ⟨-, rfl⟩ | ⟨-, rfl⟩ <;> rfl
  have halt : ∀ (t : Nat) b p, simple.probabilities.at? b = some p →
      (climbRound (loopStates grow (bare (col 1 1)) t)).halting.at? b = some (if b = [0] then 1/2 else 1/4) := by
    intro t b p hb
    rcases vec_two hb with ⟨rfl, -⟩ | ⟨rfl, -⟩
    · exact (climb_halting t).1
    · exact (climb_halting t).2
  have halves : ∀ m, ∑ j ∈ Finset.range m, simple.depression_constant *
        Graves.clip ((fun b _ => if b = [0] then 1/2 else 1/4 : List Nat → Nat → ℚ) [1] j) ≤
      ∑ j ∈ Finset.range m, simple.depression_constant *
        Graves.clip ((fun b _ => if b = [0] then 1/2 else 1/4 : List Nat → Nat → ℚ) [0] j) := by
    intro m
    exact Finset.sum_le_sum fun _ _ => quarter
  obtain ⟨a, a', f1, f2, f3, -⟩ := C123_execute_act _ _ climbRound climbRound grow grow (bare (col 1 1))
    (bare (col 1 1)) 1 1 9 9 true true (c0 := ⟨simple⟩) (c0' := ⟨simple⟩) rfl rfl simple_wf simple_wf
    simple_dictsWF simple_dictsWF climb_updates climb_updates (by decide +kernel) le_rfl (by decide +kernel) (by decide +kernel)
    (by decide +kernel) zero zero r r (fun b _ => if b = [0] then 1/2 else 1/4)
    (fun b _ => if b = [0] then 1/2 else 1/4) halt halt (name := "out") (name' := "out") (l := 0) (l' := 0)
    (i := [0, 0]) (i' := [1, 0]) (a0 := 0) (fun t => 1 + t / 4) (b := [0]) (b' := [1]) rfl rfl (by decide +kernel)
    (by decide +kernel) (by decide +kernel) (by decide +kernel)
    (fun t => by obtain ⟨u, h1, h2, -⟩ := climb_states t; rw [h1]; exact h2)
    (fun t => by obtain ⟨u, h1, -, h2⟩ := climb_states t; rw [h1]; exact h2) halves o1 o2
  refine ⟨_, _, a, a', r, o1, o2, f1, f2, Option.some.inj (f1.symm.trans o3), Option.some.inj (f2.symm.trans o4),
    f3 fun m => ?_⟩
  push_cast
  linarith

end Example

end Code
end JaxAct
