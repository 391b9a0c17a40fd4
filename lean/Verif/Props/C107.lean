import Verif.Props.C20Demo
import Verif.Props.C61
import Verif.Props.C85
import Verif.Props.C93

/-!
# C107 Order survives rounding

Rounding is monotone, and so are the results: C48 and the monotone half of C59, which are about exact arithmetic,
hold without any margin when every operation is rounded.
-/

namespace JaxAct
open ACTStates Fmt

namespace Rounded
variable {f : Fmt} {thr thr' dep dep' : ℚ} {h h' : Nat → ℚ}

theorem clip_mono {x y : ℚ} (hxy : x ≤ y) : Graves.clip x ≤ Graves.clip y :=
  inf_le_inf_left _ (sup_le_sup_left hxy _)

theorem demand_mono (hf : f.Valid) (hd0 : 0 ≤ dep) (hd : dep ≤ dep') {x y : ℚ} (hxy : x ≤ y) :
    demand f dep x ≤ demand f dep' y :=
  rnd_mono hf.1 (mul_le_mul (rnd_mono hf.1 hd) (clip_mono hxy) (Graves.clip_nonneg _)
    (rnd_nonneg (hd0.trans hd)))

/-- Larger halting probabilities, a larger depression constant and a lower threshold give larger cumulative
probabilities. -/
theorem prob_mono (hf : f.Valid) (ht0 : 0 ≤ thr') (ht : thr' ≤ thr) (ht1 : thr ≤ 1) (hd0 : 0 ≤ dep)
    (hd : dep ≤ dep') : ∀ n, (∀ t < n, h t ≤ h' t) → prob f thr dep h n ≤ prob f thr' dep' h' n
  | 0, _ => le_rfl
  | n + 1, hh => by
    have ih := prob_mono hf ht0 ht ht1 hd0 hd n fun t htn => hh t (by omega)
    obtain ⟨a1, a2, a3, a4⟩ := prob_range (h := h) hf (ht0.trans ht) ht1 hd0 n
    obtain ⟨b1, b2, b3, b4⟩ := prob_range (h := h') hf ht0 (ht.trans ht1) (hd0.trans hd) n
    have top := (prob_range (h := h) hf (ht0.trans ht) ht1 hd0 (n + 1)).2.2.1
    have hdm := demand_mono hf hd0 hd (hh n (Nat.lt_succ_self n))
    by_cases hx : thr' < prob f thr' dep' h' n
    · have : prob f thr' dep' h' (n + 1) = 1 := by
        rw [prob_succ, weight, if_pos hx, add_zero, show f.rnd _ = _ from b1]
        exact b4 hx
      rw [this]; exact top
    · by_cases hy : thr' < f.rnd (prob f thr' dep' h' n + demand f dep' (h' n))
      · have : prob f thr' dep' h' (n + 1) = 1 := by
          rw [prob_succ, weight, if_neg hx, if_pos hy]
          exact rnd_add_remainder hf b1 b2 b3
        rw [this]; exact top
      · have hle : f.rnd (prob f thr dep h n + demand f dep (h n)) ≤
            f.rnd (prob f thr' dep' h' n + demand f dep' (h' n)) := rnd_mono hf.1 (add_le_add ih hdm)
        rw [prob_succ, prob_succ, weight, weight, if_neg hx, if_neg hy,
          if_neg (by linarith [not_lt.1 hx]), if_neg (by linarith [not_lt.1 hy])]
        exact hle

theorem halted_of_halted (hf : f.Valid) (ht0 : 0 ≤ thr') (ht : thr' ≤ thr) (ht1 : thr ≤ 1) (hd0 : 0 ≤ dep)
    (hd : dep ≤ dep') {n : Nat} (hh : ∀ t < n, h t ≤ h' t) (hx : thr < prob f thr dep h n) :
    thr' < prob f thr' dep' h' n :=
  ht.trans_lt (hx.trans_le (prob_mono hf ht0 ht ht1 hd0 hd n hh))

/-- The counter goes the other way. -/
theorem counter_anti (hf : f.Valid) (ht0 : 0 ≤ thr') (ht : thr' ≤ thr) (ht1 : thr ≤ 1) (hd0 : 0 ≤ dep)
    (hd : dep ≤ dep') {rd : ℚ → ℚ} (hm : ∀ {x y : ℚ}, x ≤ y → rd x ≤ rd y)
    (hid : ∀ x, rd (rd x) = rd x) (hz : rd 0 = 0) : ∀ n, (∀ t < n, h t ≤ h' t) →
    counter rd f thr' dep' h' n ≤ counter rd f thr dep h n ∧
    rd (counter rd f thr dep h n) = counter rd f thr dep h n
  | 0, _ => ⟨le_rfl, hz⟩
  | n + 1, hh => by
    obtain ⟨i1, i2⟩ := counter_anti hf ht0 ht ht1 hd0 hd hm hid hz n fun t htn => hh t (by omega)
    have hhalt := halted_of_halted (h := h) (h' := h') hf ht0 ht ht1 hd0 hd
      (fun t (htn : t < n) => hh t (by omega))
    have hgrow : counter rd f thr dep h n ≤ rd (counter rd f thr dep h n + 1) := by
      conv_lhs => rw [← i2]
      exact hm (by linarith)
    unfold counter
    by_cases hx : thr < prob f thr dep h n
    · rw [if_pos hx, if_pos (hhalt hx)]
      exact ⟨i1, i2⟩
    · rw [if_neg hx]
      refine ⟨?_, hid _⟩
      by_cases hy : thr' < prob f thr' dep' h' n
      · rw [if_pos hy]
        exact i1.trans hgrow
      · rw [if_neg hy]
        exact hm (by linarith)

end Rounded

section Theorems
variable {F : DType → Fmt} [A : Arith ℚ]

omit A in
theorem roundTo_mono (hV : ∀ d : DType, d.isFloating = true → (F d).Valid) (d : DType) {x y : ℚ} (hxy : x ≤ y) :
    Arith.roundTo F d x ≤ Arith.roundTo F d y := by
  unfold Arith.roundTo
  split
  · rename_i hd
    exact rnd_mono (hV d hd).1 hxy
  · exact hxy

omit A in
theorem roundTo_nonneg (d : DType) {x : ℚ} (hx : 0 ≤ x) : 0 ≤ Arith.roundTo F d x := by
  unfold Arith.roundTo
  split
  · exact rnd_nonneg hx
  · exact hx

/-- C107, the bookkeeping.  Every operation is rounded.  Two controllers, possibly with different accumulators,
are run for the same number of rounds.  The second has the larger (or equal) `epsilon` and depression constant, and
element `b'` of it is given halting probabilities at least as large as those element `b` of the first is given; both
elements start with cumulative probability 0.  Then the second has the larger cumulative probability, it is halted
if the first is, and if both counters started at 0 it has the smaller counter. -/
theorem C107_halting (hA : A = Arith.rounded F)
    (hV : ∀ d : DType, d.isFloating = true → (F d).Valid)
    (hN : ∀ e e' : DType, e.isFloating = true → DType.promote e e' = e' → (F e).Sub (F e'))
    {s t : ACTStates ℚ} (hs : s.WF) (ht : t.WF)
    (hpd : t.probabilities.dtype = s.probabilities.dtype) (hid : t.iterations.dtype = s.iterations.dtype)
    (he0 : 0 ≤ s.epsilon) (he : s.epsilon ≤ t.epsilon) (he1 : t.epsilon ≤ 1)
    (hd0 : 0 ≤ s.depression_constant) (hd : s.depression_constant ≤ t.depression_constant)
    {b b' : List Nat} (hb : s.probabilities.at? b = some 0) (hb' : t.probabilities.at? b' = some 0)
    {rs rs' : List (Round ℚ)} (hlen : rs.length = rs'.length) {h h' : Nat → ℚ}
    (hh : ∀ j r x, rs[j]? = some r → r.halting.at? b = some x →
      h j = convS r.halting.dtype s.probabilities.dtype x)
    (hh' : ∀ j r x, rs'[j]? = some r → r.halting.at? b' = some x →
      h' j = convS r.halting.dtype s.probabilities.dtype x)
    (hle : ∀ j < rs.length, h j ≤ h' j)
    {c d : Controller ℚ} (h1 : run ⟨s⟩ (roundOps rs) = .ok c) (h2 : run ⟨t⟩ (roundOps rs') = .ok d) :
    (∃ p q, c.probabilities.at? b = some p ∧ d.probabilities.at? b' = some q ∧ p ≤ q) ∧
    (c.haltedBatches.at? b = some true → d.haltedBatches.at? b' = some true) ∧
    (s.iterations.at? b = some 0 → t.iterations.at? b' = some 0 →
      ∃ m n, c.iterations.at? b = some m ∧ d.iterations.at? b' = some n ∧ n ≤ m) := by
  have hF64 := hV .f64 rfl
  have hF := hV _ hs.floating
  have hmono : ∀ {x y : ℚ}, x ≤ y → (F s.probabilities.dtype).rnd ((F .f64).rnd (1 - y)) ≤
      (F s.probabilities.dtype).rnd ((F .f64).rnd (1 - x)) := fun hxy =>
    rnd_mono hF.1 (rnd_mono hF64.1 (by linarith))
  have t0 : 0 ≤ (F s.probabilities.dtype).rnd ((F .f64).rnd (1 - t.epsilon)) :=
    rnd_nonneg (rnd_nonneg (by linarith))
  have t1 : (F s.probabilities.dtype).rnd ((F .f64).rnd (1 - s.epsilon)) ≤ 1 :=
    rnd_le_of_rep hF.1 (rnd_one hF) (rnd_le_of_rep hF64.1 (rnd_one hF64) (by linarith))
  obtain ⟨a1, a2, -, a3, -⟩ := rounded_trajectory hA hF64 hN hs hF he0 (he.trans he1) hd0 rs h1 hb rfl h hh
  obtain ⟨b1, b2, -, b3, -⟩ := rounded_trajectory hA hF64 hN ht (by rw [hpd]; exact hF) (he0.trans he) he1
    (hd0.trans hd) rs' h2 hb' rfl h' (by rw [hpd]; exact hh')
  rw [hpd, ← hlen] at b1 b2 b3
  rw [hid] at b3
  refine ⟨⟨_, _, a1, b1, Rounded.prob_mono hF t0 (hmono he) t1 hd0 hd _ hle⟩, ?_, ?_⟩
  · rw [a2, b2]
    exact Rounded.halted_of_halted hF t0 (hmono he) t1 hd0 hd hle
  · intro i1 i2
    refine ⟨_, _, a3 i1, b3 i2, (Rounded.counter_anti hF t0 (hmono he) t1 hd0 hd
      (fun hxy => roundTo_mono hV _ hxy) (fun x => ?_) ?_ _ hle).1⟩
    · unfold Arith.roundTo
      split
      · rename_i hx
        exact rnd_rep (hV _ hx).1 _
      · rfl
    · unfold Arith.roundTo
      split
      · exact rnd_zero _
      · rfl

/-- C107 for `execute_act`.  Two layers cache updates and iterate, with batches of the same shape, elements that start
with cumulative probability 0, and the same `max_iterations`.  The second has the larger (or equal) `epsilon` and
depression constant and is given halting probabilities at least as large, every operation being rounded.  Then its
loop makes at most as many iterations, and every element that is halted at the end of the first is halted at the end
of the second. -/
theorem C107_execute_act (hA : A = Arith.rounded F)
    (hV : ∀ d : DType, d.isFloating = true → (F d).Valid)
    (hN : ∀ e e' : DType, e.isFloating = true → DType.promote e e' = e' → (F e).Sub (F e'))
    (make make' : PyTree (Leaf ℚ) → ℚ → Res (Made ℚ)) (rounds rounds' : PyTree (Leaf ℚ) → Round ℚ)
    (next next' : PyTree (Leaf ℚ) → PyTree (Leaf ℚ)) (s0 s0' : PyTree (Leaf ℚ)) (dep dep' : ℚ) (max : Int)
    (check check' : Bool) {c0 c0' : Controller ℚ}
    (hmake : make s0 dep = .ok (.ctrl c0)) (hmake' : make' s0' dep' = .ok (.ctrl c0'))
    (hwf : c0.state.WF) (hwf' : c0'.state.WF) (hd : c0.state.DictsWF) (hd' : c0'.state.DictsWF)
    (hops : ∀ t, ∀ nu ∈ (rounds (loopStates next s0 t)).updates, nu.2.WF)
    (hops' : ∀ t, ∀ nu ∈ (rounds' (loopStates next' s0' t)).updates, nu.2.WF)
    (hshape : c0'.state.probabilities.shape = c0.state.probabilities.shape)
    (hpd : c0'.state.probabilities.dtype = c0.state.probabilities.dtype)
    (hid : c0'.state.iterations.dtype = c0.state.iterations.dtype)
    (he0 : 0 ≤ c0.state.epsilon) (he : c0.state.epsilon ≤ c0'.state.epsilon) (he1 : c0'.state.epsilon ≤ 1)
    (hdc0 : 0 ≤ c0.state.depression_constant)
    (hdc : c0.state.depression_constant ≤ c0'.state.depression_constant)
    (hfresh : ∀ b p, c0.state.probabilities.at? b = some p → p = 0)
    (hfresh' : ∀ b p, c0'.state.probabilities.at? b = some p → p = 0)
    {h h' : List Nat → Nat → ℚ}
    (hh : ∀ t b x, (rounds (loopStates next s0 t)).halting.at? b = some x →
      h b t = convS (rounds (loopStates next s0 t)).halting.dtype c0.state.probabilities.dtype x)
    (hh' : ∀ t b x, (rounds' (loopStates next' s0' t)).halting.at? b = some x →
      h' b t = convS (rounds' (loopStates next' s0' t)).halting.dtype c0.state.probabilities.dtype x)
    (hle : ∀ b t, h b t ≤ h' b t) {c c' : Controller ℚ} {s s' : PyTree (Leaf ℚ)}
    (hr : (callLayer make (fun s => (rounds s).ops) next).ExecuteAct s0 dep max check (.ok (c, s)))
    (hr' : (callLayer make' (fun s => (rounds' s).ops) next').ExecuteAct s0' dep' max check' (.ok (c', s'))) :
    ∃ k k' : Nat, k' ≤ k ∧ k ≤ max.toNat ∧ s = loopStates next s0 k ∧ s' = loopStates next' s0' k' ∧
      (∃ e, run c0 (loopCalls (fun s => (rounds s).ops) next s0 k) = .ok e ∧ c.state.Same e.state) ∧
      (∃ e, run c0' (loopCalls (fun s => (rounds' s).ops) next' s0' k') = .ok e ∧ c'.state.Same e.state) ∧
      ∀ b, c.haltedBatches.at? b = some true → c'.haltedBatches.at? b = some true := by
  have dops : ∀ {r : Round ℚ}, (∀ nu ∈ r.updates, nu.2.WF) → ∀ op ∈ r.ops, op.DictsWF := by
    intro r hx op ho
    unfold Round.ops at ho
    rcases List.mem_append.1 ho with ho | ho
    · obtain ⟨nu, hm, rfl⟩ := List.mem_map.1 ho
      exact hx nu hm
    · rw [List.mem_singleton.1 ho]; trivial
  obtain ⟨k, k1, k2, -, -, ⟨e, k3, k4⟩, k5, k6⟩ := C61_loop_is_history make (fun s => (rounds s).ops) next
    s0 dep max check hmake hwf hd (fun t => dops (hops t)) hr
  obtain ⟨k', j1, j2, -, -, ⟨e', j3, j4⟩, j5, j6⟩ := C61_loop_is_history make' (fun s => (rounds' s).ops) next'
    s0' dep' max check' hmake' hwf' hd' (fun t => dops (hops' t)) hr'
  -- the calls as rounds
  have calls : ∀ (rounds : PyTree (Leaf ℚ) → Round ℚ) next s0 t, loopCalls (fun s => (rounds s).ops) next s0 t =
      roundOps ((List.range t).map fun j => rounds (loopStates next s0 j)) := by
    intro rounds next s0 t
    simp only [loopCalls, roundOps, List.flatMap_map]
  have hget : ∀ (rounds : PyTree (Leaf ℚ) → Round ℚ) next s0 (t j : Nat) r,
      ((List.range t).map fun j => rounds (loopStates next s0 j))[j]? = some r →
      r = rounds (loopStates next s0 j) := by
    intro rounds next s0 t j r hj
    simp only [List.getElem?_map, Option.map_eq_some_iff] at hj
    obtain ⟨a, ha, rfl⟩ := hj
    obtain ⟨hlt, e⟩ := List.getElem?_eq_some_iff.1 ha
    rw [List.getElem_range] at e
    subst e
    rfl
  -- halted after the same number of iterations
  have key : ∀ (t : Nat) {ct ct' : Controller ℚ},
      run c0 (loopCalls (fun s => (rounds s).ops) next s0 t) = .ok ct →
      run c0' (loopCalls (fun s => (rounds' s).ops) next' s0' t) = .ok ct' →
      ∀ b, ct.haltedBatches.at? b = some true → ct'.haltedBatches.at? b = some true := by
    intro t ct ct' e1 e2 b hb
    obtain ⟨q, hq, -⟩ := (halted_iff (s := ct.state) (run_wf (s := c0.state) hwf e1).floating).1 hb
    have hsh : c0.state.probabilities.shape = ct.state.probabilities.shape :=
      (C14_types_invariant (s := c0.state) hwf _ e1).2.2.1.symm
    obtain ⟨p, hp⟩ := Controller.at?_some_of_shape (b := c0.state.probabilities) hsh hq
    obtain ⟨p', hp'⟩ := Controller.at?_some_of_shape (b := c0'.state.probabilities) hshape hp
    have := hfresh b p hp
    subst this
    have := hfresh' b p' hp'
    subst this
    rw [calls] at e1 e2
    refine (C107_halting hA hV hN hwf hwf' hpd hid he0 he he1 hdc0 hdc hp hp'
      (by simp only [List.length_map]) (h := h b) (h' := h' b) (fun j r x hj hx => ?_) (fun j r x hj hx => ?_)
      (fun j _ => hle b j) e1 e2).2.1 hb
    · obtain rfl := hget _ _ _ _ _ _ hj
      exact hh j b x hx
    · obtain rfl := hget _ _ _ _ _ _ hj
      exact hh' j b x hx
  have same : ∀ {c d : Controller ℚ}, c.state.Same d.state → c.haltedBatches = d.haltedBatches := by
    intro c d hs
    unfold Controller.haltedBatches Controller.haltThreshold Controller.probabilities
    rw [hs.probabilities, hs.epsilon]
  have hkk : k' ≤ k := by
    by_contra hlt
    rw [not_le] at hlt
    obtain ⟨ct, g1, g2⟩ := j6 k hlt
    have ha : AllHalted e := by
      rcases k5 with k5 | k5
      · exact (allHalted_same k4).1 k5
      · omega
    refine g2 fun b x hx => ?_
    obtain ⟨q, hq, -⟩ := (halted_iff (s := ct.state) (run_wf (s := c0'.state) hwf' g1).floating).1 hx
    have hs1 : e.state.probabilities.shape = ct.state.probabilities.shape := by
      exact (C14_types_invariant (s := c0.state) hwf _ k3).2.2.1.trans
        (hshape.symm.trans (C14_types_invariant (s := c0'.state) hwf' _ g1).2.2.1.symm)
    obtain ⟨p, hp⟩ := Controller.at?_some_of_shape (b := e.state.probabilities) hs1 hq
    have hy := (halted_iff (s := e.state) (run_wf (s := c0.state) hwf k3).floating).2 ⟨p, hp, rfl⟩
    rw [ha b _ hy] at hy
    rw [key k k3 g1 b hy] at hx
    exact (Option.some.inj hx).symm
  refine ⟨k, k', hkk, k1, k2, j2, ⟨e, k3, k4⟩, ⟨e', j3, j4⟩, fun b hb => ?_⟩
  rw [same j4]
  rw [same k4] at hb
  rcases Nat.lt_or_ge k' k with hlt | hge
  · have ha : AllHalted e' := by
      rcases j5 with j5 | j5
      · exact (allHalted_same j4).1 j5
      · omega
    obtain ⟨q, hq, -⟩ := (halted_iff (s := e.state) (run_wf (s := c0.state) hwf k3).floating).1 hb
    have hs1 : e'.state.probabilities.shape = e.state.probabilities.shape := by
      exact (C14_types_invariant (s := c0'.state) hwf' _ j3).2.2.1.trans
        (hshape.trans (C14_types_invariant (s := c0.state) hwf _ k3).2.2.1.symm)
    obtain ⟨p, hp⟩ := Controller.at?_some_of_shape (b := e'.state.probabilities) hs1 hq
    have hy := (halted_iff (s := e'.state) (run_wf (s := c0'.state) hwf' j3).floating).2 ⟨p, hp, rfl⟩
    rw [ha b _ hy] at hy
    exact hy
  · obtain rfl : k' = k := by omega
    exact key k' k3 j3 b hb

/-- The updates and halting probabilities one round and another one have for the entry `i` of leaf `k` of `name`: the
same halting probability and dtype, and the second has the larger update. -/
def Round.Below (b : List Nat) (d : DType) (name : String) (k : Nat) (i : List Nat) (x y : Round ℚ) : Prop :=
  (∃ h h', x.halting.at? b = some h ∧ y.halting.at? b = some h' ∧
    convS x.halting.dtype d h = convS y.halting.dtype d h') ∧
  ∃ (tu tv : Tensor ℚ) (u v : ℚ), leaf? x.updates name k = some (.tensor tu) ∧
    leaf? y.updates name k = some (.tensor tv) ∧ tv.dtype = tu.dtype ∧ tu.at? i = some u ∧
    tv.at? i = some v ∧ u ≤ v

/-- Two states that agree on the bookkeeping of element `b`, the second with the larger entry. -/
structure EntryBelow (b : List Nat) (name : String) (k : Nat) (i : List Nat) (s t : ACTStates ℚ) : Prop where
  epsilon : t.epsilon = s.epsilon
  depression : t.depression_constant = s.depression_constant
  dtype : t.probabilities.dtype = s.probabilities.dtype
  batch : i.take s.probabilities.shape.length = b
  batch' : i.take t.probabilities.shape.length = b
  prob : t.probabilities.at? b = s.probabilities.at? b
  entry : ∃ (ta tb : Tensor ℚ) (x y : ℚ), leaf? s.accumulators name k = some (.tensor ta) ∧
    leaf? t.accumulators name k = some (.tensor tb) ∧ tb.dtype = ta.dtype ∧ ta.at? i = some x ∧
    tb.at? i = some y ∧ x ≤ y

theorem weight_rounded_nonneg (hA : A = Arith.rounded F) {d : DType} (hd : d.isFloating = true)
    {eps dep p h : ℚ} (hdep : 0 ≤ dep) (hp : p ≤ 1) : 0 ≤ Spec.weight d eps dep p h := by
  have hs : ∀ x : ℚ, Arith.sub d Arith.one x = (F d).rnd (1 - x) := fun x => by
    subst hA; exact Spec.roundTo_float hd _
  unfold Spec.weight
  split
  · rw [hs]; exact rnd_nonneg (by linarith)
  · exact Spec.demand_rounded_nonneg hA hd hdep

theorem convS_mono (hA : A = Arith.rounded F) (hV : ∀ d : DType, d.isFloating = true → (F d).Valid)
    (e e' : DType) {x y : ℚ} (hxy : x ≤ y) : convS e e' x ≤ convS e e' y := by
  have hc : ∀ (d : DType) (x : ℚ), Arith.cast d x = Arith.roundTo F d x := by subst hA; intros; rfl
  unfold convS
  split
  · exact hxy
  · rw [hc, hc]; exact roundTo_mono hV _ hxy

theorem convS_nonneg (hA : A = Arith.rounded F) (e e' : DType) {x : ℚ} (hx : 0 ≤ x) : 0 ≤ convS e e' x := by
  have hc : ∀ (d : DType) (x : ℚ), Arith.cast d x = Arith.roundTo F d x := by subst hA; intros; rfl
  unfold convS
  split
  · exact hx
  · rw [hc]; exact roundTo_nonneg _ hx

theorem accStep_mono (hA : A = Arith.rounded F) (hV : ∀ d : DType, d.isFloating = true → (F d).Valid)
    {d dA dU : DType} (hd : d.isFloating = true) {eps dep p h a a' u u' : ℚ} (hdep : 0 ≤ dep) (hp : p ≤ 1)
    (ha : a ≤ a') (hu : u ≤ u') :
    Spec.accStep d dA dU eps dep p h a u ≤ Spec.accStep d dA dU eps dep p h a' u' := by
  have h1 : ∀ (d : DType) (x y : ℚ), Arith.add d x y = Arith.roundTo F d (x + y) := by
    subst hA; intros; rfl
  have h2 : ∀ (d : DType) (x y : ℚ), Arith.mul d x y = Arith.roundTo F d (x * y) := by
    subst hA; intros; rfl
  unfold Spec.accStep
  split
  · exact ha
  · simp only [h1, h2]
    exact roundTo_mono hV _ (add_le_add ha (convS_mono hA hV _ _ (roundTo_mono hV _
      (mul_le_mul_of_nonneg_left (convS_mono hA hV _ _ hu)
        (convS_nonneg hA _ _ (weight_rounded_nonneg hA hd hdep hp))))))

/-- One round keeps the order. -/
theorem EntryBelow.round (hA : A = Arith.rounded F) (hV : ∀ d : DType, d.isFloating = true → (F d).Valid)
    {b : List Nat} {name : String} {k : Nat} {i : List Nat} {s t s' t' : ACTStates ℚ}
    (hst : EntryBelow b name k i s t) (hs : s.WF) (ht : t.WF) (hinv : RoundedInv F s) {x y : Round ℚ}
    (hxy : x.Below b s.probabilities.dtype name k i y)
    (h1 : run ⟨s⟩ x.ops = .ok ⟨s'⟩) (h2 : run ⟨t⟩ y.ops = .ok ⟨t'⟩) :
    EntryBelow b name k i s' t' ∧ RoundedInv F s' ∧ s'.probabilities.dtype = s.probabilities.dtype := by
  obtain ⟨q1, q2, q3, q4, q5, q6, ta, tb, a, a', q7, q8, q9, q10, q11, q12⟩ := hst
  obtain ⟨⟨h, h', g1, g2, g3⟩, tu, tv, u, v, g4, g5, g6, g7, g8, g9⟩ := hxy
  obtain ⟨U, wU, st, hU⟩ := round_ok_get hs h1
  obtain ⟨V, wV, tt, hV'⟩ := round_ok_get ht h2
  have hinv' : RoundedInv F ({ s with updates := U } : ACTStates ℚ) :=
    ⟨hinv.fmt, hinv.eps, hinv.dep, hinv.cells⟩
  refine ⟨?_, hinv'.iter hA (hV .f64 rfl) wU st, st.pdtype⟩
  obtain ⟨p, hp⟩ := hs.prob_of_entry (entry?_eq_some.2 ⟨_, q7, q10⟩)
  rw [q4] at hp
  have hp' : t.probabilities.at? b = some p := q6.trans hp
  obtain ⟨r, n, hr, hn⟩ := hs.cell hp
  obtain ⟨r', n', hr', hn'⟩ := ht.cell hp'
  obtain ⟨c1, -, -⟩ := st.cell b _ _ _ _ hp hr hn g1
  obtain ⟨c2, -, -⟩ := tt.cell b _ _ _ _ hp' hr' hn' g2
  obtain ⟨-, p0, p1⟩ := hinv.cells b p hp
  have u1 := leaf?_transfer hU g4
  have v1 := leaf?_transfer hV' g5
  refine ⟨by rw [st.epsilon, tt.epsilon]; exact q1, by rw [st.depression, tt.depression]; exact q2,
    by rw [st.pdtype, tt.pdtype]; exact q3, by rw [st.pshape]; exact q4, by rw [tt.pshape]; exact q5, ?_, ?_⟩
  · rw [c1, c2]
    simp only [q1, q2, q3, ← g3]
    rfl
  · rcases st.leaf (n := name) (k := k) with ⟨e, -⟩ | ⟨sa, su, sa', e1, e2, e3, e4⟩
    · exact absurd (e.symm.trans q7) (by simp)
    rcases tt.leaf (n := name) (k := k) with ⟨e, -⟩ | ⟨sb, sv, sb', f1, f2, f3, f4⟩
    · exact absurd (e.symm.trans q8) (by simp)
    simp only at e1 e2 f1 f2
    rw [q7] at e1; cases e1
    rw [q8] at f1; cases f1
    rw [u1] at e2; cases e2
    rw [v1] at f2; cases f2
    refine ⟨sa', sb', _, _, e3, f3, by rw [e4.dtype, f4.dtype, q9],
      e4.entry i a u p h q10 g7 (by rw [q4]; exact hp) (by rw [q4]; exact g1),
      f4.entry i a' v p h' q11 g8 (by rw [q5]; exact hp') (by rw [q5]; exact g2), ?_⟩
    simp only [q1, q2, q3, q9, g6, ← g3]
    exact accStep_mono hA hV hs.floating hinv.dep p1 q12 g9

/-- C107, the accumulators.  Every operation is rounded.  From a state whose cumulative probabilities are numbers of
their format between 0 and 1, two sequences of rounds are run that give element `b` the same halting probabilities.  If
every update for an entry of that element is at least as large in the second as in the first, so is what has been
accumulated in the entry. -/
theorem C107_updates (hA : A = Arith.rounded F) (hV : ∀ d : DType, d.isFloating = true → (F d).Valid)
    {s : ACTStates ℚ} (hs : s.WF) (he : 0 ≤ s.epsilon) (hd : 0 ≤ s.depression_constant)
    (hcells : ∀ b p, s.probabilities.at? b = some p → (F s.probabilities.dtype).Rep p ∧ 0 ≤ p ∧ p ≤ 1)
    {name : String} {k : Nat} {i : List Nat} {a0 : ℚ} (ha : entry? s.accumulators name k i = some a0)
    {rs rs' : List (Round ℚ)}
    (hle : List.Forall₂ (Round.Below (i.take s.probabilities.shape.length) s.probabilities.dtype name k i) rs rs')
    {c c' : Controller ℚ} (h1 : run ⟨s⟩ (roundOps rs) = .ok c) (h2 : run ⟨s⟩ (roundOps rs') = .ok c') :
    ∃ a a', entry? c.accumulators name k i = some a ∧ entry? c'.accumulators name k i = some a' ∧ a ≤ a' := by
  have main : ∀ {rs rs' : List (Round ℚ)} {d : DType},
      List.Forall₂ (Round.Below (i.take s.probabilities.shape.length) d name k i) rs rs' →
      ∀ {t t' : ACTStates ℚ}, EntryBelow (i.take s.probabilities.shape.length) name k i t t' → t.WF → t'.WF →
      RoundedInv F t → t.probabilities.dtype = d → ∀ {c c' : Controller ℚ},
      run ⟨t⟩ (roundOps rs) = .ok c → run ⟨t'⟩ (roundOps rs') = .ok c' →
      EntryBelow (i.take s.probabilities.shape.length) name k i c.state c'.state := by
    intro rs rs' d hrs
    induction hrs with
    | nil =>
      intro t t' hE _ _ _ _ c c' k1 k2
      cases k1
      cases k2
      exact hE
    | @cons x y rs rs' hxy _ ih =>
      intro t t' hE w w' hinv hdt c c' k1 k2
      simp only [roundOps, List.flatMap_cons] at k1 k2
      rw [run_append, bind_ok] at k1 k2
      obtain ⟨⟨t1⟩, k1, k1'⟩ := k1
      obtain ⟨⟨t1'⟩, k2, k2'⟩ := k2
      obtain ⟨j1, j2, j3⟩ := hE.round hA hV w w' hinv (by rw [hdt]; exact hxy) k1 k2
      exact ih j1 (run_wf w k1) (run_wf w' k2) j2 (j3.trans hdt) k1' k2'
  obtain ⟨l, e1, e2⟩ := entry?_eq_some.1 ha
  obtain ⟨t, e3, e4⟩ := leaf?_eq_some.1 e1
  obtain ⟨ta, rfl, -, -⟩ := hs.batched name t e3 l (List.mem_of_getElem? e4)
  have hE : EntryBelow (i.take s.probabilities.shape.length) name k i s s :=
    ⟨rfl, rfl, rfl, rfl, rfl, rfl, ta, ta, a0, a0, e1, e1, rfl, e2, e2, le_rfl⟩
  obtain ⟨ta, tb, x, y, f1, f2, -, f3, f4, f5⟩ :=
    (main hle hE hs hs ⟨hV _ hs.floating, he, hd, hcells⟩ rfl h1 h2).entry
  exact ⟨x, y, entry?_eq_some.2 ⟨_, f1, f3⟩, entry?_eq_some.2 ⟨_, f2, f4⟩, f5⟩

end Theorems

section Example
open Fixtures
attribute [local instance] ieee

/-- Three rounds with halting probabilities below those of `threeRounds` and smaller updates. -/
def slowRounds : List (Round ℚ) :=
  [round [1/10, 1/10] 2 2, round [3/10, 2/10] (13/2) 2, round [4/10, 3/10] 9 2]

/-- The halting probabilities of `threeRounds`, the updates of `slowRounds`. -/
def smallRounds : List (Round ℚ) :=
  [round [1/10, 9/10] 2 2, round [3/10, 9/10] (13/2) 2, round [7/10, 9/10] 9 2]

theorem small_below : List.Forall₂ (Round.Below [0] .f32 "out" 0 [0, 0]) smallRounds threeRounds := by
  refine .cons ⟨⟨1/10, 1/10, by decide +kernel, by decide +kernel, rfl⟩, col 2 2, col 3 2, 2, 3, rfl, rfl,
      rfl, by decide +kernel, by decide +kernel, by norm_num⟩
    (.cons ⟨⟨3/10, 3/10, by decide +kernel, by decide +kernel, rfl⟩, col (13/2) 2, col 7 2, 13/2, 7, rfl, rfl,
      rfl, by decide +kernel, by decide +kernel, by norm_num⟩
    (.cons ⟨⟨7/10, 7/10, by decide +kernel, by decide +kernel, rfl⟩, col 9 2, col 9 2, 9, 9, rfl, rfl,
      rfl, by decide +kernel, by decide +kernel, by norm_num⟩ .nil))

/-- In IEEE arithmetic: the theorem applies to the two sequences of updates. -/
theorem C107_example_updates : ∃ c c', run ⟨fresh⟩ (roundOps smallRounds) = .ok c ∧
    run ⟨fresh⟩ (roundOps threeRounds) = .ok c' ∧ ∃ a a', entry? c.accumulators "out" 0 [0, 0] = some a ∧
      entry? c'.accumulators "out" 0 [0, 0] = some a' ∧ a ≤ a' := by
  have h1 : succeeds (run ⟨fresh⟩ (roundOps smallRounds)) = true := by decide +kernel
  have h2 : succeeds (run ⟨fresh⟩ (roundOps threeRounds)) = true := by decide +kernel
  cases e1 : run ⟨fresh⟩ (roundOps smallRounds) with
  | error e => rw [e1] at h1; cases h1
  | ok c =>
    cases e2 : run ⟨fresh⟩ (roundOps threeRounds) with
    | error e => rw [e2] at h2; cases h2
    | ok c' =>
      refine ⟨c, c', rfl, rfl, C107_updates (F := DType.fmt) rfl (fun d _ => fmt_valid d) fresh_wf
        (by norm_num [fresh]) (by norm_num [fresh]) (fun b p hp => ?_) (name := "out") (k := 0)
        (i := [0, 0]) (a0 := 0) (by decide +kernel) small_below e1 e2⟩
      rcases vec_two hp with ⟨-, rfl⟩ | ⟨-, rfl⟩ <;> exact ⟨rnd_zero _, le_rfl, zero_le_one⟩

/-- In IEEE arithmetic: element 0 of `slowRounds` is given smaller halting probabilities than element 0 of
`threeRounds`.  The theorem applies: it has the smaller probability.  It is not halted, the other one is.  The residual
has no such order: it is what was missing before the last step. -/
theorem C107_example_halting :
    (∃ c d, run ⟨fresh⟩ (roundOps slowRounds) = .ok c ∧ run ⟨fresh⟩ (roundOps threeRounds) = .ok d ∧
      ∃ p q, c.probabilities.at? [0] = some p ∧ d.probabilities.at? [0] = some q ∧ p ≤ q) ∧
    obs (run ⟨fresh⟩ (roundOps slowRounds)) (fun c => some (c.haltedBatches.at? [0])) = some (some false) ∧
    obs (run ⟨fresh⟩ (roundOps threeRounds)) (fun c => some (c.haltedBatches.at? [0])) = some (some true) ∧
    obs (run ⟨fresh⟩ (roundOps [round [1/2, 1/2] 0 0, round [1, 1/2] 0 0])) (fun c =>
      some (c.residuals.at? [0])) = some (some (1/2)) ∧
    obs (run ⟨fresh⟩ (roundOps [round [3/4, 1/2] 0 0, round [1, 1/2] 0 0])) (fun c =>
      some (c.residuals.at? [0])) = some (some (1/4)) ∧
    obs (run ⟨fresh⟩ (roundOps [round [1, 1/2] 0 0, round [1, 1/2] 0 0])) (fun c =>
      some (c.residuals.at? [0])) = some (some 1) := by
  refine ⟨?_, by decide +kernel, by decide +kernel, by decide +kernel, by decide +kernel, by decide +kernel⟩
  have h1 : succeeds (run ⟨fresh⟩ (roundOps slowRounds)) = true := by decide +kernel
  have h2 : succeeds (run ⟨fresh⟩ (roundOps threeRounds)) = true := by decide +kernel
  cases e1 : run ⟨fresh⟩ (roundOps slowRounds) with
  | error e => rw [e1] at h1; cases h1
  | ok c =>
    cases e2 : run ⟨fresh⟩ (roundOps threeRounds) with
    | error e => rw [e2] at h2; cases h2
    | ok d =>
      refine ⟨c, d, rfl, rfl, (C107_halting (F := DType.fmt) rfl (fun d _ => fmt_valid d) fmt_sub fresh_wf
        fresh_wf rfl rfl (by norm_num [fresh]) le_rfl (by norm_num [fresh]) (by norm_num [fresh]) le_rfl
        (b := [0]) (b' := [0]) (by decide +kernel) (by decide +kernel) (rs := slowRounds)
        (rs' := threeRounds) rfl
        (h := fun t => if t = 0 then 1/10 else if t = 1 then 3/10 else 4/10)
        (h' := fun t => if t = 0 then 1/10 else if t = 1 then 3/10 else 7/10) ?_ ?_ ?_ e1 e2).1⟩
      · intro t r x hr hx
        match t with
        | 0 => cases hr; exact Option.some.inj ((show _ = some (1/10 : ℚ) by decide +kernel).symm.trans hx)
        | 1 => cases hr; exact Option.some.inj ((show _ = some (3/10 : ℚ) by decide +kernel).symm.trans hx)
        | 2 => cases hr; exact Option.some.inj ((show _ = some (4/10 : ℚ) by decide +kernel).symm.trans hx)
        | t + 3 => simp [slowRounds] at hr
      · intro t r x hr hx
        match t with
        | 0 => cases hr; exact Option.some.inj ((show _ = some (1/10 : ℚ) by decide +kernel).symm.trans hx)
        | 1 => cases hr; exact Option.some.inj ((show _ = some (3/10 : ℚ) by decide +kernel).symm.trans hx)
        | 2 => cases hr; exact Option.some.inj ((show _ = some (7/10 : ℚ) by decide +kernel).symm.trans hx)
        | t + 3 => simp [threeRounds] at hr
      · intro j _
        split
        · exact le_rfl
        · split
          · exact le_rfl
          · norm_num

/-- A layer for the example: every iteration caches the same updates and halts with the probabilities in the state. -/
private def steady : Layer ℚ := callLayer (fun _ _ => .ok (.ctrl ⟨simple⟩)) (fun s => (demoRound s).ops) id

private theorem steady_ok {x y : ℚ} (max : Int) (check : Bool)
    (hok : succeeds (run ⟨simple⟩ (demoRound (bare (vec [x, y]))).ops) = true) :
    ∃ c s, steady.ExecuteAct (bare (vec [x, y])) 1 max check (.ok (c, s)) := by
  cases hr : run ⟨simple⟩ (demoRound (bare (vec [x, y]))).ops with
  | error e => rw [hr] at hok; cases hok
  | ok c1 =>
    refine C50_execute_act_succeeds _ demoRound id check ⟨simple⟩ c1 _ 1 max rfl simple_wf rfl
      (by simp [simple]) simple_idle (vec_tensors _) ⟨fun s hs => ?_, fun s hs => hs⟩ hr
    obtain ⟨l, rfl⟩ := hs.leaf_iff.1 ⟨_, rfl⟩
    have h2 := hs.2
    simp only [bare, PyTree.treeLeaves, PyTree.canon, PyTree.leaves, List.map_cons, List.map_nil, List.cons.injEq,
      and_true] at h2
    obtain ⟨t, rfl, h3, h4⟩ := Leaf.type_some.1 h2.symm
    exact .cons (.cache _ (.refl _)) (.cons (.iterate ⟨h3.symm, h4.symm⟩) .nil)

private theorem steady_states (x : Tensor ℚ) : ∀ t, loopStates id (bare x) t = bare x
  | 0 => rfl
  | t + 1 => by
    show (loopStates id (bare x) t).canon = bare x
    rw [steady_states x t]
    rfl

/-- In IEEE arithmetic: with halting probabilities `1/4, 1/2` the loop makes four iterations, with `1/2, 1/2` it makes
two; the theorem applies to the two calls. -/
theorem C107_example_execute_act : ∃ c s c' s',
    steady.ExecuteAct (bare (vec [1/4, 1/2])) 1 9 true (.ok (c, s)) ∧
    steady.ExecuteAct (bare (vec [1/2, 1/2])) 1 9 true (.ok (c', s')) ∧
    (c.iterations.at? [0], c.iterations.at? [1], c.haltedBatches.at? [0]) = (some 4, some 2, some true) ∧
    (c'.iterations.at? [0], c'.iterations.at? [1], c'.haltedBatches.at? [0]) = (some 2, some 2, some true) ∧
    ∀ b, c.haltedBatches.at? b = some true → c'.haltedBatches.at? b = some true := by
  have f1 : (whileFuel isActNotComplete (fun x => (steady.adapter true x).map Carry.rebuild) 9
      (Carry.rebuild ⟨⟨simple⟩, bare (vec [1/4, 1/2]), ⟨0, 9⟩⟩)).map (fun z =>
        (z.controller.iterations.at? [0], z.controller.iterations.at? [1], z.controller.haltedBatches.at? [0])) =
      some (some 4, some 2, some true) := by decide +kernel
  have f2 : (whileFuel isActNotComplete (fun x => (steady.adapter true x).map Carry.rebuild) 9
      (Carry.rebuild ⟨⟨simple⟩, bare (vec [1/2, 1/2]), ⟨0, 9⟩⟩)).map (fun z =>
        (z.controller.iterations.at? [0], z.controller.iterations.at? [1], z.controller.haltedBatches.at? [0])) =
      some (some 2, some 2, some true) := by decide +kernel
  obtain ⟨z, hz, o1⟩ := Option.map_eq_some_iff.1 f1
  obtain ⟨w, hw, o2⟩ := Option.map_eq_some_iff.1 f2
  have e1 := execute_of_fuel (steady_ok 9 true (by decide +kernel)) rfl hz
  have e2 := execute_of_fuel (steady_ok 9 true (by decide +kernel)) rfl hw
  have hops : ∀ s t, ∀ nu ∈ (demoRound (loopStates id s t)).updates, nu.2.WF := by
    intro s t nu hn
    unfold demoRound at hn
    split at hn
    · rw [List.mem_singleton.1 hn]; trivial
    · cases hn
  have hfresh : ∀ b p, simple.probabilities.at? b = some p → p = 0 := by
    intro b p hp
    rcases vec_two hp with ⟨-, rfl⟩ | ⟨-, rfl⟩ <;> rfl
  have hconv : ∀ {u v x : ℚ} {t b}, (demoRound (loopStates id (bare (vec [u, v])) t)).halting.at? b = some x →
      ((vec [u, v]).at? b).getD 0 = convS (demoRound (loopStates id (bare (vec [u, v])) t)).halting.dtype
        simple.probabilities.dtype x := by
    intro u v x t b hx
    rw [steady_states] at hx ⊢
    have hx' : (vec [u, v]).at? b = some x := hx
    rw [hx']
    rfl
  have hle : ∀ b, ((vec [1/4, 1/2] : Tensor ℚ).at? b).getD 0 ≤ ((vec [1/2, 1/2] : Tensor ℚ).at? b).getD 0 := by
    intro b
    cases hx : (vec [1/4, 1/2] : Tensor ℚ).at? b with
    | none =>
      cases hy : (vec [1/2, 1/2] : Tensor ℚ).at? b with
      | none => exact le_rfl
      | some y => rcases vec_two hy with ⟨-, rfl⟩ | ⟨-, rfl⟩ <;> norm_num
    | some x =>
      rcases vec_two hx with ⟨rfl, rfl⟩ | ⟨rfl, rfl⟩
      · rw [show (vec [1/2, 1/2] : Tensor ℚ).at? [0] = some (1/2) by decide +kernel]; norm_num
      · rw [show (vec [1/2, 1/2] : Tensor ℚ).at? [1] = some (1/2) by decide +kernel]
  refine ⟨_, _, _, _, e1, e2, o1, o2, ?_⟩
  obtain ⟨k, k', -, -, -, -, -, -, h⟩ := C107_execute_act (F := DType.fmt) rfl (fun d _ => fmt_valid d) fmt_sub
    (fun _ _ => .ok (.ctrl ⟨simple⟩)) (fun _ _ => .ok (.ctrl ⟨simple⟩)) demoRound demoRound id id
    (bare (vec [1/4, 1/2])) (bare (vec [1/2, 1/2])) 1 1 9 true true (c0 := ⟨simple⟩) (c0' := ⟨simple⟩) rfl rfl
    simple_wf simple_wf simple_dictsWF simple_dictsWF (hops _) (hops _) rfl rfl rfl (by norm_num [simple, fresh]) le_rfl
    (by norm_num [simple, fresh]) (by norm_num [simple, fresh]) le_rfl hfresh hfresh
    (h := fun b _ => ((vec [1/4, 1/2]).at? b).getD 0) (h' := fun b _ => ((vec [1/2, 1/2]).at? b).getD 0)
    (fun _ _ _ => hconv) (fun _ _ _ => hconv) (fun b _ => hle b) e1 e2
  exact h

end Example

end JaxAct
