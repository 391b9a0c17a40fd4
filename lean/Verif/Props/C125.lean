import Verif.Props.C123
import Verif.Props.C124

/-!
# C125 The mean iteration lies within the ponder cost

An update that counts the iterations accumulates the mean iteration the result is from.  The counter and the residual,
which make up the ponder cost, bound it from both sides.
-/

namespace JaxAct
open PyTree ACTStates
variable {K : Type} [Field K] [LinearOrder K] [IsStrictOrderedRing K]

/-- The mean of `0, 1, ..., n` with admissible weights. -/
theorem Graves.Admissible.mean_bounds {eps dep : K} {n : Nat} {w : Nat → K}
    (hw : Graves.Admissible 0 eps dep n w) :
    (n : K) * w n ≤ ∑ t ∈ Finset.range (n + 1), w t * t ∧
    ∑ t ∈ Finset.range (n + 1), w t * t + 1 ≤ (n : K) + w n := by
  refine ⟨?_, ?_⟩
  · rw [Finset.sum_range_succ, mul_comm]
    have : 0 ≤ ∑ t ∈ Finset.range n, w t * (t : K) :=
      Finset.sum_nonneg fun t ht => mul_nonneg (hw.nonneg t (Finset.mem_range.1 ht)) (Nat.cast_nonneg t)
    linarith
  · have htot := hw.total
    rw [Finset.sum_range_succ] at htot ⊢
    have h1 : ∑ t ∈ Finset.range n, w t * (t : K) ≤ ∑ t ∈ Finset.range n, w t * ((n : K) - 1) := by
      refine Finset.sum_le_sum fun t ht => ?_
      have ht := Finset.mem_range.1 ht
      refine mul_le_mul_of_nonneg_left ?_ (hw.nonneg t ht)
      have : ((t + 1 : Nat) : K) ≤ n := Nat.cast_le.2 ht
      push_cast at this
      linarith
    rw [← Finset.sum_mul] at h1
    have h2 : ∑ t ∈ Finset.range n, w t = 1 - w n := by linarith
    rw [h2] at h1
    nlinarith

section Code
attribute [local instance] Arith.exact

/-- C125.  A fresh element that is halted after some rounds, with counter `n` and residual `r`, has a mean iteration
`m`, counted from 0: every accumulator entry whose updates are `x + y t` in round `t` has received `x + y m`.  It is
at least `(n - 1) r` and at most `n + r - 2`, the ponder cost less two. -/
theorem C125_mean_iteration {s : ACTStates K} (hwf : s.WF) (he0 : 0 < s.epsilon) (he1 : s.epsilon ≤ 1)
    (hdep : 0 ≤ s.depression_constant) {rs : List (Round K)} {c : Controller K}
    (hrun : run ⟨s⟩ (roundOps rs) = .ok c) {b : List Nat} (hp : s.probabilities.at? b = some 0)
    (hn0 : s.iterations.at? b = some 0) (hh : ∀ r ∈ rs, ∃ x, r.halting.at? b = some x)
    (hhalt : c.haltedBatches.at? b = some true) :
    ∃ n r m, c.iterations.at? b = some n ∧ c.residuals.at? b = some r ∧ (n - 1) * r ≤ m ∧ m ≤ n + r - 2 ∧
      ∀ (name : String) (k : Nat) (i : List Nat) (a x y : K), i.take s.probabilities.shape.length = b →
        entry? s.accumulators name k i = some a →
        (∀ (t : Nat) q, rs[t]? = some q → entry? q.updates name k i = some (x + y * t)) →
        entry? c.accumulators name k i = some (a + (x + y * m)) := by
  obtain ⟨n, w, -, hw, h1, h2, h3⟩ := C124_only_admissible hwf he0 hdep hrun hp (by linarith) hn0 hh hhalt
  obtain ⟨b1, b2⟩ := hw.mean_bounds
  refine ⟨_, _, ∑ t ∈ Finset.range (n + 1), w t * (t : K), h1, h2, by linarith, by linarith, ?_⟩
  intro name k i a x y hi ha hu
  rw [h3 name k i a (fun t => x + y * t) hi ha hu]
  congr 2
  have htot := hw.total
  rw [sub_zero] at htot
  calc ∑ t ∈ Finset.range (n + 1), w t * (x + y * t)
      = ∑ t ∈ Finset.range (n + 1), (x * w t + y * (w t * t)) := Finset.sum_congr rfl fun t _ => by ring
    _ = x * ∑ t ∈ Finset.range (n + 1), w t + y * ∑ t ∈ Finset.range (n + 1), w t * t := by
      rw [Finset.sum_add_distrib, Finset.mul_sum, Finset.mul_sum]
    _ = _ := by rw [htot, mul_one]

/-- C125 for `execute_act`. -/
theorem C125_execute_act (make : PyTree (Leaf K) → K → Res (Made K)) (rounds : PyTree (Leaf K) → Round K)
    (next : PyTree (Leaf K) → PyTree (Leaf K)) (s0 : PyTree (Leaf K)) (dep : K) (max : Int) (check : Bool)
    {c0 : Controller K} (hmake : make s0 dep = .ok (.ctrl c0)) (hwf : c0.state.WF) (hd : c0.state.DictsWF)
    (hops : ∀ t, ∀ nu ∈ (rounds (loopStates next s0 t)).updates, nu.2.WF)
    (he0 : 0 < c0.state.epsilon) (he1 : c0.state.epsilon ≤ 1) (hdep : 0 ≤ c0.state.depression_constant)
    {c : Controller K} {s : PyTree (Leaf K)}
    (hr : (callLayer make (fun s => (rounds s).ops) next).ExecuteAct s0 dep max check (.ok (c, s)))
    {b : List Nat} (hp : c0.probabilities.at? b = some 0) (hn0 : c0.iterations.at? b = some 0)
    (hh : ∀ t, ∃ x, (rounds (loopStates next s0 t)).halting.at? b = some x)
    (hhalt : c.haltedBatches.at? b = some true) :
    ∃ n r m, c.iterations.at? b = some n ∧ c.residuals.at? b = some r ∧ (n - 1) * r ≤ m ∧ m ≤ n + r - 2 ∧
      ∀ (name : String) (l : Nat) (i : List Nat) (a x y : K), i.take c0.probabilities.shape.length = b →
        entry? c0.accumulators name l i = some a →
        (∀ t : Nat, entry? (rounds (loopStates next s0 t)).updates name l i = some (x + y * t)) →
        entry? c.accumulators name l i = some (a + (x + y * m)) := by
  obtain ⟨k, d, -, hrun, -, e2, e3, e4, e5⟩ := executed_rounds make rounds next s0 dep max check hmake hwf hd hops hr
  rw [e4] at hhalt
  obtain ⟨n, r, m, h1, h2, h3, h4, h5⟩ := C125_mean_iteration (s := c0.state) hwf he0 he1 hdep hrun hp hn0
    (fun r hr => by obtain ⟨t, -, rfl⟩ := List.mem_map.1 hr; exact hh t) hhalt
  refine ⟨n, r, m, by rw [e3]; exact h1, by rw [e2]; exact h2, h3, h4, ?_⟩
  intro name l i a x y hi ha hu
  rw [e5]
  refine h5 name l i a x y hi ha fun t q hq => ?_
  rw [List.getElem?_map, Option.map_eq_some_iff] at hq
  obtain ⟨j, hj, rfl⟩ := hq
  obtain ⟨hlt, rfl⟩ := List.getElem?_eq_some_iff.1 hj
  rw [List.getElem_range]
  exact hu t

section Example
open Fixtures

/-- The climbing layer: the updates are `1 + t/4`.  Element 1 takes four iterations with residual 1/4; its mean
iteration is 3/2, between 3/4 and 9/4. -/
theorem C125_example : ∃ c s m, climbLayer.ExecuteAct (bare (col 1 1)) 1 9 true (.ok (c, s)) ∧
    c.iterations.at? [1] = some 4 ∧ c.residuals.at? [1] = some (1/4) ∧ (4 - 1) * (1/4) ≤ m ∧ m ≤ 4 + 1/4 - 2 ∧
    entry? c.accumulators "out" 0 [1, 0] = some (0 + (1 + 1/4 * m)) ∧ m = 3/2 := by
  have h1 : (whileFuel isActNotComplete
      (fun x => (climbLayer.adapter true x).map Carry.rebuild) 12
      (Carry.rebuild ⟨⟨simple⟩, bare (col 1 1), ⟨0, 9⟩⟩)).map
        (fun z => (z.controller.haltedBatches.at? [1], z.controller.iterations.at? [1],
          z.controller.residuals.at? [1], entry? z.controller.accumulators "out" 0 [1, 0])) =
      some (some true, some 4, some (1/4), some (11/8)) := by decide +kernel
  obtain ⟨z, hz, hobs⟩ := Option.map_eq_some_iff.1 h1
  simp only [Prod.mk.injEq] at hobs
  obtain ⟨o1, o2, o3, o4⟩ := hobs
  have r := execute_of_fuel climb_executes rfl hz
  obtain ⟨n, q, m, f1, f2, f3, f4, f5⟩ := C125_execute_act _ climbRound grow (bare (col 1 1)) 1 9 true
    (c0 := ⟨simple⟩) rfl simple_wf simple_dictsWF climb_updates (by decide +kernel) (by decide +kernel) (by decide +kernel) r
    (b := [1]) (by decide +kernel) (by decide +kernel) (fun t => ⟨_, (climb_halting t).2⟩) o1
  have f6 := f5 "out" 0 [1, 0] 0 1 (1/4) rfl (by decide +kernel)
    (fun t => by obtain ⟨u, h1, -, h2⟩ := climb_states t; rw [h1, one_div_mul_eq_div]; exact h2)
  cases Option.some.inj (f1.symm.trans o2)
  cases Option.some.inj (f2.symm.trans o3)
  have f7 := Option.some.inj (f6.symm.trans o4)
  exact ⟨_, _, m, r, o2, o3, f3, f4, f6, by linarith⟩

end Example
end Code

end JaxAct
