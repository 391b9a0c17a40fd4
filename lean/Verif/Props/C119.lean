import Verif.Props.C80

/-!
# C119 An element halted within a smaller maximum already has its final results

C73 says that a larger `max_iterations` changes nothing once the whole batch is halted.  Here the same is shown
for each batch element on its own: what a truncated run returns for the elements that are halted is what a longer
run returns for them.
-/

namespace JaxAct
open PyTree ACTStates

section AnyArith
variable {α : Type} [Arith α]

/-- In an arithmetic in which halted elements stay halted. -/
theorem final_results {make : PyTree (Leaf α) → α → Res (Made α)}
    {calls : PyTree (Leaf α) → List (Op α)} {next : PyTree (Leaf α) → PyTree (Leaf α)}
    {s0 : PyTree (Leaf α)} {dep : α} {m m' : Int} (hm : m ≤ m') {check : Bool} {c0 : Controller α}
    (hmake : make s0 dep = .ok (.ctrl c0)) (hc : c0.state.WF) (hcd : c0.state.DictsWF)
    (hops : ∀ t, ∀ op ∈ calls (loopStates next s0 t), op.DictsWF ∧ op.NotReset)
    (hstay : StaysHalted c0) {c c' : Controller α} {s s' : PyTree (Leaf α)}
    (h : (callLayer make calls next).ExecuteAct s0 dep m check (.ok (c, s)))
    (h' : (callLayer make calls next).ExecuteAct s0 dep m' check (.ok (c', s')))
    {b : List Nat} (hb : c.haltedBatches.at? b = some true) :
    SameResults b b c' c ∧ (HaltsAtOne c0 b → c'.probabilities.at? b = c.probabilities.at? b) := by
  obtain ⟨k, a1, -, -, wd, ⟨e, a3, a4⟩, -, a6⟩ := C61_loop_is_history make calls next s0 dep m check hmake hc hcd
    (fun t op ho => (hops t op ho).1) h
  obtain ⟨k', b1, -, -, wd', ⟨e', b3, b4⟩, b5, b6⟩ := C61_loop_is_history make calls next s0 dep m' check hmake
    hc hcd (fun t op ho => (hops t op ho).1) h'
  have hk : k ≤ k' := by
    by_contra hlt
    obtain ⟨x, e1, e2⟩ := a6 k' (by omega)
    cases Except.ok.inj (b3.symm.trans e1)
    rcases b5 with b5 | b5
    · exact e2 ((allHalted_same b4).1 b5)
    · omega
  have dw : ∀ {t : Nat} {x : Controller α}, run c0 (loopCalls calls next s0 t) = .ok x → x.state.DictsWF :=
    fun hx => run_dictsWF (s := c0.state) hc hcd (fun op ho => by
      obtain ⟨j, -, hj⟩ := List.mem_flatMap.1 ho
      exact (hops j op hj).1) hx
  have o1 := SameResults.of_same b wd (dw a3) a4
  have o2 := SameResults.of_same b wd' (dw b3) b4
  have hbe : e.haltedBatches.at? b = some true := o1.halted ▸ hb
  obtain ⟨j, rfl⟩ := Nat.exists_eq_add_of_le hk
  have hsplit : loopCalls calls next s0 (k + j) = loopCalls calls next s0 k ++
      (List.range j).flatMap (fun t => calls (loopStates next s0 (k + t))) := by
    unfold loopCalls
    rw [List.range_add, List.flatMap_append, List.flatMap_map]
  have b3' := b3
  rw [hsplit, run_append, a3] at b3'
  have n1 : ∀ op ∈ loopCalls calls next s0 k, op.NotReset := fun op ho => by
    obtain ⟨t, -, ht⟩ := List.mem_flatMap.1 ho
    exact (hops t op ht).2
  have hse : StaysHalted e := by
    intro p1 q1 b1 k1 k2 p2 q2 k3 k4 k5
    refine hstay (loopCalls calls next s0 k ++ p1) q1 b1 ?_ ?_ p2 q2 k3 k4 k5
    · intro op ho
      rcases List.mem_append.1 ho with ho | ho
      · exact n1 op ho
      · exact k1 op ho
    · rw [run_append, a3]; exact k2
  have mid : SameResults b b e' e := frozen_of_stays (run_wf (s := c0.state) hc a3) hse hbe (fun op ho => by
    obtain ⟨t, -, ht⟩ := List.mem_flatMap.1 ho
    exact (hops _ op ht).2) b3'
  refine ⟨o2.trans (mid.trans o1.symm), fun g => ?_⟩
  have e1 : c.probabilities = e.probabilities := a4.probabilities
  have e2 : c'.probabilities = e'.probabilities := b4.probabilities
  rw [e1, e2, g _ _ a3 hbe, g _ _ b3 (mid.halted.trans hbe)]

end AnyArith

section Exact
variable {K : Type} [Field K] [LinearOrder K] [IsStrictOrderedRing K]
attribute [local instance] Arith.exact

/-- C119, exact arithmetic.  A layer that calls the controller (without reset) is run by `execute_act` with a maximum
of `m` and with a maximum of `m'` iterations, `m ≤ m'`.  For every batch element that is halted in the first result
the second result holds the same: residual, counter, halting decision, every accumulator entry, and the cumulative
probability unless the element was halted from the start.  Nothing is asked of the other elements. -/
theorem C119_final {make : PyTree (Leaf K) → K → Res (Made K)}
    {calls : PyTree (Leaf K) → List (Op K)} {next : PyTree (Leaf K) → PyTree (Leaf K)}
    {s0 : PyTree (Leaf K)} {dep : K} {m m' : Int} (hm : m ≤ m') {check : Bool} {c0 : Controller K}
    (hmake : make s0 dep = .ok (.ctrl c0)) (hc : c0.state.WF) (hcd : c0.state.DictsWF)
    (he0 : 0 < c0.state.epsilon) (he1 : c0.state.epsilon ≤ 1) (hdep : 0 ≤ c0.state.depression_constant)
    (hops : ∀ t, ∀ op ∈ calls (loopStates next s0 t), op.DictsWF ∧ op.NotReset)
    {c c' : Controller K} {s s' : PyTree (Leaf K)}
    (h : (callLayer make calls next).ExecuteAct s0 dep m check (.ok (c, s)))
    (h' : (callLayer make calls next).ExecuteAct s0 dep m' check (.ok (c', s')))
    {b : List Nat} (hb : c.haltedBatches.at? b = some true) :
    c'.haltedBatches.at? b = some true ∧ c'.residuals.at? b = c.residuals.at? b ∧
    c'.iterations.at? b = c.iterations.at? b ∧
    (∀ (name : String) (k : Nat) (i : List Nat),
      entry? c'.accumulators name k (b ++ i) = entry? c.accumulators name k (b ++ i)) ∧
    (c0.haltedBatches.at? b = some false → c'.probabilities.at? b = c.probabilities.at? b) := by
  obtain ⟨r, g⟩ := final_results hm hmake hc hcd hops (staysHalted_exact hc he0 hdep) h h' hb
  refine ⟨r.halted.trans hb, r.residual, r.iterations, r.accumulators, fun hf => g ?_⟩
  exact fun ops x hr hh => C05_halted_probability_is_one (s := c0.state) hc he0 he1 hdep hf ops hr hh

end Exact

section Rounded
variable {F : DType → Fmt} [A : Arith ℚ]

/-- C119 with rounding, in formats of any precision. -/
theorem C119_final_rounded (hA : A = Arith.rounded F) (hF64 : (F .f64).Valid)
    {make : PyTree (Leaf ℚ) → ℚ → Res (Made ℚ)}
    {calls : PyTree (Leaf ℚ) → List (Op ℚ)} {next : PyTree (Leaf ℚ) → PyTree (Leaf ℚ)}
    {s0 : PyTree (Leaf ℚ)} {dep : ℚ} {m m' : Int} (hm : m ≤ m') {check : Bool} {c0 : Controller ℚ}
    (hmake : make s0 dep = .ok (.ctrl c0)) (hc : c0.state.WF) (hcd : c0.state.DictsWF)
    (hF : (F c0.state.probabilities.dtype).Valid)
    (he0 : 0 ≤ c0.state.epsilon) (he1 : c0.state.epsilon ≤ 1) (hdep : 0 ≤ c0.state.depression_constant)
    (hp : ∀ b p, c0.probabilities.at? b = some p →
      (F c0.state.probabilities.dtype).rnd p = p ∧ 0 ≤ p ∧ p ≤ 1)
    (hops : ∀ t, ∀ op ∈ calls (loopStates next s0 t), op.DictsWF ∧ op.NotReset)
    {c c' : Controller ℚ} {s s' : PyTree (Leaf ℚ)}
    (h : (callLayer make calls next).ExecuteAct s0 dep m check (.ok (c, s)))
    (h' : (callLayer make calls next).ExecuteAct s0 dep m' check (.ok (c', s')))
    {b : List Nat} (hb : c.haltedBatches.at? b = some true) :
    c'.haltedBatches.at? b = some true ∧ c'.residuals.at? b = c.residuals.at? b ∧
    c'.iterations.at? b = c.iterations.at? b ∧
    (∀ (name : String) (k : Nat) (i : List Nat),
      entry? c'.accumulators name k (b ++ i) = entry? c.accumulators name k (b ++ i)) ∧
    (c0.haltedBatches.at? b = some false → c'.probabilities.at? b = c.probabilities.at? b) := by
  obtain ⟨r, g⟩ := final_results hm hmake hc hcd hops (staysHalted_rounded hA hF64 hc ⟨hF, he0, hdep, hp⟩) h h' hb
  have one : (Arith.one : ℚ) = 1 := by subst hA; rfl
  refine ⟨r.halted.trans hb, r.residual, r.iterations, r.accumulators, fun hf => g fun ops x hr hh => ?_⟩
  rw [one]
  exact C19_halted_probability_is_one hA hF64 (s := c0.state) hc hF he0 he1 hdep hp hf ops hr hh

end Rounded

section Example
open Fixtures

section
attribute [local instance] Arith.exact

/-- The growing layer of C80, on a batch whose element 0 is halted after two iterations and element 1 after four.
With a maximum of two the result for element 0 is final, that for element 1 is not: its counter goes on from 2 to 4
and its accumulator entry changes.  The returned user state changes too, also for element 0. -/
theorem C119_example : ∃ c s c' s',
    growLayer.ExecuteAct (bare (vec [3/4, 0])) 1 2 true (.ok (c, s)) ∧
    growLayer.ExecuteAct (bare (vec [3/4, 0])) 1 10 true (.ok (c', s')) ∧
    (c'.haltedBatches.at? [0] = some true ∧ c'.residuals.at? [0] = c.residuals.at? [0] ∧
      c'.iterations.at? [0] = c.iterations.at? [0] ∧
      (∀ (name : String) (k : Nat) (i : List Nat),
        entry? c'.accumulators name k ([0] ++ i) = entry? c.accumulators name k ([0] ++ i)) ∧
      c'.probabilities.at? [0] = c.probabilities.at? [0]) ∧
    (c.iterations.at? [0], c.haltedBatches.at? [0]) = (some 2, some true) ∧
    (c.iterations.at? [1], c.haltedBatches.at? [1]) = (some 2, some false) ∧
    (c'.iterations.at? [1], c'.haltedBatches.at? [1]) = (some 4, some true) ∧
    entry? c.accumulators "out" 0 [1, 0] ≠ entry? c'.accumulators "out" 0 [1, 0] ∧
    stateAt0 s = some (5/4) ∧ stateAt0 s' = some (7/4) := by
  have e1 := grow_executes (x := 3/4) (y := 0) 2 true (by decide +kernel)
  have e2 := grow_executes (x := 3/4) (y := 0) 10 true (by decide +kernel)
  have h1 : (whileFuel isActNotComplete
      (fun x => (growLayer.adapter true x).map Carry.rebuild) 12
      (Carry.rebuild ⟨⟨simple⟩, bare (vec [3/4, 0]), ⟨0, 2⟩⟩)).map
        (fun z => (((z.controller.iterations.at? [0], z.controller.haltedBatches.at? [0]),
          (z.controller.iterations.at? [1], z.controller.haltedBatches.at? [1])),
          entry? z.controller.accumulators "out" 0 [1, 0], stateAt0 z.state)) =
      some (((some 2, some true), (some 2, some false)), some (3/2), some (5/4)) := by decide +kernel
  have h2 : (whileFuel isActNotComplete
      (fun x => (growLayer.adapter true x).map Carry.rebuild) 12
      (Carry.rebuild ⟨⟨simple⟩, bare (vec [3/4, 0]), ⟨0, 10⟩⟩)).map
        (fun z => ((z.controller.iterations.at? [1], z.controller.haltedBatches.at? [1]),
          entry? z.controller.accumulators "out" 0 [1, 0], stateAt0 z.state)) =
      some ((some 4, some true), some 6, some (7/4)) := by decide +kernel
  obtain ⟨z, hz, hobs⟩ := Option.map_eq_some_iff.1 h1
  obtain ⟨z', hz', hobs'⟩ := Option.map_eq_some_iff.1 h2
  simp only [Prod.mk.injEq] at hobs hobs'
  have r1 := execute_of_fuel e1 rfl hz
  have r2 := execute_of_fuel e2 rfl hz'
  obtain ⟨⟨⟨a1, a2⟩, a3, a4⟩, a5, a6⟩ := hobs
  obtain ⟨⟨b3, b4⟩, b5, b6⟩ := hobs'
  obtain ⟨k1, k2, k3, k4, k5⟩ := C119_final (m := 2) (m' := 10) (by norm_num) (c0 := ⟨simple⟩) rfl simple_wf
    simple_dictsWF (by decide +kernel) (by decide +kernel) (by decide +kernel) (grow_ops _ _) r1 r2 a2
  refine ⟨_, _, _, _, r1, r2, ⟨k1, k2, k3, k4, k5 (by decide +kernel)⟩, ?_, ?_, ?_, ?_, a6, b6⟩
  · rw [a1, a2]
  · rw [a3, a4]
  · rw [b3, b4]
  · rw [a5, b5]; decide +kernel
end

section
attribute [local instance] ieee

/-- The same with rounding. -/
theorem C119_example_rounded : ∃ c s c' s',
    growLayer.ExecuteAct (bare (vec [3/4, 0])) 1 2 true (.ok (c, s)) ∧
    growLayer.ExecuteAct (bare (vec [3/4, 0])) 1 10 true (.ok (c', s')) ∧
    (c.iterations.at? [0], c.haltedBatches.at? [0], c.haltedBatches.at? [1]) = (some 2, some true, some false) ∧
    c'.haltedBatches.at? [0] = some true ∧ c'.residuals.at? [0] = c.residuals.at? [0] ∧
    c'.iterations.at? [0] = c.iterations.at? [0] ∧
    (∀ (name : String) (k : Nat) (i : List Nat),
      entry? c'.accumulators name k ([0] ++ i) = entry? c.accumulators name k ([0] ++ i)) ∧
    c'.probabilities.at? [0] = c.probabilities.at? [0] := by
  have h1 : (whileFuel isActNotComplete
      (fun x => (growLayer.adapter true x).map Carry.rebuild) 12
      (Carry.rebuild ⟨⟨simple⟩, bare (vec [3/4, 0]), ⟨0, 2⟩⟩)).map
        (fun z => (z.controller.iterations.at? [0], z.controller.haltedBatches.at? [0],
          z.controller.haltedBatches.at? [1])) = some (some 2, some true, some false) := by decide +kernel
  obtain ⟨z, hz, hobs⟩ := Option.map_eq_some_iff.1 h1
  have r1 := execute_of_fuel (grow_executes 2 true (by decide +kernel)) rfl hz
  obtain ⟨c', s', r2⟩ := grow_executes (x := 3/4) (y := 0) 10 true (by decide +kernel)
  have hp : ∀ b p, simple.probabilities.at? b = some p →
      (DType.f32.fmt).rnd p = p ∧ 0 ≤ p ∧ p ≤ 1 := by
    intro b p hb
    rcases vec_two hb with ⟨-, rfl⟩ | ⟨-, rfl⟩ <;> decide +kernel
  have hob := hobs
  simp only [Prod.mk.injEq] at hob
  obtain ⟨k1, k2, k3, k4, k5⟩ := C119_final_rounded (F := DType.fmt) (m := 2) (m' := 10) rfl (by decide)
    (by norm_num) (c0 := ⟨simple⟩) rfl simple_wf simple_dictsWF (show DType.f32.fmt.Valid by decide)
    (by decide +kernel) (by decide +kernel) (by decide +kernel) hp (grow_ops _ _) r1 r2 hob.2.1
  exact ⟨_, _, c', s', r1, r2, hobs, k1, k2, k3, k4, k5 (by decide +kernel)⟩
end

end Example
end JaxAct
