import Verif.Props.C97

/-!
# C98 ACT inside ACT

`docs/brainstorms and speculation/ACT with long sequence duration.rst` proposes to "nest act sessions within
each other": each one may be short, "but together they can have a multiplicative effect to go much deeper".
Here an iteration of an outer layer calls `execute_act` of an inner layer and uses what that accumulated as
its update.
-/

namespace JaxAct
variable {K : Type} [Field K] [LinearOrder K] [IsStrictOrderedRing K]
attribute [local instance] Arith.exact
open ACTStates

/-- A call of `execute_act` that returned, for a layer which in each iteration caches an update per
accumulator and iterates, from a fresh controller (the situation of C61).  `halting b t` is the halting
probability of element `b` in iteration `t`. -/
structure ActRun (K : Type) [Field K] [LinearOrder K] where
  make : PyTree (Leaf K) → K → Res (Made K)
  rounds : PyTree (Leaf K) → Round K
  next : PyTree (Leaf K) → PyTree (Leaf K)
  start : PyTree (Leaf K)
  depression : K
  max : Int
  check : Bool
  initial : Controller K
  result : Controller K
  final : PyTree (Leaf K)
  halting : List Nat → Nat → K
  made : make start depression = .ok (.ctrl initial)
  wf : initial.state.WF
  dicts : initial.state.DictsWF
  updates_wf : ∀ t, ∀ nu ∈ (rounds (loopStates next start t)).updates, nu.2.WF
  epsilon_pos : 0 < initial.state.epsilon
  epsilon_le : initial.state.epsilon ≤ 1
  depression_nonneg : 0 ≤ initial.state.depression_constant
  fresh : ∀ b p, initial.probabilities.at? b = some p → p = 0
  supplies : ∀ t b p, initial.probabilities.at? b = some p →
    (rounds (loopStates next start t)).halting.at? b = some (halting b t)
  returns : (callLayer make (fun s => (rounds s).ops) next).ExecuteAct start depression max check
    (.ok (result, final))

namespace ActRun

/-- The updates of iteration `t`. -/
def updates (r : ActRun K) (t : Nat) : Dict (PyTree (Leaf K)) :=
  (r.rounds (loopStates r.next r.start t)).updates

/-- Graves' weight of iteration `t` for element `b`. -/
def weight (r : ActRun K) (b : List Nat) (t : Nat) : K :=
  Graves.weight r.initial.state.epsilon r.initial.state.depression_constant (r.halting b) t

/-- The element of the batch an index of an accumulator belongs to. -/
def element (r : ActRun K) (i : List Nat) : List Nat := i.take r.initial.probabilities.shape.length

/-- The call ran `k` iterations: its results are those of `k` iterations made outside of any loop. -/
def Took (r : ActRun K) (k : Nat) : Prop :=
  r.final = loopStates r.next r.start k ∧
  ∃ c, run r.initial (loopCalls (fun s => (r.rounds s).ops) r.next r.start k) = .ok c ∧
    r.result.state.Same c.state

/-- What C61 says about such a call, with the weights of a halted element summed up. -/
private theorem graves (r : ActRun K) : ∃ k : Nat, k ≤ r.max.toNat ∧ r.Took k ∧
    (∀ name l i a0 (u : Nat → K), entry? r.initial.accumulators name l i = some a0 →
      (∀ t < k, entry? (r.updates t) name l i = some (u t)) →
      entry? r.result.accumulators name l i =
        some (a0 + ∑ t ∈ Finset.range k, r.weight (r.element i) t * u t)) ∧
    (∀ b p, r.initial.probabilities.at? b = some p → r.result.haltedBatches.at? b = some true →
      ∑ t ∈ Finset.range k, r.weight b t = 1) := by
  have hops' : ∀ t, ∀ op ∈ (r.rounds (loopStates r.next r.start t)).ops, op.DictsWF := by
    intro t op ho
    unfold Round.ops at ho
    rcases List.mem_append.1 ho with ho | ho
    · obtain ⟨nu, hm, rfl⟩ := List.mem_map.1 ho
      exact r.updates_wf t nu hm
    · rw [List.mem_singleton.1 ho]; trivial
  obtain ⟨_, -, -, wr, -, ⟨c', run', same⟩, -, -⟩ := C61_loop_is_history _ _ _ _ _ _ _ r.made r.wf
    r.dicts hops' r.returns
  have heps : r.result.state.epsilon = r.initial.state.epsilon :=
    same.epsilon.trans (run_induction (Inv := fun t => t.epsilon = r.initial.state.epsilon)
      (fun _ _ _ _ _ ⟨_, e⟩ h => by subst e; exact h) (fun _ _ _ _ st h => st.epsilon.trans h)
      (fun _ _ _ st h => st.epsilon.trans h) _ r.wf rfl run').2
  obtain ⟨k, h1, h2, h2', h3⟩ := C61_execute_act_is_graves r.make r.rounds r.next r.start r.depression r.max
    r.check r.made r.wf r.dicts r.updates_wf r.epsilon_pos r.epsilon_le r.depression_nonneg r.fresh
    r.returns r.halting
  obtain ⟨g1, g2, -, -⟩ := h3 fun t _ b p hb => r.supplies t b p hb
  refine ⟨k, h1, ⟨h2, h2'⟩, g2, fun b p hb hh => ?_⟩
  obtain ⟨q, hq, hlt⟩ := (halted_iff (s := r.result.state) wr.floating).1 hh
  have hg := (g1 b p hb).symm.trans hq
  rw [Option.some.injEq] at hg
  rw [← hg, heps, (Graves.spec_weight r.epsilon_pos (by linarith [r.epsilon_le])
    r.depression_nonneg).2] at hlt
  exact Graves.sum_weight_of_crossed (by linarith [r.epsilon_le]) hlt

end ActRun

/-- C98.  An outer call of `execute_act` whose iteration `t` makes an inner call and takes an entry of what
that accumulated as its update.  The outer result is the sum over all inner iterations of all outer ones, each
inner update weighted with the product of its outer and inner weight, plus what the accumulators started
with.  Where outer and inner elements are halted these weights sum to one.  The number of iterations of
either is bounded by its own `max_iterations` only. -/
theorem C98_nested (outer : ActRun K) (inner : Nat → ActRun K) :
    ∃ (k : Nat) (n : Nat → Nat), outer.Took k ∧ k ≤ outer.max.toNat ∧
      (∀ t, (inner t).Took (n t) ∧ n t ≤ (inner t).max.toNat) ∧
      ∀ (name name' : String) (l l' : Nat) (i i' : List Nat) (a0 : K) (a : Nat → K)
        (u : Nat → Nat → K),
        entry? outer.initial.accumulators name l i = some a0 →
        (∀ t < k, entry? (inner t).initial.accumulators name' l' i' = some (a t)) →
        (∀ t < k, entry? (outer.updates t) name l i =
          entry? (inner t).result.accumulators name' l' i') →
        (∀ t < k, ∀ j < n t, entry? ((inner t).updates j) name' l' i' = some (u t j)) →
        let W := outer.weight (outer.element i)
        let w := fun t => (inner t).weight ((inner t).element i')
        entry? outer.result.accumulators name l i = some (a0 + ∑ t ∈ Finset.range k, W t * a t +
          ∑ t ∈ Finset.range k, ∑ j ∈ Finset.range (n t), W t * w t j * u t j) ∧
        (outer.result.haltedBatches.at? (outer.element i) = some true →
          (∀ t < k, (inner t).result.haltedBatches.at? ((inner t).element i') = some true) →
          ∑ t ∈ Finset.range k, ∑ j ∈ Finset.range (n t), W t * w t j = 1) := by
  obtain ⟨k, h1, h2, h3, h4⟩ := outer.graves
  choose n n1 n2 n3 n4 using fun t => (inner t).graves
  refine ⟨k, n, h2, h1, fun t => ⟨n2 t, n1 t⟩, ?_⟩
  intro name name' l l' i i' a0 a u ha0 ha hlink hu W w
  constructor
  · rw [h3 name l i a0 (fun t => a t + ∑ j ∈ Finset.range (n t), w t j * u t j) ha0 fun t ht =>
      (hlink t ht).trans (n3 t name' l' i' (a t) (u t) (ha t ht) (hu t ht))]
    simp only [mul_add, Finset.sum_add_distrib, Finset.mul_sum, mul_assoc, add_assoc, W]
  · intro hh hh'
    have hin : ∀ t < k, ∑ j ∈ Finset.range (n t), w t j = 1 := by
      intro t ht
      obtain ⟨p, hp⟩ := (inner t).wf.prob_of_entry (ha t ht)
      exact n4 t _ p hp (hh' t ht)
    obtain ⟨p, hp⟩ := outer.wf.prob_of_entry ha0
    rw [← h4 _ p hp hh]
    refine Finset.sum_congr rfl fun t ht => ?_
    rw [← Finset.mul_sum, hin t (Finset.mem_range.1 ht), mul_one]
    rfl

/-- C98, the "multiplicative effect".  With halting probability `P` in the outer call and `p` in the inner
ones there are `N(P) * N(p)` inner iterations altogether, `N` being the number of C97. -/
theorem C98_multiplicative [FloorSemiring K] (outer : ActRun K) (inner : Nat → ActRun K)
    {P p eps dep : K} (hP0 : 0 < P) (hP1 : P ≤ 1) (hp0 : 0 < p) (hp1 : p ≤ 1)
    (hne : ∃ b x, outer.initial.probabilities.at? b = some x)
    (hne' : ∀ t, ∃ b x, (inner t).initial.probabilities.at? b = some x)
    (hh : ∀ b t, outer.halting b t = P) (hh' : ∀ t b j, (inner t).halting b j = p)
    (hdep : 0 < outer.initial.state.depression_constant) (hdep' : 0 < dep)
    (hc : ∀ t, (inner t).initial.state.epsilon = eps ∧ (inner t).initial.state.depression_constant = dep)
    (N n : Nat)
    (hN : N = ⌊(1 - outer.initial.state.epsilon) / (outer.initial.state.depression_constant * P)⌋₊ + 1)
    (hn : n = ⌊(1 - eps) / (dep * p)⌋₊ + 1)
    (hmax : N ≤ outer.max.toNat) (hmax' : ∀ t, n ≤ (inner t).max.toNat) :
    ∃ (k : Nat) (m : Nat → Nat), outer.Took k ∧ (∀ t, (inner t).Took (m t)) ∧
      k = N ∧ ∑ t ∈ Finset.range k, m t = N * n := by
  have took : ∀ (r : ActRun K) {q : K}, 0 < q → q ≤ 1 → 0 < r.initial.state.depression_constant →
      (∃ b x, r.initial.probabilities.at? b = some x) → (∀ b t, r.halting b t = q) →
      r.Took (min r.max.toNat (⌊(1 - r.initial.state.epsilon) /
        (r.initial.state.depression_constant * q)⌋₊ + 1)) := by
    intro r q h0 h1 hd hne hh
    exact C97_execute_act r.make r.rounds r.next r.start r.depression r.max r.check r.made r.wf r.dicts
      r.updates_wf r.epsilon_pos r.epsilon_le hd r.fresh hne r.returns h0 h1
      fun t b x hb => (r.supplies t b x hb).trans (by rw [hh])
  refine ⟨N, fun _ => n, ?_, fun t => ?_, rfl, by simp⟩
  · have := took outer hP0 hP1 hdep hne hh
    rwa [← hN, min_eq_right hmax] at this
  · have := took (inner t) hp0 hp1 (by rw [(hc t).2]; exact hdep') (hne' t) (hh' t)
    rwa [(hc t).1, (hc t).2, ← hn, min_eq_right (hmax' t)] at this

section Example
open Fixtures

/-- The call of C61's example, with `max_iterations` 10: an inner call that accumulates 6 in entry `[1, 0]`,
which is also the update of the outer one. -/
private theorem demo_run : ∃ r : ActRun ℚ, entry? r.initial.accumulators "out" 0 [1, 0] = some 0 ∧
    (∀ t, entry? (r.updates t) "out" 0 [1, 0] = some 6) ∧
    entry? r.result.accumulators "out" 0 [1, 0] = some 6 := by
  obtain ⟨c, s, h⟩ := demo_executes 10 true
  let r : ActRun ℚ :=
    { make := _
      rounds := demoRound
      next := id
      start := bare (vec [1/2, 2/3])
      depression := 1
      max := 10
      check := true
      initial := ⟨simple⟩
      result := c
      final := s
      halting := fun b _ => if b = [0] then 1/2 else 2/3
      made := rfl
      wf := simple_wf
      dicts := simple_dictsWF
      updates_wf := by
        intro t nu hnu
        rw [demo_states] at hnu
        rw [List.mem_singleton.1 hnu]; trivial
      epsilon_pos := by decide +kernel
      epsilon_le := by decide +kernel
      depression_nonneg := by decide +kernel
      fresh := by
        intro b p hb
        rcases vec_two hb with ⟨-, h⟩ | ⟨-, h⟩ <;> exact h
      supplies := by
        intro t b p hb
        rw [demo_states]
        rcases vec_two hb with ⟨rfl, -⟩ | ⟨rfl, -⟩ <;> decide +kernel
      returns := h }
  have hu : ∀ t, entry? (r.updates t) "out" 0 [1, 0] = some 6 := by
    intro t
    unfold ActRun.updates
    change entry? (demoRound (loopStates id (bare (vec [1/2, 2/3])) t)).updates "out" 0 [1, 0] = some 6
    rw [demo_states]
    decide +kernel
  have h0 : entry? simple.accumulators "out" 0 [1, 0] = some 0 := by decide +kernel
  have hp : simple.probabilities.at? [1] = some 0 := by decide +kernel
  refine ⟨r, h0, hu, ?_⟩
  obtain ⟨k, h1, -, -, h3⟩ := C61_execute_act_is_graves r.make r.rounds r.next r.start r.depression r.max
    r.check r.made r.wf r.dicts r.updates_wf r.epsilon_pos r.epsilon_le r.depression_nonneg r.fresh
    r.returns r.halting
  obtain ⟨-, g2, g3, -⟩ := h3 fun t _ b p hb => r.supplies t b p hb
  have hc : Graves.Crossed (1/10 : ℚ) 1 (fun _ => 2/3) k := by
    rcases g3 with g3 | g3
    · exact g3 [1] 0 hp
    · have : (10 : Int) ≤ k := g3
      exact Graves.Crossed.mono (t := 10) (by decide +kernel) (by omega)
  have h6 := g2 "out" 0 [1, 0] 0 (fun _ => 6) h0 fun t _ => hu t
  rw [h6, ← Finset.sum_mul]
  have : ∑ t ∈ Finset.range k, Graves.weight (1/10 : ℚ) 1 (fun _ => 2/3) t = 1 :=
    Graves.sum_weight_of_crossed (by norm_num) hc
  change some (0 + (∑ t ∈ Finset.range k, Graves.weight (1/10 : ℚ) 1 (fun _ => 2/3) t) * 6) = some 6
  rw [this]
  norm_num

/-- This call inside itself meets the hypotheses of C98. -/
example : ∃ (outer : ActRun ℚ) (inner : Nat → ActRun ℚ),
    entry? outer.initial.accumulators "out" 0 [1, 0] = some 0 ∧
    (∀ t, entry? (inner t).initial.accumulators "out" 0 [1, 0] = some 0) ∧
    (∀ t, entry? (outer.updates t) "out" 0 [1, 0] =
      entry? (inner t).result.accumulators "out" 0 [1, 0]) ∧
    ∀ t j, entry? ((inner t).updates j) "out" 0 [1, 0] = some 6 := by
  obtain ⟨r, h1, h2, h3⟩ := demo_run
  exact ⟨r, fun _ => r, h1, fun _ => h1, fun t => (h2 t).trans h3.symm, fun _ j => h2 j⟩

end Example

end JaxAct
