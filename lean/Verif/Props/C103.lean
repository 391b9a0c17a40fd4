import Verif.Props.C66
import Verif.Props.C80

/-! # C103 the counters show how often the loop ran -/

namespace JaxAct
open PyTree ACTStates
variable {α : Type} [Arith α]

private theorem caches_halted {us : List (String × PyTree (Leaf α))} :
    ∀ {c c1 : Controller α}, run c (us.map fun nu => Op.cache nu.1 nu.2) = .ok c1 →
      c1.haltedBatches = c.haltedBatches := by
  induction us with
  | nil => intro c c1 h; cases h; rfl
  | cons nu us ih =>
    intro c c1 h
    simp only [List.map_cons, run, bind_ok] at h
    obtain ⟨c2, h1, h2⟩ := h
    rw [ih h2]
    obtain ⟨-, heq⟩ := Controller.cacheUpdate_ok_iff.1 h1
    unfold Controller.haltedBatches Controller.haltThreshold Controller.probabilities
    rw [heq]

private theorem active_caches {us : List (String × PyTree (Leaf α))} (b : List Nat) (n : Nat)
    (rest : List (Op α)) : ∀ {c c1 : Controller α},
      run c (us.map fun nu => Op.cache nu.1 nu.2) = .ok c1 →
      activeIterations b c n ((us.map fun nu => Op.cache nu.1 nu.2) ++ rest) =
        activeIterations b c1 n rest := by
  induction us with
  | nil => intro c c1 h; cases h; rfl
  | cons nu us ih =>
    intro c c1 h
    simp only [List.map_cons, run, bind_ok] at h
    obtain ⟨c2, h1, h2⟩ := h
    simp only [List.map_cons, List.cons_append, activeIterations, h1]
    exact ih h2

/-- In one round the counter goes up by one exactly if the element is not halted. -/
private theorem active_round {b : List Nat} {n : Nat} {r : Round α} {c c' : Controller α}
    (h : run c r.ops = .ok c') :
    activeIterations b c n r.ops = if c.haltedBatches.at? b = some true then n else n + 1 := by
  unfold Round.ops at h ⊢
  rw [run_append, bind_ok] at h
  obtain ⟨c1, h1, h2⟩ := h
  rw [active_caches b n _ h1, ← caches_halted h1]
  simp only [run, bind_ok] at h2
  obtain ⟨c2, h3, -⟩ := h2
  simp only [activeIterations, h3]

private theorem active_append {b : List Nat} {o1 o2 : List (Op α)} : ∀ {n : Nat} {c c1 : Controller α},
    run c o1 = .ok c1 →
    activeIterations b c n (o1 ++ o2) = activeIterations b c1 (activeIterations b c n o1) o2 := by
  induction o1 with
  | nil => intro n c c1 h; cases h; rfl
  | cons op o1 ih =>
    intro n c c1 h
    simp only [run, bind_ok] at h
    obtain ⟨c2, h1, h2⟩ := h
    cases op <;> simp only [List.cons_append, activeIterations, h1] <;> exact ih h2

/-- The common part of the two theorems: `sh n` is what a counter shows after `n` steps. -/
private theorem largest_counter {make : PyTree (Leaf α) → α → Res (Made α)}
    {rounds : PyTree (Leaf α) → Round α} {next : PyTree (Leaf α) → PyTree (Leaf α)}
    {s0 : PyTree (Leaf α)} {dep : α} {max : Int} {check : Bool} {c0 : Controller α}
    (hmake : make s0 dep = .ok (.ctrl c0)) (hwf : c0.state.WF) (hd : c0.state.DictsWF)
    (hops : ∀ t, ∀ nu ∈ (rounds (loopStates next s0 t)).updates, nu.2.WF)
    (hstays : StaysHalted c0) (sh : Nat → α)
    (hcount : ∀ ops c' b x, run c0 ops = .ok c' → c0.iterations.at? b = some x →
      c'.iterations.at? b = some (sh (activeIterations b c0 0 ops))) {c : Controller α}
    {s : PyTree (Leaf α)} (hr : (callLayer make (fun s => (rounds s).ops) next).ExecuteAct s0 dep max
      check (.ok (c, s))) :
    ∃ k : Nat, k ≤ max.toNat ∧ s = loopStates next s0 k ∧
      (∀ b x, c.iterations.at? b = some x → ∃ n : Nat, n ≤ k ∧ x = sh n) ∧
      (k ≠ 0 → ∃ b, c.iterations.at? b = some (sh k)) := by
  have hnr' : ∀ t, ∀ op ∈ (rounds (loopStates next s0 t)).ops, op.NotReset := by
    intro t op ho
    unfold Round.ops at ho
    rcases List.mem_append.1 ho with ho | ho
    · obtain ⟨nu, -, rfl⟩ := List.mem_map.1 ho
      trivial
    · rw [List.mem_singleton.1 ho]
      trivial
  have hops' : ∀ t, ∀ op ∈ (rounds (loopStates next s0 t)).ops, op.DictsWF := by
    intro t op ho
    unfold Round.ops at ho
    rcases List.mem_append.1 ho with ho | ho
    · obtain ⟨nu, hnu, rfl⟩ := List.mem_map.1 ho
      exact hops t nu hnu
    · rw [List.mem_singleton.1 ho]
      trivial
  obtain ⟨k, h1, h2, -, -, ⟨c', h3, h4⟩, -, h6⟩ :=
    C61_loop_is_history make (fun s => (rounds s).ops) next s0 dep max check hmake hwf hd hops' hr
  have hsucc : ∀ t, loopCalls (fun s => (rounds s).ops) next s0 (t + 1) =
      loopCalls (fun s => (rounds s).ops) next s0 t ++ (rounds (loopStates next s0 t)).ops := by
    intro t
    simp only [loopCalls, List.range_succ, List.flatMap_append, List.flatMap_singleton]
  have hnr : ∀ t j, ∀ op ∈ (List.range j).flatMap
      (fun i => (rounds (loopStates next s0 (t + i))).ops), op.NotReset := by
    intro t j op ho
    obtain ⟨i, -, ho⟩ := List.mem_flatMap.1 ho
    exact hnr' _ op ho
  have hsplit : ∀ t j, loopCalls (fun s => (rounds s).ops) next s0 (t + j) =
      loopCalls (fun s => (rounds s).ops) next s0 t ++
        (List.range j).flatMap (fun i => (rounds (loopStates next s0 (t + i))).ops) := by
    intro t j
    induction j with
    | zero => simp
    | succ j ih =>
      rw [← Nat.add_assoc, hsucc, ih, List.append_assoc, List.range_succ, List.flatMap_append,
        List.flatMap_singleton]
  -- how many of the first `t` iterations count
  have key : ∀ t, ∀ ct, run c0 (loopCalls (fun s => (rounds s).ops) next s0 t) = .ok ct → ∀ b,
      activeIterations b c0 0 (loopCalls (fun s => (rounds s).ops) next s0 t) ≤ t ∧
      ((∀ j < t, ∀ cj, run c0 (loopCalls (fun s => (rounds s).ops) next s0 j) = .ok cj →
          cj.haltedBatches.at? b ≠ some true) →
        activeIterations b c0 0 (loopCalls (fun s => (rounds s).ops) next s0 t) = t) := by
    intro t
    induction t with
    | zero => intro ct _ b; exact ⟨le_rfl, fun _ => rfl⟩
    | succ t ih =>
      intro ct hct b
      rw [hsucc, run_append, bind_ok] at hct
      obtain ⟨c1, g1, g2⟩ := hct
      obtain ⟨a1, a2⟩ := ih c1 g1 b
      rw [hsucc, active_append g1, active_round g2]
      refine ⟨by split <;> omega, fun hj => ?_⟩
      rw [if_neg (hj t (by omega) c1 g1), a2 fun j hj' => hj j (by omega)]
  refine ⟨k, h1, h2, fun b x hx => ?_, fun hk => ?_⟩
  · have hx' : c'.iterations.at? b = some x := by
      unfold Controller.iterations at hx ⊢
      rw [← h4.iterations]
      exact hx
    obtain ⟨-, -, -, -, -, -, hsh, -⟩ := C14_types_invariant (s := c0.state) hwf _ h3
    obtain ⟨y, hy⟩ := Controller.at?_some_of_shape (b := c0.iterations) hsh.symm hx'
    have := hcount _ c' b y h3 hy
    rw [hx'] at this
    exact ⟨_, (key k c' h3 b).1, Option.some.inj this⟩
  · obtain ⟨t, rfl⟩ := Nat.exists_eq_succ_of_ne_zero hk
    obtain ⟨ct, g1, g2⟩ := h6 t (by omega)
    unfold AllHalted at g2
    push Not at g2
    obtain ⟨b, x, hb, hx⟩ := g2
    have hxf : x = false := by cases x <;> simp_all
    subst hxf
    have wt : ct.state.WF := run_wf (s := c0.state) hwf g1
    obtain ⟨q, hq, -⟩ := (halted_iff (s := ct.state) wt.floating).1 hb
    have hsh := (C14_types_invariant (s := c0.state) hwf _ g1).2.2.1
    obtain ⟨y, hy⟩ := Controller.at?_some_of_shape (b := c0.iterations)
      (hwf.it_shape.trans hsh.symm) hq
    have hc := hcount _ c' b y h3 hy
    refine ⟨b, ?_⟩
    rw [(key (t + 1) c' h3 b).2 ?_] at hc
    · unfold Controller.iterations at hc ⊢
      rw [h4.iterations]
      exact hc
    · -- not halted after `t` iterations, so never before
      intro j hj cj hcj hh
      have hg := g1
      rw [show t = j + (t - j) by omega, hsplit, run_append, hcj] at hg
      have := hstays _ cj b (fun op ho => by
        obtain ⟨i, -, ho⟩ := List.mem_flatMap.1 ho
        exact hnr' _ op ho) hcj _ ct (hnr j (t - j)) hg hh
      rw [this] at hb
      cases hb

section Exact
variable {K : Type} [Field K] [LinearOrder K] [IsStrictOrderedRing K]
attribute [local instance] Arith.exact

/-- C103.  Let a layer cache an update per accumulator and iterate, as in C61, and start from counters
that are zero.  If `execute_act` returns, then for some number `k`, at most `max_iterations`, the user
state is the one computed by `k` iterations, no counter exceeds `k`, and some counter is `k` (unless
`k = 0`, when all are 0): the largest counter tells how often the loop ran. -/
theorem C103_largest_counter (make : PyTree (Leaf K) → K → Res (Made K))
    (rounds : PyTree (Leaf K) → Round K) (next : PyTree (Leaf K) → PyTree (Leaf K))
    (s0 : PyTree (Leaf K)) (dep : K) (max : Int) (check : Bool) {c0 : Controller K}
    (hmake : make s0 dep = .ok (.ctrl c0)) (hwf : c0.state.WF) (hd : c0.state.DictsWF)
    (hops : ∀ t, ∀ nu ∈ (rounds (loopStates next s0 t)).updates, nu.2.WF)
    (he0 : 0 < c0.state.epsilon) (hdep : 0 ≤ c0.state.depression_constant)
    (hzero : ∀ b n, c0.iterations.at? b = some n → n = 0) {c : Controller K}
    {s : PyTree (Leaf K)} (hr : (callLayer make (fun s => (rounds s).ops) next).ExecuteAct s0 dep max
      check (.ok (c, s))) :
    ∃ k : Nat, k ≤ max.toNat ∧ s = loopStates next s0 k ∧
      (∀ b x, c.iterations.at? b = some x → ∃ n : Nat, n ≤ k ∧ x = n) ∧
      (k ≠ 0 → ∃ b, c.iterations.at? b = some (k : K)) := by
  refine largest_counter hmake hwf hd hops (staysHalted_exact hwf he0 hdep) (fun n => (n : K))
    (fun ops c' b x h hx => ?_) hr
  have h0 := hzero b x hx
  subst h0
  exact C07_iterations_count_active (s := c0.state) hwf (by rw [Nat.cast_zero]; exact hx) ops h

end Exact

section Rounded
variable {F : DType → Fmt} [A : Arith ℚ]

/-- C103 with rounding: the same, but a floating counter shows at most `2^precision`. -/
theorem C103_largest_counter_rounded (hA : A = Arith.rounded F) (hF64 : (F .f64).Valid)
    (make : PyTree (Leaf ℚ) → ℚ → Res (Made ℚ))
    (rounds : PyTree (Leaf ℚ) → Round ℚ) (next : PyTree (Leaf ℚ) → PyTree (Leaf ℚ))
    (s0 : PyTree (Leaf ℚ)) (dep : ℚ) (max : Int) (check : Bool) {c0 : Controller ℚ}
    (hmake : make s0 dep = .ok (.ctrl c0)) (hwf : c0.state.WF) (hd : c0.state.DictsWF)
    (hops : ∀ t, ∀ nu ∈ (rounds (loopStates next s0 t)).updates, nu.2.WF)
    (hF : (F c0.state.probabilities.dtype).Valid)
    (hFi : c0.state.iterations.dtype.isFloating = true →
      (F c0.state.iterations.dtype).Valid ∧ 2 ≤ (F c0.state.iterations.dtype).prec)
    (he0 : 0 ≤ c0.state.epsilon) (hdep : 0 ≤ c0.state.depression_constant)
    (hp : ∀ b p, c0.probabilities.at? b = some p →
      (F c0.state.probabilities.dtype).rnd p = p ∧ 0 ≤ p ∧ p ≤ 1)
    (hzero : ∀ b n, c0.iterations.at? b = some n → n = 0) {c : Controller ℚ}
    {s : PyTree (Leaf ℚ)} (hr : (callLayer make (fun s => (rounds s).ops) next).ExecuteAct s0 dep max
      check (.ok (c, s))) :
    ∃ k : Nat, k ≤ max.toNat ∧ s = loopStates next s0 k ∧
      (∀ b x, c.iterations.at? b = some x →
        ∃ n : Nat, n ≤ k ∧ x = shownCount F c0.state.iterations.dtype n) ∧
      (k ≠ 0 → ∃ b, c.iterations.at? b = some (shownCount F c0.state.iterations.dtype k)) := by
  refine largest_counter hmake hwf hd hops (staysHalted_rounded hA hF64 hwf ⟨hF, he0, hdep, hp⟩)
    (shownCount F c0.state.iterations.dtype) (fun ops c' b x h hx => ?_) hr
  have h0 := hzero b x hx
  subst h0
  refine C66_counter_saturates hA (s := c0.state) hwf hFi ?_ ops h
  have : shownCount F c0.state.iterations.dtype 0 = 0 := by
    unfold shownCount
    split
    · rw [Nat.cast_zero, min_eq_left (by positivity)]
    · exact Nat.cast_zero
  rw [this]
  exact hx

end Rounded

section Example
open Fixtures
attribute [local instance] Arith.exact

/-- The layer of C50 meets the hypotheses, whatever the maximum; ... -/
example (max : Int) (check : Bool) : ∃ c s,
    demoLayer.ExecuteAct (bare (vec [1/2, 2/3])) 1 max check (.ok (c, s)) ∧
    ∃ k : Nat, k ≤ max.toNat ∧ (k ≠ 0 → ∃ b, c.iterations.at? b = some (k : ℚ)) := by
  obtain ⟨c, s, h⟩ := demo_executes max check
  obtain ⟨k, h1, -, -, h2⟩ := C103_largest_counter _ demoRound id _ 1 max check (c0 := ⟨simple⟩) rfl
    simple_wf simple_dictsWF (by
      intro t nu hnu
      rw [demo_states] at hnu
      rw [List.mem_singleton.1 hnu]
      trivial) (by decide +kernel) (by decide +kernel)
    (fun b n hn => by rcases vec_two (x := 0) (y := 0) hn with ⟨-, h⟩ | ⟨-, h⟩ <;> exact h) h
  exact ⟨c, s, h, k, h1, h2⟩

/-- ... with at most five iterations it runs two, and both counters show it. -/
example : ∃ c s, demoLayer.ExecuteAct (bare (vec [1/2, 2/3])) 1 5 true (.ok (c, s)) ∧
    c.iterations.at? [0] = some 2 ∧ c.iterations.at? [1] = some 2 := by
  have hfuel : (whileFuel isActNotComplete
      (fun x => (demoLayer.adapter true x).map Carry.rebuild) 5
      (Carry.rebuild ⟨⟨simple⟩, bare (vec [1/2, 2/3]), ⟨0, 5⟩⟩)).map
        (fun z => (z.controller.iterations.at? [0], z.controller.iterations.at? [1])) =
      some (some 2, some 2) := by decide +kernel
  obtain ⟨z, hz, hobs⟩ := Option.map_eq_some_iff.1 hfuel
  exact ⟨z.controller, z.state, execute_of_fuel (demo_executes 5 true) rfl hz,
    congrArg Prod.fst hobs, congrArg Prod.snd hobs⟩

end Example

section ExampleRounded
open Fixtures
attribute [local instance] ieee

/-- The hypotheses of the rounded version hold in IEEE arithmetic for the layer with a growing state. -/
example (max : Int) (check : Bool) : ∃ c s,
    growLayer.ExecuteAct (bare (vec [1/4, 0])) 1 max check (.ok (c, s)) ∧
    ∃ k : Nat, k ≤ max.toNat ∧
      (k ≠ 0 → ∃ b, c.iterations.at? b = some (shownCount DType.fmt simple.iterations.dtype k)) := by
  obtain ⟨c, s, h⟩ := grow_executes (x := 1/4) (y := 0) max check (by decide +kernel)
  have hp : ∀ b p, simple.probabilities.at? b = some p →
      (DType.f32.fmt).rnd p = p ∧ 0 ≤ p ∧ p ≤ 1 := by
    intro b p hb
    rcases vec_two hb with ⟨-, rfl⟩ | ⟨-, rfl⟩ <;> decide +kernel
  obtain ⟨k, h1, -, -, h2⟩ := C103_largest_counter_rounded (F := DType.fmt) rfl (by decide) _ demoRound
    grow _ 1 max check (c0 := ⟨simple⟩) rfl simple_wf simple_dictsWF
    (fun t nu hnu => (grow_ops (1/4) 0 t (Op.cache nu.1 nu.2)
      (List.mem_append_left _ (List.mem_map.2 ⟨nu, hnu, rfl⟩))).1)
    (show DType.f32.fmt.Valid by decide) (fun _ => by decide) (by decide +kernel) (by decide +kernel) hp
    (fun b n hn => by rcases vec_two (x := 0) (y := 0) hn with ⟨-, h⟩ | ⟨-, h⟩ <;> exact h) h
  exact ⟨c, s, h, k, h1, h2⟩

end ExampleRounded
end JaxAct
