import Verif.Props.C20Demo
import Verif.Props.C55
import Verif.Props.C61
import Verif.Props.C106

/-!
# C111 A final linear layer can be moved out of the loop

`execute_act` makes as many iterations whatever is accumulated, so accumulating `M x + bias` gives `M X + bias`, where
`X` is what accumulating `x` gives.
-/

namespace JaxAct
open PyTree ACTStates

section Loop
variable {α : Type} [Arith α]

omit [Arith α] in
theorem round_ops_wf {r : Round α} (h : ∀ nu ∈ r.updates, nu.2.WF) : ∀ op ∈ r.ops, op.DictsWF := by
  intro op ho
  unfold Round.ops at ho
  rcases List.mem_append.1 ho with ho | ho
  · obtain ⟨nu, hm, rfl⟩ := List.mem_map.1 ho
    exact h nu hm
  · rw [List.mem_singleton.1 ho]; trivial

omit [Arith α] in
theorem loopCalls_steps {rounds rounds' : PyTree (Leaf α) → Round α} {next next' : PyTree (Leaf α) → PyTree (Leaf α)}
    {s0 s0' : PyTree (Leaf α)} (hh : ∀ t, (rounds' (loopStates next' s0' t)).halting =
      (rounds (loopStates next s0 t)).halting) (k : Nat) :
    (loopCalls (fun s => (rounds s).ops) next s0 k).filter Op.isStep =
      (loopCalls (fun s => (rounds' s).ops) next' s0' k).filter Op.isStep := by
  have hr : ∀ r : Round α, r.ops.filter Op.isStep = [Op.iterate r.halting] := by
    intro r
    unfold Round.ops
    rw [List.filter_append, List.filter_eq_nil_iff.2 (by
      intro op ho
      obtain ⟨nu, -, rfl⟩ := List.mem_map.1 ho
      simp [Op.isStep])]
    rfl
  unfold loopCalls
  simp only [List.filter_flatMap, hr, hh]

/-- C111, the loop.  Two layers cache updates and iterate.  Their controllers start with the same bookkeeping (the
accumulators need not have anything in common) and they ask for the same halting probabilities in every iteration.
Then `execute_act` makes the same number of iterations with both, and the bookkeeping is the same at the end.  Any
arithmetic. -/
theorem C111_same_loop (make make' : PyTree (Leaf α) → α → Res (Made α)) (rounds rounds' : PyTree (Leaf α) → Round α)
    (next next' : PyTree (Leaf α) → PyTree (Leaf α)) (s0 s0' : PyTree (Leaf α)) (dep dep' : α) (max : Int)
    (check check' : Bool) {c0 c0' : Controller α}
    (hmake : make s0 dep = .ok (.ctrl c0)) (hmake' : make' s0' dep' = .ok (.ctrl c0'))
    (hwf : c0.state.WF) (hwf' : c0'.state.WF) (hd : c0.state.DictsWF) (hd' : c0'.state.DictsWF)
    (hops : ∀ t, ∀ nu ∈ (rounds (loopStates next s0 t)).updates, nu.2.WF)
    (hops' : ∀ t, ∀ nu ∈ (rounds' (loopStates next' s0' t)).updates, nu.2.WF)
    (hsame : ∀ b, SameBookkeeping b c0.state c0'.state)
    (hh : ∀ t, (rounds' (loopStates next' s0' t)).halting = (rounds (loopStates next s0 t)).halting)
    {c c' : Controller α} {s s' : PyTree (Leaf α)}
    (hr : (callLayer make (fun s => (rounds s).ops) next).ExecuteAct s0 dep max check (.ok (c, s)))
    (hr' : (callLayer make' (fun s => (rounds' s).ops) next').ExecuteAct s0' dep' max check' (.ok (c', s'))) :
    ∃ k : Nat, k ≤ max.toNat ∧ s = loopStates next s0 k ∧ s' = loopStates next' s0' k ∧
      (∃ e, run c0 (loopCalls (fun s => (rounds s).ops) next s0 k) = .ok e ∧ c.state.Same e.state ∧
        c.state.DictsWF ∧ e.state.DictsWF) ∧
      (∃ e, run c0' (loopCalls (fun s => (rounds' s).ops) next' s0' k) = .ok e ∧ c'.state.Same e.state ∧
        c'.state.DictsWF ∧ e.state.DictsWF) ∧
      ∀ b p, c.probabilities.at? b = some p →
        SameBookkeeping b c.state c'.state ∧ c.haltedBatches.at? b = c'.haltedBatches.at? b := by
  have wfrun : ∀ {c0 c : Controller α} {rounds : PyTree (Leaf α) → Round α}
      {next : PyTree (Leaf α) → PyTree (Leaf α)} {s0 : PyTree (Leaf α)} {k : Nat}, c0.state.WF → c0.state.DictsWF →
      (∀ t, ∀ nu ∈ (rounds (loopStates next s0 t)).updates, nu.2.WF) →
      run c0 (loopCalls (fun s => (rounds s).ops) next s0 k) = .ok c → c.state.DictsWF := by
    intro c0 c rounds next s0 k w h1 h2 h3
    refine run_dictsWF (s := c0.state) w h1 (fun op ho => ?_) h3
    obtain ⟨t, -, ht⟩ := List.mem_flatMap.1 ho
    exact round_ops_wf (h2 t) op ht
  obtain ⟨k, k1, k2, -, k2', ⟨e, k3, k4⟩, k5, k6⟩ := C61_loop_is_history make (fun s => (rounds s).ops) next
    s0 dep max check hmake hwf hd (fun t => round_ops_wf (hops t)) hr
  obtain ⟨k', j1, j2, -, j2', ⟨e', j3, j4⟩, j5, j6⟩ := C61_loop_is_history make' (fun s => (rounds' s).ops) next'
    s0' dep' max check' hmake' hwf' hd' (fun t => round_ops_wf (hops' t)) hr'
  have key : ∀ (t : Nat) {ct ct' : Controller α},
      run c0 (loopCalls (fun s => (rounds s).ops) next s0 t) = .ok ct →
      run c0' (loopCalls (fun s => (rounds' s).ops) next' s0' t) = .ok ct' →
      (∀ b q, ct'.state.probabilities.at? b = some q → ∃ p, ct.state.probabilities.at? b = some p) ∧
      ∀ b p, ct.state.probabilities.at? b = some p →
        SameBookkeeping b ct.state ct'.state ∧ ct.haltedBatches.at? b = ct'.haltedBatches.at? b := by
    intro t ct ct' e1 e2
    have s1 : ct.state.probabilities.shape = c0.state.probabilities.shape :=
      (C14_types_invariant (s := c0.state) hwf _ e1).2.2.1
    have s2 : ct'.state.probabilities.shape = c0'.state.probabilities.shape :=
      (C14_types_invariant (s := c0'.state) hwf' _ e2).2.2.1
    refine ⟨fun b q hq => ?_, fun b p hp => ?_⟩
    · obtain ⟨q0, hq0⟩ := Controller.at?_some_of_shape (b := c0'.state.probabilities) s2.symm hq
      exact Controller.at?_some_of_shape (b := ct.state.probabilities) s1 ((hsame b).prob.trans hq0)
    obtain ⟨p0, hp0⟩ := Controller.at?_some_of_shape (b := c0.state.probabilities) s1.symm hp
    exact C55_halting_ignores_data (s := c0.state) (t := c0'.state) hwf hwf' hp0 (hsame b) (loopCalls_steps hh t) e1 e2
  have all : ∀ {t : Nat} {ct ct' : Controller α},
      run c0 (loopCalls (fun s => (rounds s).ops) next s0 t) = .ok ct →
      run c0' (loopCalls (fun s => (rounds' s).ops) next' s0' t) = .ok ct' → (AllHalted ct ↔ AllHalted ct') := by
    intro t ct ct' e1 e2
    obtain ⟨hs, hk⟩ := key t e1 e2
    constructor
    · intro ha b x hx
      obtain ⟨q, hq, -⟩ := (halted_iff (s := ct'.state) (run_wf (s := c0'.state) hwf' e2).floating).1 hx
      obtain ⟨p, hp⟩ := hs b q hq
      exact ha b x ((hk b p hp).2.trans hx)
    · intro ha b x hx
      obtain ⟨q, hq, -⟩ := (halted_iff (s := ct.state) (run_wf (s := c0.state) hwf e1).floating).1 hx
      exact ha b x ((hk b q hq).2.symm.trans hx)
  obtain rfl : k = k' := by
    rcases Nat.lt_trichotomy k k' with hlt | rfl | hlt
    · obtain ⟨ct, g1, g2⟩ := j6 k hlt
      rcases k5 with k5 | k5
      · exact absurd ((all k3 g1).1 ((allHalted_same k4).1 k5)) g2
      · omega
    · rfl
    · obtain ⟨ct, g1, g2⟩ := k6 k' hlt
      rcases j5 with j5 | j5
      · exact absurd ((all g1 j3).2 ((allHalted_same j4).1 j5)) g2
      · omega
  refine ⟨k, k1, k2, j2, ⟨e, k3, k4, k2', wfrun hwf hd hops k3⟩, ⟨e', j3, j4, j2', wfrun hwf' hd' hops' j3⟩,
    fun b p hp => ?_⟩
  have hp' : e.state.probabilities.at? b = some p := by rw [← k4.probabilities]; exact hp
  obtain ⟨r1, r2⟩ := (key k k3 j3).2 b p hp'
  refine ⟨⟨?_, ?_, ?_, ?_, ?_, ?_, ?_⟩, ?_⟩
  · rw [k4.epsilon, j4.epsilon, r1.epsilon]
  · rw [k4.depression_constant, j4.depression_constant, r1.depression]
  · rw [k4.probabilities, j4.probabilities, r1.pdtype]
  · rw [k4.iterations, j4.iterations, r1.idtype]
  · rw [k4.probabilities, j4.probabilities, r1.prob]
  · rw [k4.residuals, j4.residuals, r1.resid]
  · rw [k4.iterations, j4.iterations, r1.iter]
  · have : ∀ {c d : Controller α}, c.state.Same d.state → c.haltedBatches = d.haltedBatches := by
      intro c d hs
      unfold Controller.haltedBatches Controller.haltThreshold Controller.probabilities
      rw [hs.probabilities, hs.epsilon]
    rw [this k4, this j4, r2]

end Loop

section Readout
variable {K : Type} [Field K] [LinearOrder K] [IsStrictOrderedRing K]
attribute [local instance] Arith.exact

/-- C111.  In exact arithmetic, the second layer gives an affine readout of its updates where the first gives the
updates themselves, the halting probabilities are the same, and the elements and accumulators are fresh.  Then
`execute_act` returns, for an element that is halted, the readout of what it returns for the first layer; for an
element that is not, the bias counts as often as probability was spent. -/
theorem C111_readout {ι : Type} [Fintype ι] (R : Readout ι K) (make make' : PyTree (Leaf K) → K → Res (Made K))
    (rounds rounds' : PyTree (Leaf K) → Round K) (next next' : PyTree (Leaf K) → PyTree (Leaf K))
    (s0 s0' : PyTree (Leaf K)) (dep dep' : K) (max : Int) (check check' : Bool) {c0 c0' : Controller K}
    (hmake : make s0 dep = .ok (.ctrl c0)) (hmake' : make' s0' dep' = .ok (.ctrl c0'))
    (hwf : c0.state.WF) (hwf' : c0'.state.WF) (hd : c0.state.DictsWF) (hd' : c0'.state.DictsWF)
    (hops : ∀ t, ∀ nu ∈ (rounds (loopStates next s0 t)).updates, nu.2.WF)
    (hops' : ∀ t, ∀ nu ∈ (rounds' (loopStates next' s0' t)).updates, nu.2.WF)
    (hsame : ∀ b, SameBookkeeping b c0.state c0'.state)
    (hh : ∀ t, (rounds' (loopStates next' s0' t)).halting = (rounds (loopStates next s0 t)).halting)
    (he0 : 0 < c0.state.epsilon) (he1 : c0.state.epsilon ≤ 1) (hdep : 0 ≤ c0.state.depression_constant)
    {b : List Nat} (hidx : ∀ j, (R.idx j).take c0.state.probabilities.shape.length = b)
    (hout : R.outIdx.take c0'.state.probabilities.shape.length = b) (hp : c0.state.probabilities.at? b = some 0)
    (ha : R.Reads c0.state.accumulators fun _ => 0) (ha' : R.out? c0'.state.accumulators = some 0)
    (hdf : R.Reads c0.state.defaults fun _ => 0) (hdf' : R.out? c0'.state.defaults = some 0)
    (hu : ∀ t, ∃ u, R.Reads (rounds (loopStates next s0 t)).updates u ∧
      R.out? (rounds' (loopStates next' s0' t)).updates = some (∑ j, R.coeff j * u j + R.bias))
    {c c' : Controller K} {s s' : PyTree (Leaf K)}
    (hr : (callLayer make (fun s => (rounds s).ops) next).ExecuteAct s0 dep max check (.ok (c, s)))
    (hr' : (callLayer make' (fun s => (rounds' s).ops) next').ExecuteAct s0' dep' max check' (.ok (c', s'))) :
    c.haltedBatches.at? b = c'.haltedBatches.at? b ∧ ∃ p x, c.probabilities.at? b = some p ∧
      R.Reads c.accumulators x ∧ R.out? c'.accumulators = some (∑ j, R.coeff j * x j + p * R.bias) ∧
      (c.haltedBatches.at? b = some true →
        R.out? c'.accumulators = some (∑ j, R.coeff j * x j + R.bias)) := by
  obtain ⟨k, -, -, -, ⟨e, k1, k2, k3, k4⟩, ⟨e', j1, j2, j3, j4⟩, hb⟩ := C111_same_loop make make' rounds rounds' next next'
    s0 s0' dep dep' max check check' hmake hmake' hwf hwf' hd hd' hops hops' hsame hh hr hr'
  have calls : ∀ (rounds : PyTree (Leaf K) → Round K) next s0 t, loopCalls (fun s => (rounds s).ops) next s0 t =
      turnOps ((List.range t).map fun j => ⟨rounds (loopStates next s0 j), false⟩) := by
    intro rounds next s0 t
    simp only [loopCalls, turnOps, List.flatMap_map, Turn.ops, Bool.false_eq_true, if_false, List.append_nil]
  have hsum : (∑ j, R.coeff j * (0 : K)) = 0 := by simp
  have hhalt : ∀ j < k, ∃ h, (rounds (loopStates next s0 j)).halting.at? b = some h := by
    intro j hj
    obtain ⟨m, rfl⟩ := Nat.exists_eq_add_of_lt hj
    have e1 : loopCalls (fun s => (rounds s).ops) next s0 (j + m + 1) =
        loopCalls (fun s => (rounds s).ops) next s0 j ++ ((rounds (loopStates next s0 j)).ops ++
          (List.range m).flatMap fun t => (rounds (loopStates next s0 (j + 1 + t))).ops) := by
      unfold loopCalls
      rw [show j + m + 1 = j + (m + 1) by omega, List.range_add, List.flatMap_append, List.flatMap_map,
        List.range_succ_eq_map, List.flatMap_cons, List.flatMap_map]
      simp only [Nat.add_zero, Nat.succ_eq_add_one, Nat.add_assoc, Nat.add_comm 1]
    rw [e1, run_append, bind_ok] at k1
    obtain ⟨⟨s1⟩, f1, f2⟩ := k1
    rw [run_append, bind_ok] at f2
    obtain ⟨⟨s2⟩, f2, -⟩ := f2
    have w1 : s1.WF := run_wf (s := c0.state) hwf f1
    obtain ⟨U, wU, st, -⟩ := round_ok_get w1 f2
    have hsh : s1.probabilities.shape = c0.state.probabilities.shape :=
      (C14_types_invariant (s := c0.state) hwf _ f1).2.2.1
    obtain ⟨p1, hp1⟩ := Controller.at?_some_of_shape (b := s1.probabilities) hsh hp
    obtain ⟨-, -, y, -, -, e3, -⟩ := st.cellAt wU (b := b) (p := p1) hp1
    exact ⟨y, e3⟩
  rw [calls] at k1 j1
  obtain ⟨p, x, g1, -, g3, g4, g5⟩ := C106_readout R hwf hwf' he0 he1 hdep (hsame b).epsilon.symm
    (hsame b).depression.symm hidx hout hp ((hsame b).prob.symm.trans hp) ha (by rw [hsum]; exact ha') hdf
    (by rw [hsum]; exact hdf') (ts := (List.range k).map fun j => ⟨rounds (loopStates next s0 j), false⟩)
    (ts' := (List.range k).map fun j => ⟨rounds' (loopStates next' s0' j), false⟩) (by
      rw [List.forall₂_map_left_iff, List.forall₂_map_right_iff, List.forall₂_same]
      intro j hj
      obtain ⟨h, e1⟩ := hhalt j (List.mem_range.1 hj)
      obtain ⟨u, e2, e3⟩ := hu j
      refine ⟨rfl, ⟨h, e1, (congrArg (fun t : Tensor K => t.at? b) (hh j)).trans e1⟩, u, e2, ?_⟩
      rw [e3]
      unfold Readout.value
      rw [one_mul]) k1 j1
  have q1 : c.probabilities.at? b = some p := by
    show c.state.probabilities.at? b = some p
    rw [k2.probabilities]; exact g1
  have q2 : ∀ n l i, entry? c.state.accumulators n l i = entry? e.state.accumulators n l i :=
    fun n l i => entry?_same k3.accumulators k4.accumulators k2.accumulators n l i
  have q3 : ∀ n l i, entry? c'.state.accumulators n l i = entry? e'.state.accumulators n l i :=
    fun n l i => entry?_same j3.accumulators j4.accumulators j2.accumulators n l i
  have q4 : R.out? c'.accumulators = R.out? e'.accumulators := q3 _ _ _
  refine ⟨(hb b p q1).2, p, x, q1, fun j => (q2 _ _ _).trans (g3 j), q4.trans g4, fun hc => q4.trans (g5 ?_)⟩
  rw [← hc]
  unfold Controller.haltedBatches Controller.haltThreshold Controller.probabilities
  rw [k2.probabilities, k2.epsilon]

section Example
open Fixtures

/-- A round that uses the user state for halting and gives `g` of it as the update. -/
private def viewRound (g : ℚ → ℚ) : PyTree (Leaf ℚ) → Round ℚ
  | .leaf (.tensor t) => ⟨[("out", bare (col (g ((t.at? [0]).getD 0)) (g ((t.at? [1]).getD 0))))], t⟩
  | _ => ⟨[], vec []⟩

private def viewNext : PyTree (Leaf ℚ) → PyTree (Leaf ℚ)
  | .leaf (.tensor t) => bare (vec [((t.at? [0]).getD 0 + 1) / 2, ((t.at? [1]).getD 0 + 1) / 2])
  | s => s

private def viewLayer (g : ℚ → ℚ) : Layer ℚ :=
  callLayer (fun _ _ => .ok (.ctrl ⟨simple⟩)) (fun s => (viewRound g s).ops) viewNext

private def viewReadout : Readout Unit ℚ where
  name _ := "out"
  leaf _ := 0
  idx _ := [0, 0]
  coeff _ := 2
  bias := 5
  outName := "out"
  outLeaf := 0
  outIdx := [0, 0]

private theorem view_ok (g : ℚ → ℚ) (max : Int) (check : Bool)
    (hok : succeeds (run ⟨simple⟩ (viewRound g (bare (vec [1/4, 1/2]))).ops) = true) :
    ∃ c s, (viewLayer g).ExecuteAct (bare (vec [1/4, 1/2])) 1 max check (.ok (c, s)) := by
  cases hr : run ⟨simple⟩ (viewRound g (bare (vec [1/4, 1/2]))).ops with
  | error e => rw [hr] at hok; cases hok
  | ok c1 =>
    have leaf : ∀ s, TreesAlike (bare (vec [1/4, 1/2])) s →
        ∃ t : Tensor ℚ, s = .leaf (.tensor t) ∧ t.shape = [2] ∧ t.dtype = .f32 := by
      intro s hs
      obtain ⟨l, rfl⟩ := hs.leaf_iff.1 ⟨_, rfl⟩
      have h2 := hs.2
      simp only [bare, PyTree.treeLeaves, PyTree.canon, PyTree.leaves, List.map_cons, List.map_nil, List.cons.injEq,
        and_true] at h2
      obtain ⟨t, rfl, h3, h4⟩ := Leaf.type_some.1 h2.symm
      exact ⟨t, rfl, h3, h4⟩
    refine C50_execute_act_succeeds _ (viewRound g) viewNext check ⟨simple⟩ c1 _ 1 max rfl simple_wf rfl
      (by simp [simple]) simple_idle (vec_tensors _) ⟨fun s hs => ?_, fun s hs => ?_⟩ hr
    · obtain ⟨t, rfl, h3, h4⟩ := leaf s hs
      exact .cons (.cache _ ⟨rfl, rfl⟩) (.cons (.iterate ⟨h3.symm, h4.symm⟩) .nil)
    · obtain ⟨t, rfl, h3, h4⟩ := leaf s hs
      exact ⟨rfl, rfl⟩

private theorem view_states : ∀ t, ∃ x y, loopStates viewNext (bare (vec [1/4, 1/2])) t = bare (vec [x, y])
  | 0 => ⟨_, _, rfl⟩
  | t + 1 => by
    obtain ⟨x, y, h⟩ := view_states t
    refine ⟨(x + 1) / 2, (y + 1) / 2, ?_⟩
    show (viewNext (loopStates viewNext (bare (vec [1/4, 1/2])) t)).canon = _
    rw [h]
    rfl

/-- One layer accumulates four times its halting probability, the other one twice that plus five.  Both make three
iterations; the first element gets `X` and `2 * X + 5`. -/
theorem C111_example : ∃ c s c' s',
    (viewLayer fun x => 4 * x).ExecuteAct (bare (vec [1/4, 1/2])) 1 9 true (.ok (c, s)) ∧
    (viewLayer fun x => 8 * x + 5).ExecuteAct (bare (vec [1/4, 1/2])) 1 9 false (.ok (c', s')) ∧
    (c.iterations.at? [0], c.iterations.at? [1], entry? c.accumulators "out" 0 [0, 0]) = (some 3, some 2, some (71/32)) ∧
    entry? c'.accumulators "out" 0 [0, 0] = some (2 * (71/32) + 5) := by
  have f1 : (whileFuel isActNotComplete (fun x => ((viewLayer fun x => 4 * x).adapter true x).map Carry.rebuild) 9
      (Carry.rebuild ⟨⟨simple⟩, bare (vec [1/4, 1/2]), ⟨0, 9⟩⟩)).map (fun z =>
        ([z.controller.iterations.at? [0], z.controller.iterations.at? [1],
          entry? z.controller.accumulators "out" 0 [0, 0]], z.controller.haltedBatches.at? [0])) =
      some ([some 3, some 2, some (71/32)], some true) := by decide +kernel
  obtain ⟨z, hz, o1⟩ := Option.map_eq_some_iff.1 f1
  have e1 := execute_of_fuel (view_ok (fun x => 4 * x) 9 true (by decide +kernel)) rfl hz
  obtain ⟨c', s', e2⟩ := view_ok (fun x => 8 * x + 5) 9 false (by decide +kernel)
  have hops : ∀ (g : ℚ → ℚ) s t, ∀ nu ∈ (viewRound g (loopStates viewNext s t)).updates, nu.2.WF := by
    intro g s t nu hn
    unfold viewRound at hn
    split at hn
    · rw [List.mem_singleton.1 hn]; trivial
    · cases hn
  simp only [Prod.mk.injEq, List.cons.injEq, and_true] at o1
  obtain ⟨⟨o1, o2, o3⟩, o4⟩ := o1
  refine ⟨_, _, c', s', e1, e2, by rw [← o1, ← o2, ← o3], ?_⟩
  obtain ⟨-, p, x, -, h1, -, h2⟩ := C111_readout viewReadout (fun _ _ => .ok (.ctrl ⟨simple⟩))
    (fun _ _ => .ok (.ctrl ⟨simple⟩)) (viewRound fun x => 4 * x) (viewRound fun x => 8 * x + 5) viewNext viewNext
    (bare (vec [1/4, 1/2])) (bare (vec [1/4, 1/2])) 1 1 9 true false (c0 := ⟨simple⟩) (c0' := ⟨simple⟩) rfl rfl
    simple_wf simple_wf simple_dictsWF simple_dictsWF (hops _ _) (hops _ _)
    (fun b => ⟨rfl, rfl, rfl, rfl, rfl, rfl, rfl⟩)
    (fun t => by obtain ⟨x, y, h⟩ := view_states t; rw [h]; rfl) (by norm_num [simple, fresh])
    (by norm_num [simple, fresh]) (by norm_num [simple, fresh]) (b := [0]) (fun _ => rfl) rfl (by decide +kernel)
    (fun () => by decide +kernel) (by decide +kernel) (fun () => by decide +kernel) (by decide +kernel)
    (fun t => by
      obtain ⟨x, y, h⟩ := view_states t
      rw [h]
      refine ⟨fun _ => 4 * x, fun () => rfl, ?_⟩
      show some (8 * x + 5) = some _
      congr 1
      simp [viewReadout]
      ring) e1 e2
  have h3 := h1 ()
  have h3 : entry? z.controller.accumulators "out" 0 [0, 0] = some (x ()) := h3
  rw [o3] at h3
  have h4 := h2 o4
  have h4 : entry? c'.accumulators "out" 0 [0, 0] = _ := h4
  have h5 := Option.some.inj h3
  rw [h4]
  simp [viewReadout, ← h5]

end Example

end Readout

end JaxAct
