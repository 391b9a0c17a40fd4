import Verif.Props.C04
import Verif.Props.C14
import Verif.Props.C35
import Verif.Props.C50

/-!
# C61 execute_act computes Graves' ACT

The loop, its flattening of the carry and its stopping rule against the plain call history, and with it
against Graves' definition.
-/

namespace JaxAct
open PyTree ACTStates

section AnyArith
variable {α : Type} [Arith α]

/-- The user states of the loop: `next` applied again and again, with every dict in key order. -/
def loopStates (next : PyTree (Leaf α) → PyTree (Leaf α)) (s0 : PyTree (Leaf α)) :
    Nat → PyTree (Leaf α)
  | 0 => s0.canon
  | t + 1 => (next (loopStates next s0 t)).canon

/-- The calls of the first `k` iterations. -/
def loopCalls (calls : PyTree (Leaf α) → List (Op α)) (next : PyTree (Leaf α) → PyTree (Leaf α))
    (s0 : PyTree (Leaf α)) (k : Nat) : List (Op α) :=
  (List.range k).flatMap fun t => calls (loopStates next s0 t)

omit [Arith α] in
theorem dictSame_trans {d e f : Dict (PyTree (Leaf α))} (h : DictSame d e) (h' : DictSame e f) :
    DictSame d f := by
  intro n
  have h1 := h n
  have h2 := h' n
  generalize d.get? n = x at h1 ⊢
  generalize e.get? n = y at h1 h2
  generalize f.get? n = z at h2 ⊢
  cases h1 with
  | none => cases h2; exact .none
  | some h1 => cases h2 with | some h2 => exact .some (h1.trans h2)

omit [Arith α] in
theorem ACTStates.Same.trans {s t u : ACTStates α} (h : s.Same t) (h' : t.Same u) : s.Same u :=
  ⟨h.1.trans h'.1, h.2.trans h'.2, h.3.trans h'.3, h.4.trans h'.4, h.5.trans h'.5, h.6.trans h'.6,
    dictSame_trans h.7 h'.7, dictSame_trans h.8 h'.8, dictSame_trans h.9 h'.9⟩

theorem allHalted_same {c c' : Controller α} (h : c.state.Same c'.state) :
    AllHalted c ↔ AllHalted c' := by
  unfold AllHalted Controller.haltedBatches Controller.haltThreshold Controller.probabilities
  rw [h.probabilities, h.epsilon]

omit [Arith α] in
theorem opSame_refl {op : Op α} (h : op.DictsWF) : OpSame op op := by
  cases op with
  | cache n t => exact .cache n h h fun _ => rfl
  | iterate g => exact .iterate g
  | reset => exact .reset

theorem callLayer_runs {make : PyTree (Leaf α) → α → Res (Made α)}
    {calls : PyTree (Leaf α) → List (Op α)} {next : PyTree (Leaf α) → PyTree (Leaf α)}
    {x y : LoopState α} (h : (callLayer make calls next).Runs x y) :
    run x.controller (calls x.state) = .ok y.controller ∧ y.state = next x.state := by
  obtain ⟨ret, first, h1, h2, h3⟩ := h
  simp only [callLayer, bind_ok] at h1
  obtain ⟨c', h4, h5⟩ := h1
  cases h5
  rcases h2 with h2 | h2
  · simp only [Ret.tuple.injEq, List.cons.injEq, and_true, Item.value.injEq] at h2
    obtain ⟨rfl, h6⟩ := h2
    rcases h3 with h3 | ⟨h3, -⟩
    · cases h3; exact ⟨h4, h6.symm⟩
    · cases h3
  · cases h2

/-- C61, any arithmetic.  Let the iteration of a layer make some controller calls, chosen from the user
state, and compute the next user state.  If `execute_act` returns, then for some number `k` of
iterations, at most `max_iterations`, the returned user state is the `k`-th one, and the returned
controller is what the calls of the first `k` iterations, made one after the other outside of any loop,
give (and well formed); `k` is the first number for which all batch elements are halted, or `max_iterations`. -/
theorem C61_loop_is_history (make : PyTree (Leaf α) → α → Res (Made α))
    (calls : PyTree (Leaf α) → List (Op α)) (next : PyTree (Leaf α) → PyTree (Leaf α))
    (s0 : PyTree (Leaf α)) (dep : α) (max : Int) (check : Bool) {c0 : Controller α}
    (hmake : make s0 dep = .ok (.ctrl c0)) (hwf : c0.state.WF) (hd : c0.state.DictsWF)
    (hops : ∀ t, ∀ op ∈ calls (loopStates next s0 t), op.DictsWF) {c : Controller α}
    {s : PyTree (Leaf α)}
    (h : (callLayer make calls next).ExecuteAct s0 dep max check (.ok (c, s))) :
    ∃ k : Nat, k ≤ max.toNat ∧ s = loopStates next s0 k ∧ c.state.WF ∧ c.state.DictsWF ∧
      (∃ c', run c0 (loopCalls calls next s0 k) = .ok c' ∧ c.state.Same c'.state) ∧
      (AllHalted c ∨ max ≤ k) ∧
      ∀ t < k, ∃ ct, run c0 (loopCalls calls next s0 t) = .ok ct ∧ ¬ AllHalted ct := by
  obtain ⟨c0', k, h1, hk, ⟨traj, t0, tk, tstep⟩, hstop⟩ := C20_result _ _ _ _ _ _ _ h
  have h1 : make s0 dep = .ok (.ctrl c0') := h1
  rw [hmake] at h1
  cases h1
  have key : ∀ t ≤ k, (traj t).state = loopStates next s0 t ∧
      (traj t).controller.state.WF ∧ (traj t).controller.state.DictsWF ∧
      ∃ ct, run c0 (loopCalls calls next s0 t) = .ok ct ∧ (traj t).controller.state.Same ct.state ∧
        ct.state.WF ∧ ct.state.DictsWF := by
    intro t
    induction t with
    | zero =>
      intro _
      rw [t0]
      exact ⟨rfl, hwf.sorted, hd.sorted, c0, rfl, ACTStates.sorted_same hd, hwf, hd⟩
    | succ t ih =>
      intro ht
      obtain ⟨i1, i2, i3, ct, i4, i5, i6, i7⟩ := ih (by omega)
      obtain ⟨-, -, y', hr, hy⟩ := tstep t (by omega)
      obtain ⟨r1, r2⟩ := callLayer_runs hr
      rw [i1] at r1 r2
      have hsame := C35_history i3 i7 i2 i6 i5 (List.forall₂_same.2 fun op ho =>
        opSame_refl (hops t op ho))
      have e1 : (⟨(traj t).controller.state⟩ : Controller α) = (traj t).controller := rfl
      have e2 : (⟨ct.state⟩ : Controller α) = ct := rfl
      rw [e1, e2, r1] at hsame
      cases hct : run ct (calls (loopStates next s0 t)) with
      | error e => rw [hct] at hsame; exact hsame.elim
      | ok cn =>
        rw [hct] at hsame
        have w1 : y'.controller.state.WF := run_wf (s := (traj t).controller.state) i2 r1
        have w2 : y'.controller.state.DictsWF :=
          run_dictsWF (s := (traj t).controller.state) i2 i3 (hops t) r1
        rw [hy]
        refine ⟨?_, w1.sorted, w2.sorted, cn, ?_, (ACTStates.sorted_same w2).trans hsame,
          run_wf (s := ct.state) i6 hct, run_dictsWF (s := ct.state) i6 i7 (hops t) hct⟩
        · show y'.state.canon = _
          rw [r2]; rfl
        · unfold loopCalls
          rw [List.range_succ, List.flatMap_append, run_append]
          have : run c0 ((List.range t).flatMap fun t => calls (loopStates next s0 t)) = .ok ct := i4
          rw [this]
          simp only [List.flatMap_cons, List.flatMap_nil, List.append_nil]
          exact hct
  obtain ⟨f1, f4, f5, cf, f2, f3, -, -⟩ := key k le_rfl
  rw [tk] at f1 f3 f4 f5
  refine ⟨k, hk, f1, f4, f5, ⟨cf, f2, f3⟩, hstop, fun t ht => ?_⟩
  obtain ⟨-, -, -, ct, g1, g2, -, -⟩ := key t (by omega)
  exact ⟨ct, g1, fun hh => (tstep t ht).1 ((allHalted_same g2).2 hh)⟩

omit [Arith α] in
theorem entry?_same {d e : Dict (PyTree (Leaf α))} (hd : DictWF d) (he : DictWF e)
    (h : DictSame d e) (n : String) (k : Nat) (i : List Nat) : entry? d n k i = entry? e n k i := by
  have hn := h n
  have hl : leaf? d n k = leaf? e n k := by
    unfold leaf?
    cases h1 : d.get? n with
    | none => rw [h1] at hn; cases h2 : e.get? n with
      | none => rfl
      | some t => rw [h2] at hn; cases hn
    | some t => rw [h1] at hn; cases h2 : e.get? n with
      | none => rw [h2] at hn; cases hn
      | some u =>
        rw [h2] at hn
        cases hn with
        | some hn =>
          simp only [treeLeaves, canon_eq_of_sameMapping t u (hd.2 n t h1) (he.2 n u h2) hn]
  unfold entry?
  rw [hl]

end AnyArith

section Exact
variable {K : Type} [Field K] [LinearOrder K] [IsStrictOrderedRing K]
attribute [local instance] Arith.exact

/-- C61.  A layer that in each iteration caches an update per accumulator and then iterates, run by
`execute_act` from a fresh controller: after some number `k` of iterations every accumulator entry is
its initial value plus the sum of its updates with Graves' weights, and `k` is the first number of
iterations after which the running sums of all batch elements have exceeded `1 - epsilon`, or
`max_iterations`; the controller is the one after these `k` rounds of calls.  `u` and `h` are the update entries and halting probabilities the layer supplies. -/
theorem C61_execute_act_is_graves (make : PyTree (Leaf K) → K → Res (Made K))
    (rounds : PyTree (Leaf K) → Round K) (next : PyTree (Leaf K) → PyTree (Leaf K))
    (s0 : PyTree (Leaf K)) (dep : K) (max : Int) (check : Bool) {c0 : Controller K}
    (hmake : make s0 dep = .ok (.ctrl c0)) (hwf : c0.state.WF) (hd : c0.state.DictsWF)
    (hops : ∀ t, ∀ nu ∈ (rounds (loopStates next s0 t)).updates, nu.2.WF)
    (he0 : 0 < c0.state.epsilon) (he1 : c0.state.epsilon ≤ 1)
    (hdep : 0 ≤ c0.state.depression_constant)
    (hfresh : ∀ b p, c0.probabilities.at? b = some p → p = 0) {c : Controller K}
    {s : PyTree (Leaf K)} (hr : (callLayer make (fun s => (rounds s).ops) next).ExecuteAct s0 dep max
      check (.ok (c, s))) (h : List Nat → Nat → K) :
    ∃ k : Nat, k ≤ max.toNat ∧ s = loopStates next s0 k ∧
      (∃ c', run c0 (loopCalls (fun s => (rounds s).ops) next s0 k) = .ok c' ∧
        c.state.Same c'.state) ∧
      ((∀ t < k, ∀ b p, c0.probabilities.at? b = some p →
          (rounds (loopStates next s0 t)).halting.at? b = some (h b t)) →
        (∀ b p, c0.probabilities.at? b = some p → c.probabilities.at? b = some
          (∑ t ∈ Finset.range k,
            Graves.weight c0.state.epsilon c0.state.depression_constant (h b) t)) ∧
        (∀ name l i a0 (u : Nat → K), entry? c0.accumulators name l i = some a0 →
          (∀ t < k, entry? (rounds (loopStates next s0 t)).updates name l i = some (u t)) →
          entry? c.accumulators name l i = some (a0 + ∑ t ∈ Finset.range k,
            Graves.weight c0.state.epsilon c0.state.depression_constant
              (h (i.take c0.probabilities.shape.length)) t * u t)) ∧
        ((∀ b p, c0.probabilities.at? b = some p →
          Graves.Crossed c0.state.epsilon c0.state.depression_constant (h b) k) ∨ max ≤ k) ∧
        ∀ t < k, ∃ b p, c0.probabilities.at? b = some p ∧
          ¬ Graves.Crossed c0.state.epsilon c0.state.depression_constant (h b) t) := by
  have hops' : ∀ t, ∀ op ∈ (rounds (loopStates next s0 t)).ops, op.DictsWF := by
    intro t op ho
    unfold Round.ops at ho
    rcases List.mem_append.1 ho with ho | ho
    · obtain ⟨nu, hm, rfl⟩ := List.mem_map.1 ho
      exact hops t nu hm
    · rw [List.mem_singleton.1 ho]; trivial
  obtain ⟨k, h1, h2, -, wd, ⟨c', h3, h4⟩, h5, h6⟩ := C61_loop_is_history make (fun s => (rounds s).ops) next
    s0 dep max check hmake hwf hd hops' hr
  refine ⟨k, h1, h2, ⟨c', h3, h4⟩, fun hh => ?_⟩
  -- the calls as rounds
  let rs : Nat → List (Round K) := fun t => (List.range t).map fun j => rounds (loopStates next s0 j)
  have hrs : ∀ t, loopCalls (fun s => (rounds s).ops) next s0 t = roundOps (rs t) := by
    intro t
    simp only [loopCalls, roundOps, rs, List.flatMap_map]
  have hlen : ∀ t, (rs t).length = t := by intro t; simp [rs]
  have hget : ∀ t j r, (rs t)[j]? = some r → j < t ∧ r = rounds (loopStates next s0 j) := by
    intro t j r hj
    simp only [rs, List.getElem?_map, Option.map_eq_some_iff] at hj
    obtain ⟨a, ha, rfl⟩ := hj
    obtain ⟨hlt, e⟩ := List.getElem?_eq_some_iff.1 ha
    rw [List.getElem_range] at e
    subst e
    exact ⟨by simpa using hlt, rfl⟩
  have crossed : ∀ t ≤ k, ∀ ct, run c0 (loopCalls (fun s => (rounds s).ops) next s0 t) = .ok ct →
      ∀ b p, c0.probabilities.at? b = some p →
      ct.probabilities.at? b = some (∑ j ∈ Finset.range t,
        Graves.weight c0.state.epsilon c0.state.depression_constant (h b) j) ∧
      (ct.haltedBatches.at? b = some true ↔
        Graves.Crossed c0.state.epsilon c0.state.depression_constant (h b) t) := by
    intro t ht ct hct b p hb
    rw [hrs] at hct
    have hp := hfresh b p hb
    subst hp
    have := C04_probability_and_halting (s := c0.state) hwf he0 he1 hdep (rs t) hct (h b) hb
      (fun j r hj => by
        obtain ⟨a1, rfl⟩ := hget t j r hj
        exact hh j (by omega) b 0 hb)
    rwa [hlen] at this
  have all : ∀ t ≤ k, ∀ ct, run c0 (loopCalls (fun s => (rounds s).ops) next s0 t) = .ok ct →
      (AllHalted ct ↔ ∀ b p, c0.probabilities.at? b = some p →
        Graves.Crossed c0.state.epsilon c0.state.depression_constant (h b) t) := by
    intro t ht ct hct
    have hw : ct.state.WF := run_wf (s := c0.state) hwf hct
    constructor
    · intro ha b p hb
      obtain ⟨q1, q2⟩ := crossed t ht ct hct b p hb
      obtain ⟨x, hx⟩ : ∃ x, ct.haltedBatches.at? b = some x :=
        ⟨_, (halted_iff (s := ct.state) hw.floating).2 ⟨_, q1, rfl⟩⟩
      rw [← q2, hx, ha b x hx]
    · intro ha b x hx
      obtain ⟨q, hq, -⟩ := (halted_iff (s := ct.state) hw.floating).1 hx
      have hsh : c0.probabilities.shape = ct.state.probabilities.shape :=
        (C14_types_invariant (s := c0.state) hwf _ hct).2.2.1.symm
      obtain ⟨p, hp⟩ := Controller.at?_some_of_shape (b := c0.probabilities) hsh hq
      have := (crossed t ht ct hct b p hp).2.2 (ha b p hp)
      rw [this] at hx
      exact (Option.some.inj hx).symm
  have w' : c'.state.WF := run_wf (s := c0.state) hwf h3
  refine ⟨fun b p hb => ?_, fun name l i a0 u ha hu => ?_, ?_, fun t ht => ?_⟩
  · have := (crossed k le_rfl c' h3 b p hb).1
    unfold Controller.probabilities at this ⊢
    rw [h4.probabilities]
    exact this
  · have hb : ∃ p, c0.probabilities.at? (i.take c0.probabilities.shape.length) = some p := by
      obtain ⟨p, hp⟩ := hwf.prob_of_entry ha
      exact ⟨p, hp⟩
    obtain ⟨p, hb⟩ := hb
    have hp := hfresh _ p hb
    subst hp
    have h3' := h3
    rw [hrs] at h3'
    have := (C04_graves_weights (s := c0.state) hwf he0 he1 hdep (rs k) h3' u _ hb ha
      (fun j r hj => by
        obtain ⟨a1, rfl⟩ := hget k j r hj
        exact hu j a1)
      (fun j r hj => by
        obtain ⟨a1, rfl⟩ := hget k j r hj
        exact hh j a1 _ _ hb)).1
    rw [hlen] at this
    refine Eq.trans ?_ this
    exact entry?_same wd.accumulators (run_dictsWF (s := c0.state) hwf hd (fun op ho => by
      obtain ⟨j, -, hj⟩ := List.mem_flatMap.1 ho
      exact hops' j op hj) h3).accumulators
      h4.accumulators name l i
  · rcases h5 with h5 | h5
    · exact .inl ((all k le_rfl c' h3).1 ((allHalted_same h4).1 h5))
    · exact .inr h5
  · obtain ⟨ct, g1, g2⟩ := h6 t ht
    by_contra hcon
    push Not at hcon
    exact g2 ((all t (by omega) ct g1).2 hcon)

end Exact

section Example
open Fixtures
attribute [local instance] Arith.exact

theorem simple_dictsWF : simple.DictsWF := by
  have h : DictWF simple.accumulators := by
    refine ⟨simple_wf.acc_keys, fun n t h => ?_⟩
    rw [(get?_one h).2]; trivial
  refine ⟨h, h, simple_wf.upd_keys, fun n t h => ?_⟩
  rw [(get?_one h).2]; trivial

theorem vec_two {x y p : ℚ} {b : List Nat} (h : (vec [x, y]).at? b = some p) :
    (b = [0] ∧ p = x) ∨ (b = [1] ∧ p = y) := by
  have hi : InB [2] b := Arr.at?_isSome.1 (by simp only [Tensor.at?] at h; rw [h]; rfl)
  cases hi with
  | cons hk hr =>
    rename_i k js
    cases hr
    match k, hk with
    | 0, _ => left; exact ⟨rfl, (Option.some.inj h).symm⟩
    | 1, _ => right; exact ⟨rfl, (Option.some.inj h).symm⟩

theorem demo_states (t : Nat) :
    loopStates id (bare (vec [1/2, 2/3])) t = bare (vec [1/2, 2/3]) := by
  induction t with
  | zero => rfl
  | succ t ih => unfold loopStates; rw [ih]; rfl

/-- The layer of C50, with halting probabilities 1/2 and 2/3 and updates 4 and 6 in every iteration,
meets all hypotheses. -/
example (max : Int) (check : Bool) : ∃ c s,
    demoLayer.ExecuteAct (bare (vec [1/2, 2/3])) 1 max check (.ok (c, s)) ∧
    ∃ k : Nat, k ≤ max.toNat ∧ s = bare (vec [1/2, 2/3]) ∧
      entry? c.accumulators "out" 0 [1, 0] = some (0 + ∑ t ∈ Finset.range k,
        Graves.weight (1/10) 1 (fun _ => 2/3) t * 6) := by
  obtain ⟨c, s, h⟩ := demo_executes max check
  obtain ⟨k, h1, h2, -, h3⟩ := C61_execute_act_is_graves _ demoRound id _ 1 max check (c0 := ⟨simple⟩) rfl
    simple_wf simple_dictsWF (by
      intro t nu hnu
      rw [demo_states] at hnu
      rw [List.mem_singleton.1 hnu]; trivial)
    (by decide +kernel) (by decide +kernel) (by decide +kernel) (by
      intro b p hb
      rcases vec_two hb with ⟨-, h⟩ | ⟨-, h⟩ <;> exact h) h
    (fun b _ => if b = [0] then 1/2 else 2/3)
  rw [demo_states] at h2
  refine ⟨c, s, h, k, h1, h2, ?_⟩
  have := (h3 (by
    intro t ht b p hb
    rw [demo_states]
    rcases vec_two hb with ⟨rfl, -⟩ | ⟨rfl, -⟩ <;> decide +kernel)).2.1 "out" 0 [1, 0] 0 (fun _ => 6) (by decide +kernel) (by
      intro t ht
      rw [demo_states]
      decide +kernel)
  exact this

end Example
end JaxAct
