import Verif.Props.C61
import Verif.Props.C78
import Verif.Props.C79

/-!
# C82 The gradients of execute_act in closed form

C61 and C78 together: what forward-mode differentiation of a whole `execute_act` call returns.
-/

namespace JaxAct
open ACTStates
variable {K : Type} [Field K] [LinearOrder K] [IsStrictOrderedRing K]
attribute [local instance] Arith.exact Arith.dual

/-- C82.  A layer that in each iteration caches an update per accumulator and then iterates, run by
`execute_act` from a fresh controller on numbers that carry tangents.  `h` and `u` are the halting
probabilities and update entries the layer supplies, `dh` and `du` their tangents, whatever the layer
computes them from (the earlier iterations included).  After some number `k` of iterations, which no tangent
influences, the tangents of the returned controller are the derivatives of Graves' paper: the counter has
none, the residual loses the demands of the steps before the last one, and an accumulator entry has the
weighted sum of the tangents of its updates, plus, for every step before the last one, the tangent of its
demand times the difference of its update and the last one. -/
theorem C82_gradients_of_execute_act (make : PyTree (Leaf (Dual K)) → Dual K → Res (Made (Dual K)))
    (rounds : PyTree (Leaf (Dual K)) → Round (Dual K))
    (next : PyTree (Leaf (Dual K)) → PyTree (Leaf (Dual K))) (s0 : PyTree (Leaf (Dual K)))
    (D : Dual K) (max : Int) (check : Bool) {c0 : Controller (Dual K)}
    (hmake : make s0 D = .ok (.ctrl c0)) (hwf : c0.state.WF) (hdw : c0.state.DictsWF)
    (hops : ∀ t, ∀ nu ∈ (rounds (loopStates next s0 t)).updates, nu.2.WF) {eps dep : K}
    (he : c0.state.epsilon = ⟨eps, 0⟩) (hd : c0.state.depression_constant = ⟨dep, 0⟩)
    (he0 : 0 < eps) (he1 : eps ≤ 1) (hdep : 0 ≤ dep)
    (hfresh : ∀ b p, c0.probabilities.at? b = some p → p = ⟨0, 0⟩ ∧
      c0.residuals.at? b = some ⟨0, 0⟩ ∧ c0.iterations.at? b = some ⟨0, 0⟩)
    {c : Controller (Dual K)} {s : PyTree (Leaf (Dual K))}
    (hr : (callLayer make (fun s => (rounds s).ops) next).ExecuteAct s0 D max check (.ok (c, s)))
    (h dh : List Nat → Nat → K) :
    ∃ k : Nat, k ≤ max.toNat ∧ s = loopStates next s0 k ∧
      ((∀ t < k, ∀ b p, c0.probabilities.at? b = some p →
          (rounds (loopStates next s0 t)).halting.at? b = some ⟨h b t, dh b t⟩) →
        (∀ b p, c0.probabilities.at? b = some p →
          c.iterations.at? b = some ⟨(Graves.steps eps dep (h b) k : K), 0⟩ ∧
          c.residuals.at? b =
            some ⟨Graves.remainder eps dep (h b) k, Graves.dremainder eps dep (h b) (dh b) k⟩) ∧
        (∀ name l i a0 da0 (u du : Nat → K), entry? c0.accumulators name l i = some ⟨a0, da0⟩ →
          (∀ t < k, entry? (rounds (loopStates next s0 t)).updates name l i = some ⟨u t, du t⟩) →
          entry? c.accumulators name l i = some
            ⟨a0 + ∑ t ∈ Finset.range k,
                Graves.weight eps dep (h (i.take c0.probabilities.shape.length)) t * u t,
              da0 + Graves.doutput eps dep (h (i.take c0.probabilities.shape.length))
                (dh (i.take c0.probabilities.shape.length)) u du k⟩) ∧
        ((∀ b p, c0.probabilities.at? b = some p → Graves.Crossed eps dep (h b) k) ∨ max ≤ k) ∧
        ∀ t < k, ∃ b p, c0.probabilities.at? b = some p ∧ ¬ Graves.Crossed eps dep (h b) t) := by
  have hops' : ∀ t, ∀ op ∈ (rounds (loopStates next s0 t)).ops, op.DictsWF := by
    intro t op ho
    unfold Round.ops at ho
    rcases List.mem_append.1 ho with ho | ho
    · obtain ⟨nu, hm, rfl⟩ := List.mem_map.1 ho
      exact hops t nu hm
    · rw [List.mem_singleton.1 ho]; trivial
  obtain ⟨k, h1, h2, -, wd, ⟨c', h3, h4⟩, h5, h6⟩ := C61_loop_is_history make
    (fun s => (rounds s).ops) next s0 D max check hmake hwf hdw hops' hr
  refine ⟨k, h1, h2, fun hh => ?_⟩
  -- the calls as rounds
  let rs : Nat → List (Round (Dual K)) :=
    fun t => (List.range t).map fun j => rounds (loopStates next s0 j)
  have hrs : ∀ t, loopCalls (fun s => (rounds s).ops) next s0 t = roundOps (rs t) := by
    intro t
    simp only [loopCalls, roundOps, rs, List.flatMap_map]
  have hlen : ∀ t, (rs t).length = t := by intro t; simp [rs]
  have hget : ∀ t j r, (rs t)[j]? = some r → j < t ∧ r = rounds (loopStates next s0 j) := by
    intro t j r hj
    simp only [rs, List.getElem?_map, Option.map_eq_some_iff] at hj
    obtain ⟨a, ha, rfl⟩ := hj
    obtain ⟨hlt, e⟩ := List.getElem?_eq_some_iff.1 ha
    rw [List.getElem_range] at e
    subst e
    exact ⟨by simpa using hlt, rfl⟩
  have book : ∀ t ≤ k, ∀ ct, run c0 (loopCalls (fun s => (rounds s).ops) next s0 t) = .ok ct →
      ∀ b p, c0.probabilities.at? b = some p →
      (∃ q, ct.probabilities.at? b = some q) ∧
      ct.iterations.at? b = some ⟨(Graves.steps eps dep (h b) t : K), 0⟩ ∧
      ct.residuals.at? b =
        some ⟨Graves.remainder eps dep (h b) t, Graves.dremainder eps dep (h b) (dh b) t⟩ ∧
      (ct.haltedBatches.at? b = some true ↔ Graves.Crossed eps dep (h b) t) := by
    intro t ht ct hct b p hb
    rw [hrs] at hct
    obtain ⟨rfl, f2, f3⟩ := hfresh b p hb
    obtain ⟨k1, k2⟩ := C78_bookkeeping (s := c0.state) hwf he hd he0 he1 hdep (rs t) hct (h b) (dh b)
      hb f2 f3 (fun j r hj => by
        obtain ⟨a1, rfl⟩ := hget t j r hj
        exact hh j (by omega) b _ hb)
    rw [hlen] at k2
    exact ⟨⟨_, k1⟩, k2⟩
  have all : ∀ t ≤ k, ∀ ct, run c0 (loopCalls (fun s => (rounds s).ops) next s0 t) = .ok ct →
      (AllHalted ct ↔ ∀ b p, c0.probabilities.at? b = some p → Graves.Crossed eps dep (h b) t) := by
    intro t ht ct hct
    have hw : ct.state.WF := run_wf (s := c0.state) hwf hct
    constructor
    · intro ha b p hb
      obtain ⟨⟨q, q1⟩, -, -, q2⟩ := book t ht ct hct b p hb
      obtain ⟨x, hx⟩ : ∃ x, ct.haltedBatches.at? b = some x :=
        ⟨_, (halted_iff (s := ct.state) hw.floating).2 ⟨_, q1, rfl⟩⟩
      rw [← q2, hx, ha b x hx]
    · intro ha b x hx
      obtain ⟨q, hq, -⟩ := (halted_iff (s := ct.state) hw.floating).1 hx
      have hsh : c0.probabilities.shape = ct.state.probabilities.shape :=
        (C14_types_invariant (s := c0.state) hwf _ hct).2.2.1.symm
      obtain ⟨p, hp⟩ := Controller.at?_some_of_shape (b := c0.probabilities) hsh hq
      have := (book t ht ct hct b p hp).2.2.2.2 (ha b p hp)
      rw [this] at hx
      exact (Option.some.inj hx).symm
  refine ⟨fun b p hb => ?_, fun name l i a0 da0 u du ha hu => ?_, ?_, fun t ht => ?_⟩
  · obtain ⟨-, k1, k2, -⟩ := book k le_rfl c' h3 b p hb
    unfold Controller.iterations Controller.residuals at *
    rw [h4.iterations, h4.residuals]
    exact ⟨k1, k2⟩
  · obtain ⟨p, hb⟩ := hwf.prob_of_entry ha
    obtain ⟨rfl, f2, f3⟩ := hfresh _ p hb
    have h3' := h3
    rw [hrs] at h3'
    have := (C78_gradients (s := c0.state) hwf he hd he0 he1 hdep (rs k) h3' u du _ _ hb f2 f3 ha
      (fun j r hj => by
        obtain ⟨a1, rfl⟩ := hget k j r hj
        exact hu j a1)
      (fun j r hj => by
        obtain ⟨a1, rfl⟩ := hget k j r hj
        exact hh j a1 _ _ hb)).2.2
    rw [hlen] at this
    refine Eq.trans ?_ this
    exact entry?_same wd.accumulators (run_dictsWF (s := c0.state) hwf hdw (fun op ho => by
      obtain ⟨j, -, hj⟩ := List.mem_flatMap.1 ho
      exact hops' j op hj) h3).accumulators
      h4.accumulators name l i
  · rcases h5 with h5 | h5
    · exact .inl ((all k le_rfl c' h3).1 ((allHalted_same h4).1 h5))
    · exact .inr h5
  · obtain ⟨ct, g1, g2⟩ := h6 t ht
    by_contra hcon
    push Not at hcon
    exact g2 ((all t (by omega) ct g1).2 hcon)

section Example
open OneElement

theorem OneElement.at_zero {α : Type} {x p : α} {b : List Nat} (h : (one x).at? b = some p) :
    b = [0] ∧ p = x := by
  have hi : InB [1] b := Arr.at?_isSome.1 (by simp only [Tensor.at?] at h; rw [h]; rfl)
  cases hi with
  | cons hk hr =>
    rename_i k js
    cases hr
    match k, hk with
    | 0, _ => exact ⟨rfl, (Option.some.inj h).symm⟩

theorem OneElement.start_dictsWF {α : Type} (eps z o : α) : (start eps z o).DictsWF := by
  have h : DictWF (start eps z o).accumulators := by
    refine ⟨(start_wf eps z o).acc_keys, fun n t h => ?_⟩
    rw [(Fixtures.get?_one h).2]; trivial
  refine ⟨h, h, (start_wf eps z o).upd_keys, fun n t h => ?_⟩
  rw [(Fixtures.get?_one h).2]; trivial

theorem OneElement.loop_states {α : Type} (x : α) (t : Nat) :
    loopStates id (tree x) t = tree x := by
  induction t with
  | zero => rfl
  | succ t ih => unfold loopStates; rw [ih]; rfl

/-- The layer of C79, whose halting probability and update are both the parameter, meets the hypotheses for
every parameter `x` of every ordered field. -/
example (x : K) (max : Int) (check : Bool) : ∃ C T,
    (loop (⟨1 / 10, 0⟩ : Dual K) ⟨0, 0⟩).ExecuteAct (tree ⟨x, 1⟩) ⟨1, 0⟩ max check (.ok (C, T)) ∧
    ∃ k : Nat, k ≤ max.toNat ∧
      C.residuals.at? [0] = some ⟨Graves.remainder (1 / 10) 1 (fun _ => x) k,
        Graves.dremainder (1 / 10) 1 (fun _ => x) (fun _ => 1) k⟩ ∧
      entry? C.accumulators "out" 0 [0] = some
        ⟨0 + ∑ t ∈ Finset.range k, Graves.weight (1 / 10) 1 (fun _ => x) t * x,
          0 + Graves.doutput (1 / 10) 1 (fun _ => x) (fun _ => 1) (fun _ => x) (fun _ => 1) k⟩ := by
  obtain ⟨C, T, h⟩ := loop_ok (⟨1 / 10, 0⟩ : Dual K) ⟨0, 0⟩ ⟨1, 0⟩ ⟨x, 1⟩ max check
  have hz : (one (⟨0, 0⟩ : Dual K)).at? [0] = some ⟨0, 0⟩ := rfl
  obtain ⟨k, h1, -, h3⟩ := C82_gradients_of_execute_act
    (fun _ d => .ok (.ctrl ⟨start (⟨1 / 10, 0⟩ : Dual K) ⟨0, 0⟩ d⟩)) (round ⟨0, 0⟩) id (tree ⟨x, 1⟩)
    ⟨1, 0⟩ max check (c0 := ⟨start ⟨1 / 10, 0⟩ ⟨0, 0⟩ ⟨1, 0⟩⟩) rfl (start_wf ..) (start_dictsWF ..)
    (by
      intro t nu hnu
      rw [loop_states] at hnu
      rw [List.mem_singleton.1 hnu]; trivial)
    (eps := 1 / 10) (dep := 1) rfl rfl (by norm_num) (by norm_num) zero_le_one
    (by
      intro b p hb
      obtain ⟨rfl, rfl⟩ := at_zero hb
      exact ⟨rfl, hz, hz⟩) h (fun _ _ => x) (fun _ _ => 1)
  refine ⟨C, T, h, k, h1, ?_⟩
  obtain ⟨k1, k2, -⟩ := h3 (by
    intro t ht b p hb
    obtain ⟨rfl, rfl⟩ := at_zero hb
    rw [loop_states]
    rfl)
  exact ⟨(k1 [0] _ hz).2, k2 "out" 0 [0] 0 0 (fun _ => x) (fun _ => 1) rfl (by
    intro t ht
    rw [loop_states]
    rfl)⟩

end Example

end JaxAct
