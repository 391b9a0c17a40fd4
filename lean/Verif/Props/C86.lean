import Verif.Props.C65
import Verif.Props.C85

/-!
# C86 execute_act in floating point computes Graves' ACT up to rounding

C61 in arithmetic that rounds: the loop takes its stopping decision from rounded sums.  With C85, if no exact
running sum is too close to `1 - epsilon`, the loop runs for exactly as many iterations as Graves' ACT asks for,
and everything it returns is within a multiple of the rounding unit.
-/

namespace JaxAct
open PyTree ACTStates Fmt

section Theorems
variable {F : DType → Fmt} [A : Arith ℚ]

/-- What C86 says of the controller `c` and the state `s` returned by a loop from `c0`, where `h b t` is the halting
probability of element `b` in iteration `t`.  For some number `k` of iterations, at most `max`:

* `k` is the first number after which the exact running sums of all elements have exceeded `1 - epsilon`, or
  `max`, and `s` is the `k`-th user state;
* every element is halted iff its exact running sum has crossed, and its counter is its exact number of steps (as
  far as the counter's dtype can count);
* its probability is within `e k` units of the sum of Graves' weights, its residual within `e k + 1/2` units of
  Graves' remainder, each accumulator entry that started at 0 within `accBound` plus `(2 e - 1) k M` units of the
  weighted sum of its updates, for updates up to `M`; `e` is 2, and 4 for depression above one. -/
def ApproxGraves (F : DType → Fmt) (c0 : Controller ℚ) (rounds : PyTree (Leaf ℚ) → Round ℚ)
    (next : PyTree (Leaf ℚ) → PyTree (Leaf ℚ)) (s0 : PyTree (Leaf ℚ)) (max : Int) (h : List Nat → Nat → ℚ)
    (c : Controller ℚ) (s : PyTree (Leaf ℚ)) : Prop :=
  let eps := c0.state.epsilon
  let dc := c0.state.depression_constant
  let unit := (2 : ℚ) ^ (-((F c0.state.probabilities.dtype).prec : ℤ))
  let errs := Rounded.errs dc
  ∃ k : Nat, k ≤ max.toNat ∧ s = loopStates next s0 k ∧
    ((∀ b p, c0.probabilities.at? b = some p → Graves.Crossed eps dc (h b) k) ∨ max ≤ k) ∧
    (∀ t < k, ∃ b p, c0.probabilities.at? b = some p ∧ ¬ Graves.Crossed eps dc (h b) t) ∧
    ∀ b p, c0.probabilities.at? b = some p →
      (c.haltedBatches.at? b = some true ↔ Graves.Crossed eps dc (h b) k) ∧
      (∃ p', c.probabilities.at? b = some p' ∧
        |p' - ∑ t ∈ Finset.range k, Graves.weight eps dc (h b) t| ≤ errs * k * unit) ∧
      (c0.residuals.at? b = some 0 → ∃ r, c.residuals.at? b = some r ∧
        |r - Graves.remainder eps dc (h b) k| ≤ errs * k * unit + unit / 2) ∧
      (c0.iterations.at? b = some 0 → (c0.iterations.dtype.isFloating = true →
          (F c0.iterations.dtype).Valid ∧ k ≤ 2 ^ (F c0.iterations.dtype).prec) →
        c.iterations.at? b = some (Graves.steps eps dc (h b) k : ℚ)) ∧
      ∀ name l rest (ta : Tensor ℚ) (u : Nat → ℚ) (M : ℚ), 0 ≤ M →
        leaf? c0.accumulators name l = some (.tensor ta) → ta.at? (b ++ rest) = some 0 →
        (∀ t < k, ∃ (tu : Tensor ℚ) (v : ℚ),
          leaf? (rounds (loopStates next s0 t)).updates name l = some (.tensor tu) ∧
          tu.at? (b ++ rest) = some v ∧
          u t = convS tu.dtype (DType.promote c0.state.probabilities.dtype tu.dtype) v ∧ |u t| ≤ M) →
        ∃ a, entry? c.accumulators name l (b ++ rest) = some a ∧
          |a - ∑ t ∈ Finset.range k, Graves.weight eps dc (h b) t * u t| ≤
            accBound (F c0.state.probabilities.dtype) k M + (2 * errs - 1) * k * unit * M

/-- C86.  A layer that in each iteration caches an update per accumulator and then iterates, run by
`execute_act` in rounding arithmetic from a fresh controller, with depression not negative and a threshold below
one.  `h b t` is the halting probability of element `b` in iteration `t`, as a number of the dtype of the
probabilities.  If no exact running sum up to `max_iterations` is within the margin of `1 - epsilon`, then the
number `k` of iterations is the first after which the exact running sums of all elements have exceeded
`1 - epsilon`, or `max_iterations`, and the results are Graves' up to rounding: `ApproxGraves`. -/
theorem C86_execute_act_rounded (hA : A = Arith.rounded F) (hF64 : (F .f64).Valid)
    (hN : ∀ e e' : DType, e.isFloating = true → DType.promote e e' = e' → (F e).Sub (F e'))
    (make : PyTree (Leaf ℚ) → ℚ → Res (Made ℚ))
    (rounds : PyTree (Leaf ℚ) → Round ℚ) (next : PyTree (Leaf ℚ) → PyTree (Leaf ℚ))
    (s0 : PyTree (Leaf ℚ)) (dep : ℚ) (max : Int) (check : Bool) {c0 : Controller ℚ}
    (hmake : make s0 dep = .ok (.ctrl c0)) (hwf : c0.state.WF) (hd : c0.state.DictsWF)
    (hops : ∀ t, ∀ nu ∈ (rounds (loopStates next s0 t)).updates, nu.2.WF)
    (hF : (F c0.state.probabilities.dtype).Valid)
    (he : 0 ≤ c0.state.epsilon) (he1 : c0.state.epsilon ≤ 1)
    (hdep : 0 ≤ c0.state.depression_constant)
    (hthr : (F c0.state.probabilities.dtype).rnd ((F .f64).rnd (1 - c0.state.epsilon)) < 1)
    (hfresh : ∀ b p, c0.probabilities.at? b = some p → p = 0) {c : Controller ℚ} {s : PyTree (Leaf ℚ)}
    (hr : (callLayer make (fun s => (rounds s).ops) next).ExecuteAct s0 dep max check (.ok (c, s)))
    (h : List Nat → Nat → ℚ)
    (hh : ∀ t < max.toNat, ∀ b x, (rounds (loopStates next s0 t)).halting.at? b = some x →
      h b t = convS (rounds (loopStates next s0 t)).halting.dtype c0.state.probabilities.dtype x)
    (hm : ∀ b p, c0.probabilities.at? b = some p → ∀ j ≤ max.toNat,
      Rounded.margin (F c0.state.probabilities.dtype) (F .f64) c0.state.depression_constant max.toNat <
        |Graves.cumDemand c0.state.depression_constant (h b) j - (1 - c0.state.epsilon)|) :
    ApproxGraves F c0 rounds next s0 max h c s := by
  unfold ApproxGraves
  intro eps dc unit errs
  have hops' : ∀ t, ∀ op ∈ (rounds (loopStates next s0 t)).ops, op.DictsWF := by
    intro t op ho
    unfold Round.ops at ho
    rcases List.mem_append.1 ho with ho | ho
    · obtain ⟨nu, hm, rfl⟩ := List.mem_map.1 ho
      exact hops t nu hm
    · rw [List.mem_singleton.1 ho]; trivial
  obtain ⟨k, h1, h2, wc, wd, ⟨c', h3, h4⟩, h5, h6⟩ := C61_loop_is_history make (fun s => (rounds s).ops)
    next s0 dep max check hmake hwf hd hops' hr
  -- the calls as rounds
  let rs : Nat → List (Round ℚ) := fun t => (List.range t).map fun j => rounds (loopStates next s0 j)
  have hrs : ∀ t, loopCalls (fun s => (rounds s).ops) next s0 t = roundOps (rs t) := by
    intro t
    simp only [loopCalls, roundOps, rs, List.flatMap_map]
  have hlen : ∀ t, (rs t).length = t := by intro t; simp [rs]
  have hget : ∀ t j r, (rs t)[j]? = some r → j < t ∧ r = rounds (loopStates next s0 j) := by
    intro t j r hj
    simp only [rs, List.getElem?_map, Option.map_eq_some_iff] at hj
    obtain ⟨a, ha, rfl⟩ := hj
    obtain ⟨hlt, e⟩ := List.getElem?_eq_some_iff.1 ha
    rw [List.getElem_range] at e
    subst e
    exact ⟨by simpa using hlt, rfl⟩
  have results : ∀ t ≤ k, ∀ ct, run c0 (loopCalls (fun s => (rounds s).ops) next s0 t) = .ok ct →
      ∀ b p, c0.probabilities.at? b = some p → _ := fun t ht ct hct b p hb => by
    rw [hrs] at hct
    have hp := hfresh b p hb
    subst hp
    exact C85_results hA hF64 hN (s := c0.state) hwf hF he he1 hdep hthr (rs t) hct hb (h b)
      (fun j r x hj hx => by
        obtain ⟨a1, rfl⟩ := hget t j r hj
        exact hh j (by omega) b x hx)
      (fun j hj => by
        rw [hlen] at hj ⊢
        exact (Rounded.margin_mono (by omega)).trans_lt (hm b 0 hb j (by omega)))
  simp only [hlen] at results
  have all : ∀ t ≤ k, ∀ ct, run c0 (loopCalls (fun s => (rounds s).ops) next s0 t) = .ok ct →
      (AllHalted ct ↔ ∀ b p, c0.probabilities.at? b = some p → Graves.Crossed eps dc (h b) t) := by
    intro t ht ct hct
    have hw : ct.state.WF := run_wf (s := c0.state) hwf hct
    constructor
    · intro ha b p hb
      obtain ⟨q1, ⟨x, q2, -⟩, -⟩ := results t ht ct hct b p hb
      obtain ⟨y, hy⟩ : ∃ y, ct.haltedBatches.at? b = some y :=
        ⟨_, (halted_iff (s := ct.state) hw.floating).2 ⟨_, q2, rfl⟩⟩
      rw [← q1, hy, ha b y hy]
    · intro ha b x hx
      obtain ⟨q, hq, -⟩ := (halted_iff (s := ct.state) hw.floating).1 hx
      have hsh : c0.probabilities.shape = ct.state.probabilities.shape :=
        (C14_types_invariant (s := c0.state) hwf _ hct).2.2.1.symm
      obtain ⟨p, hp⟩ := Controller.at?_some_of_shape (b := c0.probabilities) hsh hq
      have := (results t ht ct hct b p hp).1.2 (ha b p hp)
      rw [this] at hx
      exact (Option.some.inj hx).symm
  refine ⟨k, h1, h2, ?_, fun t ht => ?_, fun b p hb => ?_⟩
  · rcases h5 with h5 | h5
    · exact .inl ((all k le_rfl c' h3).1 ((allHalted_same h4).1 h5))
    · exact .inr h5
  · obtain ⟨ct, g1, g2⟩ := h6 t ht
    by_contra hcon
    push Not at hcon
    exact g2 ((all t (by omega) ct g1).2 hcon)
  obtain ⟨r1, r2, r3, r4, r5⟩ := results k le_rfl c' h3 b p hb
  have hhalt : c.haltedBatches = c'.haltedBatches := by
    unfold Controller.haltedBatches Controller.haltThreshold Controller.probabilities
    rw [h4.probabilities, h4.epsilon]
  refine ⟨by rw [hhalt]; exact r1, ?_, ?_, ?_, ?_⟩
  · unfold Controller.probabilities at r2 ⊢
    rw [h4.probabilities]
    exact r2
  · unfold Controller.residuals at r3 ⊢
    rw [h4.residuals]
    exact r3
  · unfold Controller.iterations at r4 ⊢
    rw [h4.iterations]
    exact r4
  · intro name l rest ta u M hM g1 g2 g3
    obtain ⟨a, a1, a2⟩ := r5 name l rest ta u M hM g1 g2 (fun t r hr => by
      obtain ⟨b1, rfl⟩ := hget k t r hr
      exact g3 t b1)
    refine ⟨a, ?_, a2⟩
    rw [← a1]
    exact entry?_same wd.accumulators (run_dictsWF (s := c0.state) hwf hd (fun op ho => by
      obtain ⟨j, -, hj⟩ := List.mem_flatMap.1 ho
      exact hops' j op hj) h3).accumulators
      h4.accumulators name l (b ++ rest)

end Theorems

section Traced
variable {F : DType → Fmt}

theorem tracedFmt_sub (hN : ∀ e e' : DType, e.isFloating = true → DType.promote e e' = e' → (F e).Sub (F e'))
    (e e' : DType) (h : e.isFloating = true) (hp : DType.promote e e' = e') :
    (tracedFmt F e).Sub (tracedFmt F e') := by
  cases e <;> cases e' <;>
    first
    | exact hN _ _ h hp
    | exact hN _ .f32 h rfl
    | exact hN .f32 .f32 rfl rfl
    | cases hp

/-- C86 with the precision of the two Python floats tracked: inside `while_loop` they are float32 arrays, so what
is approximated is Graves' ACT for the rounded `epsilon` and `depression_constant`, and their arithmetic is that
of float32 (`tracedFmt`).  Otherwise as `C86_execute_act_rounded`. -/
theorem C86_execute_act_traced (hF32 : (F .f32).Valid)
    (hN : ∀ e e' : DType, e.isFloating = true → DType.promote e e' = e' → (F e).Sub (F e'))
    (make : PyTree (Leaf ℚ) → ℚ → Res (Made ℚ))
    (rounds : PyTree (Leaf ℚ) → Round ℚ) (next : PyTree (Leaf ℚ) → PyTree (Leaf ℚ))
    (s0 : PyTree (Leaf ℚ)) (dep : ℚ) (max : Int) (check : Bool) {c0 : Controller ℚ}
    (hmake : make s0 dep = .ok (.ctrl c0)) (hwf : c0.state.WF) (hd : c0.state.DictsWF)
    (hops : ∀ t, ∀ nu ∈ (rounds (loopStates next s0 t)).updates, nu.2.WF)
    (hF : (tracedFmt F c0.state.probabilities.dtype).Valid)
    (he : 0 ≤ c0.state.epsilon) (he1 : c0.state.epsilon ≤ 1)
    (hdep : 0 ≤ c0.state.depression_constant)
    (hthr : (tracedFmt F c0.state.probabilities.dtype).rnd
      ((F .f32).rnd (1 - (F .f32).rnd c0.state.epsilon)) < 1)
    (hfresh : ∀ b p, c0.probabilities.at? b = some p → p = 0) {c : Controller ℚ} {s : PyTree (Leaf ℚ)}
    (hr : Layer.TracedExecuteAct F (@callLayer ℚ (Arith.rounded F) make (fun s => (rounds s).ops) next)
      (@callLayer ℚ (Arith.rounded (tracedFmt F)) make (fun s => (rounds s).ops) next) s0 dep max check
      (.ok (c, s)))
    (h : List Nat → Nat → ℚ)
    (hh : ∀ t < max.toNat, ∀ b x, (rounds (loopStates next s0 t)).halting.at? b = some x →
      h b t = @convS ℚ (Arith.rounded (tracedFmt F)) (rounds (loopStates next s0 t)).halting.dtype
        c0.state.probabilities.dtype x)
    (hm : ∀ b p, c0.probabilities.at? b = some p → ∀ j ≤ max.toNat,
      Rounded.margin (tracedFmt F c0.state.probabilities.dtype) (F .f32)
          ((F .f32).rnd c0.state.depression_constant) max.toNat <
        |Graves.cumDemand ((F .f32).rnd c0.state.depression_constant) (h b) j -
          (1 - (F .f32).rnd c0.state.epsilon)|) :
    @ApproxGraves (Arith.rounded (tracedFmt F)) (tracedFmt F) ⟨c0.state.traced F⟩ rounds next s0 max h c s :=
  @C86_execute_act_rounded (tracedFmt F) (Arith.rounded (tracedFmt F)) rfl hF32 (tracedFmt_sub hN)
    (fun _ _ => .ok (.ctrl ⟨c0.state.traced F⟩)) rounds next s0 dep max check ⟨c0.state.traced F⟩ rfl
    (hwf.withScalars (e := _) (dc := _)) ⟨hd.1, hd.2, hd.3⟩ hops hF (rnd_nonneg he)
    ((rnd_mono hF32.1 he1).trans_eq (rnd_one hF32)) (rnd_nonneg hdep) hthr hfresh c s
    ((tracedExecuteAct_iff hmake).1 hr) h hh hm

end Traced

section Example
open Fixtures
attribute [local instance] ieee

/-- The layer of C50 (halting probabilities 1/2 and 2/3, updates 4 and 6 in every iteration) in IEEE arithmetic
with the floats tracked: `execute_act` returns after two iterations, with both elements halted and the second
accumulator entry close to 6. -/
example (check : Bool) :
    let make : PyTree (Leaf ℚ) → ℚ → Res (Made ℚ) := fun _ _ => .ok (.ctrl ⟨simple⟩)
    let s0 := bare (vec [1/2, 2/3])
    ∃ c s, Layer.TracedExecuteAct DType.fmt (@callLayer ℚ ieee make (fun s => (demoRound s).ops) id)
      (@callLayer ℚ (Arith.rounded (tracedFmt DType.fmt)) make (fun s => (demoRound s).ops) id) s0 1 5 check
      (.ok (c, s)) ∧
    c.iterations.at? [0] = some 2 ∧ c.iterations.at? [1] = some 2 ∧
    ∃ a, entry? c.accumulators "out" 0 [1, 0] = some a ∧ |a - 6| ≤ 1 / 10 ^ 5 := by
  intro make s0
  let B := Arith.rounded (tracedFmt DType.fmt)
  have htyped : @TypedCalls ℚ B (fun s => (demoRound s).ops) id s0 := by
    refine ⟨fun s hs => ?_, fun s hs => hs⟩
    obtain ⟨l, rfl⟩ := hs.leaf_iff.1 ⟨_, rfl⟩
    have h2 := hs.2
    simp only [s0, bare, treeLeaves, PyTree.canon, leaves, List.map_cons, List.map_nil, List.cons.injEq,
      and_true] at h2
    obtain ⟨t, rfl, h3, h4⟩ := Leaf.type_some.1 h2.symm
    exact .cons (.cache _ (.refl _)) (.cons (.iterate ⟨h3.symm, h4.symm⟩) .nil)
  have hwt : (simple.traced DType.fmt).WF := simple_wf.withScalars (e := _) (dc := _)
  obtain ⟨c1, hc1⟩ : ∃ c1, @run ℚ B ⟨simple.traced DType.fmt⟩ (demoRound s0).ops = .ok c1 := by
    have hok : succeeds (@run ℚ B ⟨simple.traced DType.fmt⟩ (demoRound s0).ops) = true := by decide +kernel
    cases hr : @run ℚ B ⟨simple.traced DType.fmt⟩ (demoRound s0).ops with
    | error e => rw [hr] at hok; cases hok
    | ok c1 => exact ⟨c1, rfl⟩
  obtain ⟨c, s, hcs⟩ := @C50_execute_act_succeeds ℚ B (fun _ _ => .ok (.ctrl ⟨simple.traced DType.fmt⟩))
    demoRound id check ⟨simple.traced DType.fmt⟩ c1 s0 1 5 rfl hwt rfl (by simp [simple, ACTStates.traced])
    simple_idle (vec_tensors _) htyped hc1
  have hcs := (tracedExecuteAct_iff (F := DType.fmt) (make := make) (c0 := ⟨simple⟩) rfl).2 hcs
  refine ⟨c, s, hcs, ?_⟩
  have key := C86_execute_act_traced (F := DType.fmt) (by decide) fmt_sub make demoRound id s0 1 5 check
    (c0 := ⟨simple⟩) rfl simple_wf simple_dictsWF (by
      intro t nu hnu
      rw [demo_states] at hnu
      rw [List.mem_singleton.1 hnu]; trivial)
    (by decide) (by decide +kernel) (by decide +kernel) (by decide +kernel) (by decide +kernel) (by
      intro b p hb
      rcases vec_two hb with ⟨-, h⟩ | ⟨-, h⟩ <;> exact h) hcs
    (fun b _ => if b = [0] then 1/2 else 2/3) (by
      intro t ht b x hx
      rw [demo_states] at hx ⊢
      rcases vec_two hx with ⟨rfl, rfl⟩ | ⟨rfl, rfl⟩ <;> decide +kernel)
    (by
      intro b p hb j hj
      have hj : j ≤ 5 := hj
      rcases vec_two hb with ⟨rfl, -⟩ | ⟨rfl, -⟩ <;> interval_cases j <;> decide +kernel)
  obtain ⟨k, k1, -, k3, k4, k5⟩ := key
  have c2 : ∀ b p, simple.probabilities.at? b = some p → Graves.Crossed (simple.traced DType.fmt).epsilon
      (simple.traced DType.fmt).depression_constant (fun _ => if b = [0] then 1/2 else 2/3) 2 := by
    intro b p hb
    refine ⟨2, le_rfl, ?_⟩
    rcases vec_two hb with ⟨rfl, -⟩ | ⟨rfl, -⟩ <;> decide +kernel
  have c1 : ∀ t < 2, ¬ Graves.Crossed (simple.traced DType.fmt).epsilon
      (simple.traced DType.fmt).depression_constant (fun _ => 1/2) t := by
    rintro t ht ⟨j, hj, hx⟩
    revert hx
    have : j ≤ 1 := by omega
    interval_cases j <;> decide +kernel
  have hk : k = 2 := by
    rcases Nat.lt_trichotomy k 2 with hk | hk | hk
    · rcases k3 with k3 | k3
      · exact absurd (k3 [0] 0 (by decide +kernel)) (c1 k hk)
      · omega
    · exact hk
    · obtain ⟨b, p, hb, hn⟩ := k4 2 hk
      exact absurd (c2 b p hb) hn
  subst hk
  obtain ⟨-, -, -, i0, -⟩ := k5 [0] 0 (by decide +kernel)
  obtain ⟨-, -, -, i1, a1⟩ := k5 [1] 0 (by decide +kernel)
  refine ⟨?_, ?_, ?_⟩
  · rw [i0 (by decide +kernel) (fun _ => by decide)]
    decide +kernel
  · rw [i1 (by decide +kernel) (fun _ => by decide)]
    decide +kernel
  · obtain ⟨a, e1, e2⟩ := a1 "out" 0 [0] (col 0 0) (fun _ => 6) 6 (by norm_num) rfl (by decide +kernel) (by
      intro t ht
      rw [demo_states]
      exact ⟨col 4 6, 6, rfl, by decide +kernel, rfl, by norm_num⟩)
    have hs : ∑ t ∈ Finset.range 2, Graves.weight (simple.traced DType.fmt).epsilon
        (simple.traced DType.fmt).depression_constant (fun _ => if [1] = [0] then 1/2 else 2/3) t * 6 =
          (6 : ℚ) := by decide +kernel
    have hb : accBound (tracedFmt DType.fmt simple.probabilities.dtype) 2 6 +
        (2 * Rounded.errs (simple.traced DType.fmt).depression_constant - 1) * (2 : Nat) * 2 ^ (-((tracedFmt DType.fmt simple.probabilities.dtype).prec : ℤ)) * 6 ≤
          (1 : ℚ) / 10 ^ 5 := by decide +kernel
    refine ⟨a, e1, ?_⟩
    have e3 := e2.trans hb
    rwa [hs] at e3

end Example
end JaxAct
