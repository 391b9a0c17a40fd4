import Verif.Props.C08

/-!
# C84 Depression is a scaling of the halting probabilities

A depression constant `r * d` with `r` in `[0, 1]` is the constant `d` with the clipped halting
probabilities multiplied by `r`; with `d = 1` it can be done away with.
-/

namespace JaxAct
open ACTStates
variable {K : Type} [Field K] [LinearOrder K] [IsStrictOrderedRing K]
attribute [local instance] Arith.exact

/-- The same call with the clipped halting probabilities multiplied by `r`, `r * jnp.clip(h, 0, 1)`. -/
def Op.scaled (r : K) : Op K → Op K
  | .iterate h => .iterate (Tensor.floatMul r h.clip01)
  | op => op

/-- The same controller with another depression constant. -/
def Controller.withDepression (d : K) (c : Controller K) : Controller K :=
  ⟨{ c.state with depression_constant := d }⟩

theorem floatMul_scaled {r : K} (h0 : 0 ≤ r) (h1 : r ≤ 1) (d : K) (h : Tensor K) :
    Tensor.floatMul (r * d) h.clip01 = Tensor.floatMul d (Tensor.floatMul r h.clip01).clip01 := by
  refine Tensor.ext_at (by simp) (by simp) fun i => ?_
  simp only [Tensor.at?_floatMul, Tensor.at?_clip01]
  cases h.at? i with
  | none => rfl
  | some x =>
    simp only [Option.map_some, Spec.convS_exact]
    have c0 : (0 : K) ≤ min 1 (max 0 x) := le_min zero_le_one (le_max_left _ _)
    have c1 : min 1 (max 0 x) ≤ (1 : K) := min_le_left _ _
    have e : min 1 (max 0 (r * min 1 (max 0 x))) = r * min 1 (max 0 x) := by
      rw [max_eq_right (mul_nonneg h0 c0), min_eq_right (mul_le_one₀ h1 c0 c1)]
    show some (r * d * min 1 (max 0 x)) = some (d * min 1 (max 0 (r * min 1 (max 0 x))))
    rw [e]
    congr 1
    ring

omit [IsStrictOrderedRing K] in
theorem commitLoop_depression (d d' : K) (c : Controller K) (h : Tensor K) (names : List String)
    (a u : Dict (PyTree (Leaf K))) :
    (c.withDepression d).commitLoop h names a u = (c.withDepression d').commitLoop h names a u := by
  induction names generalizing a u with
  | nil => rfl
  | cons n ns ih =>
    unfold Controller.commitLoop
    have : (c.withDepression d).commitOne h a u n = (c.withDepression d').commitOne h a u n := rfl
    rw [this]
    split
    · rfl
    · exact ih ..

omit [IsStrictOrderedRing K] in
theorem iterateAct_depression {d d' : K} {c : Controller K} {h h' : Tensor K} (q3 : h'.shape = h.shape)
    (hp : (c.withDepression d').processProbabilities h.clip01 =
      (c.withDepression d).processProbabilities h'.clip01) :
    (c.withDepression d').iterateAct h =
      ((c.withDepression d).iterateAct h').map (Controller.withDepression d') := by
  have q1 : (c.withDepression d').probabilities.shape = c.probabilities.shape := rfl
  have q2 : (c.withDepression d).probabilities.shape = c.probabilities.shape := rfl
  unfold Controller.iterateAct
  rw [q1, q2, q3]
  by_cases hs : h.shape ≠ c.probabilities.shape
  · rw [if_pos hs, if_pos hs]
    rfl
  · rw [if_neg hs, if_neg hs]
    dsimp only
    rw [hp]
    cases (c.withDepression d).processProbabilities h'.clip01 with
    | error e => rfl
    | ok x =>
      simp only [ok_bind]
      rw [commitLoop_depression d' d]
      show (Controller.commitLoop (c.withDepression d) x.1 c.accumulators.keys c.accumulators
        c.state.updates >>= _) = Except.map _ (Controller.commitLoop (c.withDepression d) x.1
        c.accumulators.keys c.accumulators c.state.updates >>= _)
      cases Controller.commitLoop (c.withDepression d) x.1 c.accumulators.keys c.accumulators
        c.state.updates with
      | error e => rfl
      | ok y =>
        simp only [ok_bind]
        show (Tensor.select c.haltedBatches c.iterations c.iterations.addOne >>= _) =
          Except.map _ (Tensor.select c.haltedBatches c.iterations c.iterations.addOne >>= _)
        cases Tensor.select c.haltedBatches c.iterations c.iterations.addOne with
        | error e => rfl
        | ok z => rfl

theorem iterateAct_scaled {r : K} (h0 : 0 ≤ r) (h1 : r ≤ 1) (d : K) (c : Controller K) (h : Tensor K) :
    (c.withDepression (r * d)).iterateAct h =
      ((c.withDepression d).iterateAct (Tensor.floatMul r h.clip01)).map
        (Controller.withDepression (r * d)) := by
  have hp : (c.withDepression (r * d)).processProbabilities h.clip01 =
      (c.withDepression d).processProbabilities (Tensor.floatMul r h.clip01).clip01 := by
    show Controller.processProbabilities _ _ = Controller.processProbabilities _ _
    unfold Controller.processProbabilities Controller.depressionConstant
    simp only [Controller.withDepression]
    rw [floatMul_scaled h0 h1]
    rfl
  exact iterateAct_depression (by simp) hp

omit [Field K] [LinearOrder K] [IsStrictOrderedRing K] in
theorem cacheUpdate_depression (d d' : K) (c : Controller K) (n : String) (t : PyTree (Leaf K)) :
    (c.withDepression d').cacheUpdate n t =
      ((c.withDepression d).cacheUpdate n t).map (Controller.withDepression d') := by
  unfold Controller.cacheUpdate
  dsimp only
  show (if ¬ c.state.updates.mem n = true then _ else _) =
    Except.map _ (if ¬ c.state.updates.mem n = true then _ else _)
  split
  · rfl
  · show (Dict.getItem c.state.updates n >>= _) = Except.map _ (Dict.getItem c.state.updates n >>= _)
    cases Dict.getItem c.state.updates n with
    | error e => rfl
    | ok x =>
      simp only [ok_bind]
      split <;> rfl

omit [IsStrictOrderedRing K] in
theorem resetBatches_depression (d d' : K) (c : Controller K) :
    (c.withDepression d').resetBatches =
      ((c.withDepression d).resetBatches).map (Controller.withDepression d') := by
  unfold Controller.resetBatches
  dsimp only
  show (if (c.state.updates.any fun kv => !kv.2.isNone) = true then _ else _) =
    Except.map _ (if (c.state.updates.any fun kv => !kv.2.isNone) = true then _ else _)
  split
  · rfl
  · show (Tensor.binop Arith.mul c.iterations (Tensor.ofMask (c.haltedBatches.map (!·))) >>= _) =
      Except.map _ (Tensor.binop Arith.mul c.iterations (Tensor.ofMask (c.haltedBatches.map (!·))) >>= _)
    cases Tensor.binop Arith.mul c.iterations (Tensor.ofMask (c.haltedBatches.map (!·))) with
    | error e => rfl
    | ok x =>
      simp only [ok_bind]
      show (Tensor.binop Arith.mul c.probabilities (Tensor.ofMask (c.haltedBatches.map (!·))) >>= _) =
        Except.map _
          (Tensor.binop Arith.mul c.probabilities (Tensor.ofMask (c.haltedBatches.map (!·))) >>= _)
      cases Tensor.binop Arith.mul c.probabilities (Tensor.ofMask (c.haltedBatches.map (!·))) with
      | error e => rfl
      | ok y =>
        simp only [ok_bind]
        show (Tensor.binop Arith.mul c.residuals (Tensor.ofMask (c.haltedBatches.map (!·))) >>= _) =
          Except.map _
            (Tensor.binop Arith.mul c.residuals (Tensor.ofMask (c.haltedBatches.map (!·))) >>= _)
        cases Tensor.binop Arith.mul c.residuals (Tensor.ofMask (c.haltedBatches.map (!·))) with
        | error e => rfl
        | ok z =>
          simp only [ok_bind]
          show (Controller.resetLoop (c.haltedBatches.map (!·)) c.state.defaults c.accumulators [] >>= _) =
            Except.map _
              (Controller.resetLoop (c.haltedBatches.map (!·)) c.state.defaults c.accumulators [] >>= _)
          cases Controller.resetLoop (c.haltedBatches.map (!·)) c.state.defaults c.accumulators [] with
          | error e => rfl
          | ok w => rfl

/-- C84.  For `r` between 0 and 1: the run with depression constant `r * d` is the run with depression
constant `d` and all halting probabilities clipped and multiplied by `r` - the same controllers but for the
constant itself, and the same exceptions.  Resets are included, nothing is asked of the controller. -/
theorem C84_depression_is_scaling {r : K} (h0 : 0 ≤ r) (h1 : r ≤ 1) (d : K) (c : Controller K)
    (ops : List (Op K)) :
    run (c.withDepression (r * d)) ops =
      (run (c.withDepression d) (ops.map (Op.scaled r))).map (Controller.withDepression (r * d)) := by
  induction ops generalizing c with
  | nil => rfl
  | cons op ops ih =>
    have hcall : op.call (c.withDepression (r * d)) =
        ((op.scaled r).call (c.withDepression d)).map (Controller.withDepression (r * d)) := by
      cases op with
      | cache n t => exact cacheUpdate_depression d (r * d) c n t
      | iterate h => exact iterateAct_scaled h0 h1 d c h
      | reset => exact resetBatches_depression d (r * d) c
    have hkeep : ∀ c', (op.scaled r).call (c.withDepression d) = .ok c' →
        c' = c'.withDepression d := by
      intro c' hc
      have e : (op.scaled r).call (c.withDepression d) =
          ((op.scaled r).call (c.withDepression d)).map (Controller.withDepression d) := by
        cases op with
        | cache n t => exact cacheUpdate_depression d d c n t
        | iterate h => exact iterateAct_depression rfl rfl
        | reset => exact resetBatches_depression d d c
      rw [hc] at e
      exact Except.ok.inj e
    simp only [run, List.map_cons, hcall]
    cases hx : (op.scaled r).call (c.withDepression d) with
    | error e => rfl
    | ok c' =>
      show run (Controller.withDepression (r * d) c') ops = Except.map _ (run c' (ops.map (Op.scaled r)))
      rw [ih c', ← hkeep c' hx]

section Example
open Fixtures

/-- Depression constant 1/2 on halting probabilities 1/2 and 7 is no depression on 1/4 and 1/2. -/
example :
    obs (run ⟨{ fresh with depression_constant := 1/2 }⟩ (roundOps [round [1/2, 7] 4 6]))
      (fun c => some (c.probabilities.at? [0], c.probabilities.at? [1],
        entry? c.accumulators "out" 0 [1, 0])) = some (some (1/4), some (1/2), some 3) ∧
    obs (run ⟨fresh⟩ (roundOps [round [1/4, 1/2] 4 6]))
      (fun c => some (c.probabilities.at? [0], c.probabilities.at? [1],
        entry? c.accumulators "out" 0 [1, 0])) = some (some (1/4), some (1/2), some 3) := by
  decide +kernel

/-- For `r` above one it is false: constant 2 takes 1/2 to 1, but no clipped probability is above 1. -/
theorem C84_not_beyond_one : ¬ ∀ (r d : ℚ) (c : Controller ℚ) (ops : List (Op ℚ)),
    run (c.withDepression (r * d)) ops =
      (run (c.withDepression d) (ops.map (Op.scaled r))).map (Controller.withDepression (r * d)) := by
  intro h
  have := congrArg (fun x => obs x fun c => c.probabilities.at? [0])
    (h 2 (1/2) ⟨fresh⟩ (roundOps [round [3/4, 0] 4 6]))
  revert this
  decide +kernel

end Example

end JaxAct
