import Verif.Props.C13

/-!
# C108 What nothing reads

`residuals` and `iterations` are written by the library and read by nobody, and `defaults` are only read by
`reset_batches`.
-/

namespace JaxAct
open ACTStates
variable {α : Type}

/-- The same state up to `residuals`, `iterations`, `defaults` and `error_mode`. -/
structure SameCore (s t : ACTStates α) : Prop where
  epsilon : t.epsilon = s.epsilon
  depression : t.depression_constant = s.depression_constant
  probabilities : t.probabilities = s.probabilities
  accumulators : t.accumulators = s.accumulators
  updates : t.updates = s.updates

/-- Each of the fields that nothing else depends on stays the same if it was the same. -/
structure KeepsSame (s t s' t' : ACTStates α) : Prop where
  residuals : t.residuals = s.residuals → t'.residuals = s'.residuals
  iterations : t.iterations = s.iterations → t'.iterations = s'.iterations
  defaults : t.defaults = s.defaults → t'.defaults = s'.defaults
  error_mode : t.error_mode = s.error_mode → t'.error_mode = s'.error_mode

variable [Arith α]

namespace Controller

theorem haltedBatches_core {s t : ACTStates α} (h : SameCore s t) :
    haltedBatches (⟨t⟩ : Controller α) = haltedBatches ⟨s⟩ := by
  unfold haltedBatches haltThreshold probabilities
  rw [h.probabilities, h.epsilon]

theorem updateAccumulator_core {s t : ACTStates α} (h : SameCore s t) :
    updateAccumulator (⟨t⟩ : Controller α) = updateAccumulator ⟨s⟩ := by
  funext a u x
  unfold updateAccumulator
  rw [haltedBatches_core h]

theorem commitLoop_core {s t : ACTStates α} (h : SameCore s t) (x : Tensor α) :
    ∀ ns A U, commitLoop (⟨t⟩ : Controller α) x ns A U = commitLoop ⟨s⟩ x ns A U
  | [], _, _ => rfl
  | n :: ns, A, U => by
    unfold commitLoop commitOne
    rw [updateAccumulator_core h]
    split
    · rfl
    · exact commitLoop_core h x ns _ _

theorem processProbabilities_core {s t : ACTStates α} (h : SameCore s t) {x y z y' z' w w' : Tensor α}
    (h1 : processProbabilities (⟨s⟩ : Controller α) x = .ok (y, w, z))
    (h2 : processProbabilities (⟨t⟩ : Controller α) x = .ok (y', w', z')) : y' = y ∧ z' = z ∧
      (t.residuals = s.residuals → w' = w) := by
  unfold processProbabilities depressionConstant probabilities haltThreshold at h1 h2
  rw [haltedBatches_core h] at h2
  simp only [h.probabilities, h.epsilon, h.depression] at h2
  simp only [bind_ok] at h1 h2
  obtain ⟨a1, e1, a2, e2, a3, e3, a4, e4, a5, e5, e6⟩ := h1
  obtain ⟨b1, f1, b2, f2, b3, f3, b4, f4, b5, f5, f6⟩ := h2
  cases e1.symm.trans f1
  cases e2.symm.trans f2
  cases e4.symm.trans f4
  cases e5.symm.trans f5
  cases e6
  cases f6
  refine ⟨rfl, rfl, fun hr => ?_⟩
  unfold Controller.residuals at e3 f3
  simp only [hr] at f3
  cases e3.symm.trans f3
  rfl

/-- `iterate_act`. -/
theorem iterateAct_core {s t : ACTStates α} (h : SameCore s t) {x : Tensor α} {c d : Controller α}
    (h1 : iterateAct (⟨s⟩ : Controller α) x = .ok c) (h2 : iterateAct (⟨t⟩ : Controller α) x = .ok d) :
    SameCore c.state d.state ∧ KeepsSame s t c.state d.state := by
  unfold iterateAct at h1 h2
  split at h1
  · cases h1
  split at h2
  · cases h2
  simp only [bind_ok, ACTStates.replace_core, Option.getD_some, Option.getD_none] at h1 h2
  obtain ⟨⟨y, w, z⟩, e1, ⟨A, U⟩, e2, i, e3, s1, e4, e5⟩ := h1
  obtain ⟨⟨y', w', z'⟩, f1, ⟨A', U'⟩, f2, i', f3, t1, f4, f5⟩ := h2
  obtain ⟨rfl, rfl, hw⟩ := processProbabilities_core h e1 f1
  simp only at e2 f2 e4 f4
  rw [commitLoop_core h] at f2
  unfold accumulators at e2 f2
  simp only [h.accumulators, h.updates] at f2
  cases e2.symm.trans f2
  cases e4
  cases f4
  cases e5
  cases f5
  refine ⟨⟨h.epsilon, h.depression, rfl, rfl, rfl⟩, hw, fun hi => ?_, id, id⟩
  rw [haltedBatches_core h] at f3
  unfold iterations at e3 f3
  simp only [hi] at f3
  cases e3.symm.trans f3
  rfl

/-- `reset_batches`. -/
theorem resetBatches_core {s t : ACTStates α} (h : SameCore s t) (hd : t.defaults = s.defaults)
    {c d : Controller α} (h1 : resetBatches (⟨s⟩ : Controller α) = .ok c)
    (h2 : resetBatches (⟨t⟩ : Controller α) = .ok d) :
    SameCore c.state d.state ∧ KeepsSame s t c.state d.state := by
  unfold resetBatches at h1 h2
  split at h1
  · cases h1
  split at h2
  · cases h2
  rw [haltedBatches_core h] at h2
  simp only [bind_ok, ACTStates.replace_core, Option.getD_some, Option.getD_none] at h1 h2
  obtain ⟨i, e5, p, e1, r, e6, A, e2, s1, e3, e4⟩ := h1
  obtain ⟨i', f5, p', f1, r', f6, A', f2, t1, f3, f4⟩ := h2
  unfold probabilities at e1 f1
  unfold accumulators at e2 f2
  simp only [h.probabilities] at f1
  simp only [h.accumulators, hd] at f2
  cases e1.symm.trans f1
  cases e2.symm.trans f2
  cases e3
  cases f3
  cases e4
  cases f4
  refine ⟨⟨h.epsilon, h.depression, rfl, rfl, h.updates⟩, fun hr => ?_, fun hi => ?_, id, id⟩
  · unfold residuals at e6 f6
    simp only [hr] at f6
    cases e6.symm.trans f6
    rfl
  · unfold iterations at e5 f5
    simp only [hi] at f5
    cases e5.symm.trans f5
    rfl

end Controller

/-- One call. -/
theorem call_core {s t : ACTStates α} (hs : s.WF) (ht : t.WF) (h : SameCore s t) {op : Op α}
    (hd : t.defaults = s.defaults ∨ op.NotReset) :
    (∃ e, op.call ⟨s⟩ = .error e ∧ op.call ⟨t⟩ = .error e) ∨
    ∃ c d, op.call ⟨s⟩ = .ok c ∧ op.call ⟨t⟩ = .ok d ∧ SameCore c.state d.state ∧
      KeepsSame s t c.state d.state := by
  cases op with
  | cache n x =>
    show (∃ e, Controller.cacheUpdate ⟨s⟩ n x = .error e ∧ Controller.cacheUpdate ⟨t⟩ n x = .error e) ∨
      ∃ c d, Controller.cacheUpdate ⟨s⟩ n x = .ok c ∧ Controller.cacheUpdate ⟨t⟩ n x = .ok d ∧ _
    unfold Controller.cacheUpdate
    simp only [h.updates]
    split
    · exact .inl ⟨_, rfl, rfl⟩
    · cases s.updates.getItem n with
      | error e => exact .inl ⟨e, rfl, rfl⟩
      | ok cur =>
        simp only [Except.bind, bind]
        split
        · exact .inl ⟨_, rfl, rfl⟩
        · exact .inr ⟨_, _, rfl, rfl, ⟨h.epsilon, h.depression, h.probabilities, h.accumulators, rfl⟩,
            id, id, id, id⟩
  | iterate x =>
    show (∃ e, Controller.iterateAct ⟨s⟩ x = .error e ∧ Controller.iterateAct ⟨t⟩ x = .error e) ∨
      ∃ c d, Controller.iterateAct ⟨s⟩ x = .ok c ∧ Controller.iterateAct ⟨t⟩ x = .ok d ∧ _
    have hok : (∃ c, Controller.iterateAct ⟨t⟩ x = .ok c) ↔ ∃ c, Controller.iterateAct ⟨s⟩ x = .ok c := by
      rw [C13_iterate_succeeds_iff ht, C13_iterate_succeeds_iff hs, h.probabilities, h.accumulators, h.updates]
    obtain ⟨v1, v2, v3, -⟩ := C13_iterate_errors ht x
    rw [h.probabilities, h.accumulators, h.updates] at v3
    rw [h.probabilities] at v1 v2
    obtain ⟨u1, u2, u3, u4⟩ := C13_iterate_errors hs x
    cases e1 : Controller.iterateAct (⟨s⟩ : Controller α) x with
    | error e =>
      left
      refine ⟨e, rfl, ?_⟩
      rcases u4 e e1 with rfl | rfl | rfl
      · exact v1.2 (u1.1 e1)
      · exact v2.2 (u2.1 e1)
      · exact v3.2 (u3.1 e1)
    | ok c =>
      obtain ⟨d, e2⟩ := hok.2 ⟨c, e1⟩
      obtain ⟨j1, j2⟩ := Controller.iterateAct_core h e1 e2
      exact .inr ⟨c, d, rfl, e2, j1, j2⟩
  | reset =>
    have hd' : t.defaults = s.defaults := hd.resolve_right id
    show (∃ e, Controller.resetBatches ⟨s⟩ = .error e ∧ Controller.resetBatches ⟨t⟩ = .error e) ∨
      ∃ c d, Controller.resetBatches ⟨s⟩ = .ok c ∧ Controller.resetBatches ⟨t⟩ = .ok d ∧ _
    have hrt := Controller.resetBatches_result ht
    rw [h.updates, h.accumulators, h.probabilities] at hrt
    rcases Controller.resetBatches_result hs with ⟨⟨n, u, h1, h2⟩, e1⟩ | ⟨h1, ⟨h2, c, e1⟩ | ⟨⟨n, a, h2, h3⟩, e1⟩⟩
    · rcases hrt with ⟨-, e2⟩ | ⟨k1, -⟩
      · exact .inl ⟨_, e1, e2⟩
      · rw [k1 n u h1] at h2; cases h2
    · rcases hrt with ⟨⟨n, u, k1, k2⟩, -⟩ | ⟨-, ⟨-, d, e2⟩ | ⟨⟨n, a, k1, k2⟩, -⟩⟩
      · rw [h1 n u k1] at k2; cases k2
      · obtain ⟨j1, j2⟩ := Controller.resetBatches_core h hd' e1 e2
        exact .inr ⟨c, d, e1, e2, j1, j2⟩
      · exact absurd (h2 n a k1) k2
    · rcases hrt with ⟨⟨n', u, k1, k2⟩, -⟩ | ⟨-, ⟨k1, -⟩ | ⟨-, e2⟩⟩
      · rw [h1 n' u k1] at k2; cases k2
      · exact absurd (k1 n a h2) h3
      · exact .inl ⟨_, e1, e2⟩

/-- C108.  Two well-formed states that differ only in `residuals`, `iterations`, `error_mode` and, unless there is a
`reset_batches` among the calls, in `defaults`.  Any calls raise the same exception on both, or return controllers
whose other fields are the same: cumulative probabilities, accumulators and pending updates, and so the halted
elements.  Nor do these four fields depend on each other.  Any arithmetic. -/
theorem C108_write_only : ∀ {ops : List (Op α)} {s t : ACTStates α}, s.WF → t.WF →
    t.epsilon = s.epsilon → t.depression_constant = s.depression_constant →
    t.probabilities = s.probabilities → t.accumulators = s.accumulators → t.updates = s.updates →
    (t.defaults = s.defaults ∨ ∀ op ∈ ops, op.NotReset) →
    (∃ e, run ⟨s⟩ ops = .error e ∧ run ⟨t⟩ ops = .error e) ∨
    ∃ c d, run ⟨s⟩ ops = .ok c ∧ run ⟨t⟩ ops = .ok d ∧
      (d.state.epsilon = c.state.epsilon ∧ d.depressionConstant = c.depressionConstant ∧
      d.probabilities = c.probabilities ∧ d.accumulators = c.accumulators ∧
      d.state.updates = c.state.updates ∧ d.haltedBatches = c.haltedBatches) ∧
      (t.residuals = s.residuals → d.residuals = c.residuals) ∧
      (t.iterations = s.iterations → d.iterations = c.iterations) ∧
      (t.defaults = s.defaults → d.state.defaults = c.state.defaults) ∧
      (t.error_mode = s.error_mode → d.state.error_mode = c.state.error_mode)
  | [], s, t, _, _, h1, h2, h3, h4, h5, _ =>
    .inr ⟨_, _, rfl, rfl, ⟨h1, h2, h3, h4, h5, Controller.haltedBatches_core ⟨h1, h2, h3, h4, h5⟩⟩,
      id, id, id, id⟩
  | op :: ops, s, t, hs, ht, h1, h2, h3, h4, h5, hd => by
    have hop : t.defaults = s.defaults ∨ op.NotReset := hd.imp_right fun hx => hx op (by simp)
    rcases call_core hs ht ⟨h1, h2, h3, h4, h5⟩ hop with ⟨e, e1, e2⟩ | ⟨⟨c⟩, ⟨d⟩, e1, e2, hc, hk⟩
    · left
      exact ⟨e, by simp only [run, e1]; rfl, by simp only [run, e2]; rfl⟩
    · have r1 : ∀ {s c : ACTStates α}, op.call ⟨s⟩ = .ok ⟨c⟩ → run ⟨s⟩ [op] = .ok ⟨c⟩ := fun hx => by
        simp only [run, hx]; rfl
      have ih := C108_write_only (ops := ops) (run_wf hs (r1 e1)) (run_wf ht (r1 e2)) hc.epsilon hc.depression
        hc.probabilities hc.accumulators hc.updates
        (hd.imp hk.defaults fun hx op' ho => hx op' (List.mem_cons_of_mem _ ho))
      simp only [run, e1, e2]
      rcases ih with ih | ⟨c', d', k1, k2, k3, k4, k5, k6, k7⟩
      · exact .inl ih
      · exact .inr ⟨c', d', k1, k2, k3, fun hx => k4 (hk.residuals hx), fun hx => k5 (hk.iterations hx),
          fun hx => k6 (hk.defaults hx), fun hx => k7 (hk.error_mode hx)⟩

section Example
open Fixtures
attribute [local instance] Arith.exact

/-- `simple` with other residuals, counters, defaults and error mode. -/
def scribbled : ACTStates ℚ :=
  { simple with
    residuals := vec [7, -3], iterations := vec [1000, 1/3], error_mode := some "silent"
    defaults := [("out", bare (col 8 9))] }

theorem scribbled_wf : scribbled.WF where
  floating := rfl
  res_shape := rfl
  res_dtype := rfl
  it_shape := rfl
  it_dtype := by decide
  acc_keys := by unfold Dict.WF; decide
  def_keys := by unfold Dict.WF; decide
  upd_keys := by unfold Dict.WF; decide
  def_iff := by intro n; exact Iff.rfl
  upd_iff := by intro n; exact Iff.rfl
  batched := simple_batched
  same := by
    intro n t u h1 h2
    obtain ⟨rfl, rfl⟩ := get?_one h1
    obtain ⟨-, rfl⟩ := get?_one h2
    refine ⟨rfl, ?_⟩
    exact .cons ⟨_, _, rfl, rfl, rfl, rfl⟩ .nil

/-- The theorem applies to the two states without a reset, and they give the same entries; with a reset the defaults
show. -/
theorem C108_example :
    (∃ c d, run ⟨simple⟩ (roundOps [sround [1/2, 1] 3 6, sround [1/2, 1] 5 6]) = .ok c ∧
      run ⟨scribbled⟩ (roundOps [sround [1/2, 1] 3 6, sround [1/2, 1] 5 6]) = .ok d ∧
      d.accumulators = c.accumulators ∧ d.probabilities = c.probabilities) ∧
    obs (run ⟨simple⟩ (roundOps [sround [1/2, 1] 3 6] ++ [.reset])) (fun c =>
      some (entry? c.accumulators "out" 0 [0, 0], entry? c.accumulators "out" 0 [1, 0])) =
      some (some (3/2), some 0) ∧
    obs (run ⟨scribbled⟩ (roundOps [sround [1/2, 1] 3 6] ++ [.reset])) (fun c =>
      some (entry? c.accumulators "out" 0 [0, 0], entry? c.accumulators "out" 0 [1, 0])) =
      some (some (3/2), some 9) := by
  refine ⟨?_, by decide +kernel, by decide +kernel⟩
  have hs : succeeds (run ⟨simple⟩ (roundOps [sround [1/2, 1] 3 6, sround [1/2, 1] 5 6])) = true := by
    decide +kernel
  rcases C108_write_only (ops := roundOps [sround [1/2, 1] 3 6, sround [1/2, 1] 5 6]) simple_wf scribbled_wf
    rfl rfl rfl rfl rfl (.inr (by
      intro op ho
      simp only [roundOps, Round.ops, sround, List.flatMap_cons, List.flatMap_nil, List.append_nil, List.map_cons,
        List.map_nil, List.cons_append, List.nil_append, List.mem_cons, List.not_mem_nil, or_false] at ho
      rcases ho with rfl | rfl | rfl | rfl <;> trivial)) with ⟨e, e1, -⟩ | ⟨c, d, e1, e2, e3, -⟩
  · rw [e1] at hs; cases hs
  · exact ⟨c, d, e1, e2, e3.2.2.2.1, e3.2.2.1⟩

end Example

end JaxAct
