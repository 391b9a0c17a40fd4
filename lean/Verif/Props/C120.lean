import Verif.Props.C58
import Verif.Props.C73
import Verif.Props.C80

/-!
# C120 A batch that is halted or empty costs no iteration

The loop of `execute_act` tests before the first iteration.  Nothing is done when there is nothing to do, and only
then.
-/

namespace JaxAct
open PyTree ACTStates

section AnyArith
variable {α : Type} [Arith α]

/-- C120.  If every batch element of the controller that `make_controller` returns is halted, `execute_act` returns
this controller and the initial state, whatever the layer and the maximum. -/
theorem C120_halted_from_the_start (l : Layer α) (s0 : PyTree (Leaf α)) (dep : α) (max : Int) (check : Bool)
    {c0 c : Controller α} {s : PyTree (Leaf α)} (hmake : l.makeController s0 dep = .ok (.ctrl c0))
    (hall : AllHalted c0) (h : l.ExecuteAct s0 dep max check (.ok (c, s))) :
    LoopState.mk c s = (LoopState.mk c0 s0).keyOrder := by
  obtain ⟨c1, k, h1, -, h3⟩ := C20_result l s0 dep max check c s h
  rw [hmake] at h1
  cases h1
  obtain ⟨traj, t0, t1, step⟩ := h3.path
  rcases Nat.eq_zero_or_pos k with rfl | hk
  · exact t1.symm.trans t0
  · refine absurd ?_ (step 0 hk).1
    rw [t0]
    exact hall

/-- C120, empty batches: if a dimension of the batch shape is 0 then no iteration is run. -/
theorem C120_empty_batch (l : Layer α) (s0 : PyTree (Leaf α)) (dep : α) (max : Int) (check : Bool)
    {c0 c : Controller α} {s : PyTree (Leaf α)} (hmake : l.makeController s0 dep = .ok (.ctrl c0))
    (hempty : 0 ∈ c0.probabilities.shape) (h : l.ExecuteAct s0 dep max check (.ok (c, s))) :
    LoopState.mk c s = (LoopState.mk c0 s0).keyOrder :=
  C120_halted_from_the_start l s0 dep max check hmake
    (isCompletelyHalted_iff.1 (C58_empty_batch c0 hempty).1) h

/-- C120, converse: if some batch element is not halted and the maximum is positive, `run_iteration` is run, and on
the controller and state the loop starts with. -/
theorem C120_otherwise_runs (l : Layer α) (s0 : PyTree (Leaf α)) (dep : α) {max : Int} (hmax : 0 < max)
    (check : Bool) {c0 c : Controller α} {s : PyTree (Leaf α)}
    (hmake : l.makeController s0 dep = .ok (.ctrl c0)) (hopen : ¬ AllHalted c0)
    (h : l.ExecuteAct s0 dep max check (.ok (c, s))) :
    ∃ y, l.Runs (LoopState.mk c0 s0).keyOrder y := by
  obtain ⟨c1, k, h1, -, h3⟩ := C20_result l s0 dep max check c s h
  rw [hmake] at h1
  cases h1
  obtain ⟨traj, t0, t1, step⟩ := h3.path
  rcases Nat.eq_zero_or_pos k with rfl | hk
  · exfalso
    rcases h3.stopped with hs | hs
    · apply hopen
      have e : LoopState.mk c s = (LoopState.mk c0 s0).keyOrder := t1.symm.trans t0
      have e' : c = (LoopState.mk c0 s0).keyOrder.controller := congrArg LoopState.controller e
      rw [e'] at hs
      exact hs
    · simp at hs; omega
  · obtain ⟨-, -, y, hy, -⟩ := step 0 hk
    rw [t0] at hy
    exact ⟨y, hy⟩

/-- C120: with an empty batch no accumulator, default or residual has an entry, and after any history this is so. -/
theorem C120_empty_no_entries {s : ACTStates α} (hwf : s.WF) (hempty : 0 ∈ s.probabilities.shape)
    (ops : List (Op α)) {c : Controller α} (hrun : run ⟨s⟩ ops = .ok c) :
    c.isCompletelyHalted = true ∧ c.isAnyHalted = false ∧
    (∀ b, c.probabilities.at? b = Option.none ∧ c.residuals.at? b = Option.none ∧
      c.iterations.at? b = Option.none) ∧
    ∀ (name : String) (k : Nat) (i : List Nat), entry? c.accumulators name k i = Option.none := by
  have w : c.state.WF := run_wf hwf hrun
  have hsh : c.state.probabilities.shape = s.probabilities.shape := (C14_types_invariant hwf _ hrun).2.2.1
  have hc : 0 ∈ c.state.probabilities.shape := hsh ▸ hempty
  have out : ∀ {sh i : List Nat}, 0 ∈ sh → ¬ InB sh i := by
    intro sh i h0 hi
    induction hi with
    | nil => cases h0
    | cons hk _ ih =>
      rcases List.mem_cons.1 h0 with rfl | h0
      · omega
      · exact ih h0
  refine ⟨(C58_empty_batch c hc).1, (C58_empty_batch c hc).2, fun b => ⟨?_, ?_, ?_⟩, fun name k i => ?_⟩
  · exact Arr.at?_of_not (out hc)
  · exact Arr.at?_of_not (out (by rw [show c.residuals.arr.shape = _ from w.res_shape]; exact hc))
  · exact Arr.at?_of_not (out (by rw [show c.iterations.arr.shape = _ from w.it_shape]; exact hc))
  · unfold entry? leaf?
    cases hg : c.accumulators.get? name with
    | none => rfl
    | some t =>
      simp only
      cases hl : t.treeLeaves[k]? with
      | none => rfl
      | some l =>
        obtain ⟨a, rfl, -, ⟨r, hr⟩⟩ := w.batched name t hg l (List.mem_of_getElem? hl)
        exact Arr.at?_of_not (out (by
          rw [show a.arr.shape = _ from hr.symm]; exact List.mem_append_left _ hc))

end AnyArith

section Example
open Fixtures
attribute [local instance] Arith.exact

/-- `simple` with both elements halted. -/
def finished : ACTStates ℚ := { simple with probabilities := vec [1, 1] }

theorem finished_wf : finished.WF :=
  { simple_wf with floating := rfl, res_shape := rfl, res_dtype := rfl, it_shape := rfl }

/-- `simple` with no batch elements: batch shape `(0,)`, one accumulator of shape `(0, 2)`. -/
def nobody : ACTStates ℚ :=
  { simple with
    probabilities := Tensor.zeros [0] .f32
    residuals := Tensor.zeros [0] .f32
    iterations := Tensor.zeros [0] .f32
    defaults := [("out", bare (Tensor.zeros [0, 2] .f32))]
    accumulators := [("out", bare (Tensor.zeros [0, 2] .f32))] }

theorem nobody_wf : nobody.WF where
  floating := rfl
  res_shape := rfl
  res_dtype := rfl
  it_shape := rfl
  it_dtype := by decide
  acc_keys := by unfold Dict.WF; decide
  def_keys := by unfold Dict.WF; decide
  upd_keys := by unfold Dict.WF; decide
  def_iff := fun _ => Iff.rfl
  upd_iff := fun _ => Iff.rfl
  batched := by
    intro n t h l hl
    rw [(get?_one h).2] at hl
    exact ⟨_, List.mem_singleton.1 hl, rfl, [2], rfl⟩
  same := by
    intro n t u h1 h2
    have : some t = some u := h1.symm.trans h2
    cases this
    rw [(get?_one h1).2]
    exact ⟨rfl, .cons ⟨_, _, rfl, rfl, rfl, rfl⟩ .nil⟩

/-- The growing layer of C80 with another initial controller. -/
def growFrom (st : ACTStates ℚ) : Layer ℚ :=
  callLayer (fun _ _ => .ok (.ctrl ⟨st⟩)) (fun s => (demoRound s).ops) grow

/-- Both elements are halted from the start: the state, which every iteration would change, comes back as it was. -/
theorem C120_example_halted : ∃ c s,
    (growFrom finished).ExecuteAct (bare (vec [3/4, 0])) 1 10 true (.ok (c, s)) ∧
    LoopState.mk c s = (LoopState.mk ⟨finished⟩ (bare (vec [3/4, 0]))).keyOrder ∧ stateAt0 s = some (3/4) := by
  have hok : succeeds (run ⟨finished⟩ (demoRound (bare (vec [3/4, 0]))).ops) = true := by decide +kernel
  cases hr : run ⟨finished⟩ (demoRound (bare (vec [3/4, 0]))).ops with
  | error e => rw [hr] at hok; cases hok
  | ok c1 =>
    obtain ⟨c, s, h⟩ := C50_execute_act_succeeds (fun _ _ => .ok (.ctrl ⟨finished⟩)) demoRound grow true ⟨finished⟩
      c1 (bare (vec [3/4, 0])) 1 10 rfl finished_wf rfl (by simp [finished, simple]) simple_idle (vec_tensors _)
      (grow_typed _ _) hr
    have e := C120_halted_from_the_start _ _ _ _ _ (c0 := ⟨finished⟩) rfl
      (isCompletelyHalted_iff.1 (by decide +kernel)) h
    refine ⟨c, s, h, e, ?_⟩
    have es : s = (LoopState.mk (⟨finished⟩ : Controller ℚ) (bare (vec [3/4, 0]))).keyOrder.state :=
      congrArg LoopState.state e
    rw [es]
    decide +kernel

/-- The round of a layer for an empty batch. -/
def emptyRound : PyTree (Leaf ℚ) → Round ℚ
  | .leaf (.tensor t) => ⟨[("out", bare (Tensor.zeros [0, 2] .f32))], t⟩
  | _ => ⟨[], vec []⟩

/-- An empty batch: the result is the initial controller, which is completely halted without any element being
halted. -/
theorem C120_example_empty : ∃ c s,
    (callLayer (fun _ _ => .ok (.ctrl ⟨nobody⟩)) (fun s => (emptyRound s).ops) id).ExecuteAct
      (bare (Tensor.zeros [0] .f32)) 1 10 true (.ok (c, s)) ∧
    LoopState.mk c s = (LoopState.mk ⟨nobody⟩ (bare (Tensor.zeros [0] .f32))).keyOrder ∧
    c.isCompletelyHalted = true ∧ c.isAnyHalted = false := by
  have hok : succeeds (run ⟨nobody⟩ (emptyRound (bare (Tensor.zeros [0] .f32))).ops) = true := by decide +kernel
  cases hr : run ⟨nobody⟩ (emptyRound (bare (Tensor.zeros [0] .f32))).ops with
  | error e => rw [hr] at hok; cases hok
  | ok c1 =>
    obtain ⟨c, s, h⟩ := C50_execute_act_succeeds (fun _ _ => .ok (.ctrl ⟨nobody⟩)) emptyRound id true ⟨nobody⟩
      c1 (bare (Tensor.zeros [0] .f32)) 1 10 rfl nobody_wf rfl (by simp [nobody]) simple_idle
      (fun l hl => ⟨_, List.mem_singleton.1 hl⟩) (by
        refine ⟨fun s hs => ?_, fun s hs => hs⟩
        obtain ⟨l, rfl⟩ := hs.leaf_iff.1 ⟨_, rfl⟩
        have h2 := hs.2
        simp only [bare, treeLeaves, PyTree.canon, leaves, List.map_cons, List.map_nil, List.cons.injEq,
          and_true] at h2
        obtain ⟨t, rfl, h3, h4⟩ := Leaf.type_some.1 h2.symm
        exact .cons (.cache _ (.refl _)) (.cons (.iterate ⟨h3.symm, h4.symm⟩) .nil)) hr
    have e := C120_empty_batch _ _ _ _ _ (c0 := ⟨nobody⟩) rfl (by decide) h
    have ec : c = (LoopState.mk (⟨nobody⟩ : Controller ℚ) (bare (Tensor.zeros [0] .f32))).keyOrder.controller :=
      congrArg LoopState.controller e
    refine ⟨c, s, h, e, ?_⟩
    rw [ec]
    exact ⟨by decide +kernel, by decide +kernel⟩

/-- After a round the empty batch is as it was: the theorem applies to a history. -/
example : ∃ c, run ⟨nobody⟩ (emptyRound (bare (Tensor.zeros [0] .f32))).ops = .ok c ∧ c.isAnyHalted = false ∧
    entry? c.accumulators "out" 0 [0, 0] = Option.none := by
  have hok : succeeds (run ⟨nobody⟩ (emptyRound (bare (Tensor.zeros [0] .f32))).ops) = true := by decide +kernel
  cases hr : run ⟨nobody⟩ (emptyRound (bare (Tensor.zeros [0] .f32))).ops with
  | error e => rw [hr] at hok; cases hok
  | ok c =>
    have h := C120_empty_no_entries nobody_wf (by decide) _ hr
    exact ⟨c, rfl, h.2.1, h.2.2.2 _ _ _⟩

/-- With an element that is not halted an iteration is run. -/
example : ∃ y, growLayer.Runs (LoopState.mk ⟨simple⟩ (bare (vec [3/4, 0]))).keyOrder y := by
  obtain ⟨c, s, h⟩ := grow_executes (x := 3/4) (y := 0) 10 true (by decide +kernel)
  exact C120_otherwise_runs growLayer _ _ (by norm_num) _ (c0 := ⟨simple⟩) rfl
    (fun hall => absurd (isCompletelyHalted_iff.2 hall) (by decide +kernel)) h

end Example
end JaxAct
