import Verif.Props.C21

/-! # C51 Preparing lazy parameters has no effect on the result -/

namespace JaxAct
open PyTree
variable {α : Type} [Arith α]

omit [Arith α] in
/-- The preparation without the warm-up run. -/
theorem flax_prepare_false (make : PyTree (Leaf α) → α → Res (Made α))
    (runIt : Controller α → PyTree (Leaf α) → Res (Ret α)) (check : Bool) (s0 : PyTree (Leaf α))
    (dep : α) : (flaxLayer true make runIt).prepare check s0 dep =
      ((flaxLayer false make runIt).prepare check s0 dep).bind fun c =>
        (runIt c s0).bind fun _ => .ok c := by
  have hw : (flaxLayer true make runIt).wrappedMake check s0 dep =
      (flaxLayer false make runIt).wrappedMake check s0 dep := rfl
  unfold Layer.prepare
  rw [hw]
  cases (flaxLayer false make runIt).wrappedMake check s0 dep with
  | error e => rfl
  | ok made =>
    cases made with
    | other => rfl
    | ctrl c =>
      show (do
        flaxSetupLazy true runIt c s0
        pure c) = (do
          flaxSetupLazy false runIt c s0
          pure c : Res (Controller α)).bind _
      have h : flaxSetupLazy true runIt c s0 = (runIt c s0).bind fun _ => .ok () := rfl
      rw [h]
      show _ = (runIt c s0).bind fun _ => .ok c
      cases runIt c s0 <;> rfl

/-- C51: what `execute_act` returns with the warm-up run, it also returns without.  Any layer. -/
theorem C51_result_unchanged (make : PyTree (Leaf α) → α → Res (Made α))
    (runIt : Controller α → PyTree (Leaf α) → Res (Ret α)) (check : Bool) (s0 : PyTree (Leaf α))
    (dep : α) (max : Int) (c : Controller α) (s : PyTree (Leaf α))
    (h : (flaxLayer true make runIt).ExecuteAct s0 dep max check (.ok (c, s))) :
    (flaxLayer false make runIt).ExecuteAct s0 dep max check (.ok (c, s)) := by
  unfold Layer.ExecuteAct at h ⊢
  rw [flax_prepare_false] at h
  cases hp : (flaxLayer false make runIt).prepare check s0 dep with
  | error e => rw [hp] at h; cases h
  | ok c0 =>
    rw [hp] at h
    cases hr : runIt c0 s0 with
    | error e =>
      simp only [Except.bind, hr] at h
      cases h
    | ok ret =>
      simp only [Except.bind, hr] at h
      exact h

/-- C51 for jittable layers and a controller and state the loop accepts: the outcomes are the same,
exceptions included. -/
theorem C51_outcome_unchanged (make : PyTree (Leaf α) → α → Res (Made α))
    (runIt : Controller α → PyTree (Leaf α) → Res (Ret α)) (check : Bool) (s0 : PyTree (Leaf α))
    (dep : α) (max : Int)
    (hj : ∀ c0, make s0 dep = .ok (.ctrl c0) →
      (flaxLayer false make runIt).Jittable check ⟨c0, s0, ⟨0, max⟩⟩ ∧
      ∃ g, Carry.sig ⟨c0, s0, ⟨0, max⟩⟩ = some g)
    (r : Res (Controller α × PyTree (Leaf α))) :
    (flaxLayer true make runIt).ExecuteAct s0 dep max check r ↔
      (flaxLayer false make runIt).ExecuteAct s0 dep max check r := by
  cases hp : (flaxLayer false make runIt).prepare check s0 dep with
  | error e =>
    unfold Layer.ExecuteAct
    rw [flax_prepare_false, hp]
    exact Iff.rfl
  | ok c0 =>
    have hm : make s0 dep = .ok (.ctrl c0) := (Layer.prepare_ok hp).1
    cases hr : runIt c0 s0 with
    | ok ret =>
      unfold Layer.ExecuteAct
      rw [flax_prepare_false, hp]
      simp only [Except.bind, hr]
      exact Iff.rfl
    | error e =>
      obtain ⟨hjit, hg⟩ := hj c0 hm
      have h1 : (flaxLayer false make runIt).adapter check ⟨c0, s0, ⟨0, max⟩⟩ = .error e := by
        have : (flaxLayer false make runIt).runIteration c0 s0 = .error e := hr
        unfold Layer.adapter Layer.wrappedRun
        simp only [this]
        rfl
      have h2 : (flaxLayer false make runIt).adapter check (Carry.rebuild ⟨c0, s0, ⟨0, max⟩⟩) =
          .error e := by
        have := hjit (Carry.rebuild ⟨c0, s0, ⟨0, max⟩⟩) (Carry.rebuild_sig _)
        rw [h1] at this
        cases h : (flaxLayer false make runIt).adapter check (Carry.rebuild ⟨c0, s0, ⟨0, max⟩⟩) with
        | ok y => rw [h] at this; cases this
        | error e' => rw [h] at this; cases this; rfl
      rw [execute_error_of_traced hp hg h2 r]
      unfold Layer.ExecuteAct
      rw [flax_prepare_false, hp]
      simp only [Except.bind, hr]

section Example
open Fixtures
attribute [local instance] Arith.exact

/-- The hypotheses hold for the example layer: its loop succeeds with and without warm-up. -/
example (max : Int) (check : Bool) : ∃ c s,
    (flaxLayer true demoLayer.makeController demoLayer.runIteration).ExecuteAct
      (bare (vec [1/2, 2/3])) 1 max check (.ok (c, s)) := by
  obtain ⟨c, s, h⟩ := demo_executes max check
  refine ⟨c, s, (C51_outcome_unchanged _ _ check _ 1 max ?_ _).2 h⟩
  intro c0 hc
  cases hc
  exact ⟨C50_layer_jittable _ _ _ check ⟨simple⟩ _ max simple_wf rfl simple_idle (vec_tensors _)
    demo_typed, (C50_accepted_iff_partial simple_wf simple_idle (vec_tensors _) _).2 rfl⟩

end Example

end JaxAct
