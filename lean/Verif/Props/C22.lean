import Verif.Lemmas.Sig
import Verif.Props.C20
import Verif.Props.C50

/-! # C22 The make_controller contract -/

namespace JaxAct
open PyTree
variable {α : Type}

/-- With checks on, `execute_act` gets past the preparation with controller `c` exactly if
`make_controller` returned `c`, `c` has an accumulator, and the lazy setup did not raise. -/
theorem prepare_ok_iff {l : Layer α} {s0 : PyTree (Leaf α)} {dep : α} {c : Controller α} :
    l.prepare true s0 dep = .ok c ↔ l.makeController s0 dep = .ok (.ctrl c) ∧
      c.state.accumulators ≠ [] ∧ l.setupLazyParameters c s0 = .ok () := by
  constructor
  · intro h
    obtain ⟨h1, h2, h3⟩ := Layer.prepare_ok h
    exact ⟨h1, h3 rfl, h2⟩
  · rintro ⟨h1, h2, h3⟩
    unfold Layer.prepare Layer.wrappedMake
    rw [h1]
    have hv : validateNotEmpty c = .ok () := by
      unfold validateNotEmpty
      rw [if_neg (by simpa using h2)]
    show (do
      let made ← (do
        validateNotEmpty c
        pure (Made.ctrl c))
      match made with
      | .ctrl c => do
        l.setupLazyParameters c s0
        pure c
      | .other => raise .attributeError) = _
    rw [hv]
    show (do
      l.setupLazyParameters c s0
      pure c) = _
    rw [h3]
    rfl

variable [Arith α]

/-- C22: not a controller. -/
theorem C22_not_a_controller (l : Layer α) (s0 : PyTree (Leaf α)) (dep : α) (max : Int)
    (h : l.makeController s0 dep = .ok .other) (r : Res (Controller α × PyTree (Leaf α))) :
    l.ExecuteAct s0 dep max true r ↔ r = .error .typeError := by
  have : l.prepare true s0 dep = .error .typeError := by
    unfold Layer.prepare Layer.wrappedMake
    rw [h]
    rfl
  unfold Layer.ExecuteAct
  rw [this]

/-- C22: no accumulators. -/
theorem C22_no_accumulators (l : Layer α) (s0 : PyTree (Leaf α)) (dep : α) (max : Int)
    (c : Controller α) (h : l.makeController s0 dep = .ok (.ctrl c))
    (hc : c.state.accumulators = []) (r : Res (Controller α × PyTree (Leaf α))) :
    l.ExecuteAct s0 dep max true r ↔ r = .error .runtimeError := by
  have : l.prepare true s0 dep = .error .runtimeError := by
    unfold Layer.prepare Layer.wrappedMake
    rw [h]
    have hv : validateNotEmpty c = .error .runtimeError := by
      unfold validateNotEmpty
      rw [hc]
      rfl
    show (do
      let made ← (do
        validateNotEmpty c
        pure (Made.ctrl c))
      match made with
      | .ctrl c => do
        l.setupLazyParameters c s0
        pure c
      | .other => raise .attributeError) = _
    rw [hv]
    rfl
  unfold Layer.ExecuteAct
  rw [this]

/-- C22: otherwise the loop starts from that controller, unchanged, and the initial state. -/
theorem C22_used_unchanged (l : Layer α) (s0 : PyTree (Leaf α)) (dep : α) (max : Int)
    (c : Controller α) (h : l.makeController s0 dep = .ok (.ctrl c))
    (hc : c.state.accumulators ≠ []) (hl : l.setupLazyParameters c s0 = .ok ())
    (r : Res (Controller α × PyTree (Leaf α))) :
    l.ExecuteAct s0 dep max true r ↔
      ∃ q, WhileLoop Carry.sig Carry.rebuild isActNotComplete (l.adapter true)
        ⟨c, s0, ⟨0, max⟩⟩ q ∧ r = q.map fun x => (x.controller, x.state) := by
  unfold Layer.ExecuteAct
  rw [prepare_ok_iff.2 ⟨h, hc, hl⟩]

/-- C22, observed: when nothing has to be run, what is returned is that controller and state, with dicts
compared as mappings. -/
theorem C22_returned_unchanged (l : Layer α) (s0 : PyTree (Leaf α)) (dep : α) (max : Int)
    (hmax : max ≤ 0) (c : Controller α) (h : l.makeController s0 dep = .ok (.ctrl c))
    (hd : c.state.DictsWF) (hs : s0.WF) (check : Bool) (c' : Controller α) (s' : PyTree (Leaf α))
    (hr : l.ExecuteAct s0 dep max check (.ok (c', s'))) :
    c'.state.Same c.state ∧ PyTree.SameMapping s' s0 := by
  obtain ⟨c0, k, h1, h2, ⟨traj, h3, h4, h5⟩, -⟩ := C20_result l s0 dep max check c' s' hr
  rw [h] at h1
  cases h1
  have hk : k = 0 := by omega
  subst hk
  rw [h3] at h4
  cases h4
  exact ⟨ACTStates.sorted_same hd, sameMapping_canon hs⟩

section Example
open Fixtures
attribute [local instance] Arith.exact

/-- Both exceptions, and a controller that is used. -/
example (r : Res (Controller ℚ × PyTree (Leaf ℚ))) :
    ((callLayer (fun _ _ => .ok .other) (fun s => (demoRound s).ops) id).ExecuteAct
      (bare (vec [1/2, 2/3])) 1 5 true r ↔ r = .error .typeError) ∧
    ((callLayer (fun _ _ => .ok (.ctrl ⟨{ simple with accumulators := [] }⟩))
      (fun s => (demoRound s).ops) id).ExecuteAct
      (bare (vec [1/2, 2/3])) 1 5 true r ↔ r = .error .runtimeError) ∧
    (demoLayer.prepare true (bare (vec [1/2, 2/3])) 1 = .ok ⟨simple⟩) :=
  ⟨C22_not_a_controller _ _ _ _ rfl _, C22_no_accumulators _ _ _ _ _ rfl rfl _,
    prepare_ok_iff.2 ⟨rfl, by simp [simple], rfl⟩⟩

end Example

end JaxAct
