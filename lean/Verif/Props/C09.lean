import Verif.Lemmas.Agree
import Verif.Props.Fixtures

/-! # C09 Batch elements are independent -/

namespace JaxAct
open ACTStates
variable {α : Type} [Arith α]

/-- C09 for `iterate_act`, any arithmetic. -/
theorem C09_iterate_independent {s t : ACTStates α} (hs : s.WF) (ht : t.WF) {b : List Nat}
    {p : α} (hb : s.probabilities.at? b = some p) {h g : Tensor α} (hd : h.dtype = g.dtype)
    (hv : h.at? b = g.at? b) (hag : AgreeAt b b s t) {c d : Controller α}
    (h1 : Controller.iterateAct ⟨s⟩ h = .ok c) (h2 : Controller.iterateAct ⟨t⟩ g = .ok d) :
    AgreeAt b b c.state d.state := hag.iterateAct hs ht hb hd hv h1 h2

/-- C09 for `reset_batches`, any arithmetic. -/
theorem C09_reset_independent {s t : ACTStates α} (hs : s.WF) (ht : t.WF) {b : List Nat}
    {p : α} (hb : s.probabilities.at? b = some p) (hag : AgreeAt b b s t) {c d : Controller α}
    (h1 : Controller.resetBatches ⟨s⟩ = .ok c) (h2 : Controller.resetBatches ⟨t⟩ = .ok d) :
    AgreeAt b b c.state d.state := hag.resetBatches hs ht hb h1 h2

/-- C09 over whole histories, any arithmetic: controllers that agree at `b` and receive calls that
agree at `b` still agree at `b`. -/
theorem C09_batch_independence {s t : ACTStates α} (hs : s.WF) (ht : t.WF) {b : List Nat}
    {p : α} (hb : s.probabilities.at? b = some p) (hag : AgreeAt b b s t)
    {ops ops' : List (Op α)} (hops : List.Forall₂ (OpAgree b b) ops ops') {c d : Controller α}
    (h1 : run ⟨s⟩ ops = .ok c) (h2 : run ⟨t⟩ ops' = .ok d) : AgreeAt b b c.state d.state :=
  hag.run hs ht hb hops h1 h2

section Example
open Fixtures
attribute [local instance] Arith.exact

/-- Two runs that differ everywhere except at element 0. -/
example : obs (run ⟨fresh⟩ (roundOps [round [1/2, 2/3] 4 4, round [1/4, 2/3] 8 8]))
    (fun c => some (entry? c.accumulators "tree" 0 [0], entry? c.accumulators "tree" 0 [1])) =
      some (some 4, some (16/3)) ∧
    obs (run ⟨fresh⟩ (roundOps [round [1/2, 1] 4 7, round [1/4, -1] 8 9]))
    (fun c => some (entry? c.accumulators "tree" 0 [0], entry? c.accumulators "tree" 0 [1])) =
      some (some 4, some 7) := by decide +kernel

/-- The halting tensors of the first rounds agree at 0 but not at 1. -/
example : OpAgree [0] [0] (.iterate (vec [1/2, 2/3])) (.iterate (vec [1/2, 1])) ∧
    (vec [1/2, 2/3]).at? [1] ≠ (vec [1/2, 1]).at? [1] :=
  ⟨.iterate rfl (by decide +kernel), by decide +kernel⟩

end Example

end JaxAct
