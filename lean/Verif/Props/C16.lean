import Verif.Lemmas.Reset
import Verif.Props.Fixtures

/-!
# C16 reset_batches works for pytree accumulators

The claim is false of the code: `update_func` (`controller.py:398-399`) sets the selector up against
the whole accumulator instead of the leaf, and a container has no attribute `shape`.
Full statement: for every well-formed state without pending updates, `reset_batches` succeeds.
-/

namespace JaxAct

section AnyArith
variable {α : Type} [Arith α]

/-- What goes wrong, for every well-formed controller without pending updates: if the batch shape is
not scalar and some accumulator is a container holding at least one tensor, `reset_batches` raises
`AttributeError`. -/
theorem C16_containers_raise {s : ACTStates α} (hwf : s.WF)
    (hidle : ∀ n u, s.updates.get? n = some u → u = .none)
    (hbatch : s.probabilities.shape ≠ []) {name : String} {kind : Kind} {cs : List (PyTree (Leaf α))}
    (hacc : s.accumulators.get? name = some (.node kind cs))
    (hleaf : (PyTree.node kind cs).treeLeaves ≠ []) :
    Controller.resetBatches ⟨s⟩ = .error .attributeError := by
  rcases Controller.resetBatches_result hwf with ⟨⟨n, u, h1, h2⟩, -⟩ | ⟨-, ⟨h, -⟩ | ⟨-, h⟩⟩
  · rw [hidle n u h1] at h2; cases h2
  · rcases h name _ hacc with h | h | ⟨l, h⟩
    · exact absurd h hbatch
    · exact absurd h hleaf
    · cases h
  · exact h

/-- The part of C16 that holds.  Missing with respect to the full statement: containers with leaves
under a non-scalar batch shape (they raise, see `C16_containers_raise`).  `reset_batches` succeeds
exactly if every accumulator is a bare tensor or has no leaves at all, or the batch shape is scalar. -/
theorem C16_reset_succeeds_iff_partial {s : ACTStates α} (hwf : s.WF)
    (hidle : ∀ n u, s.updates.get? n = some u → u = .none) :
    (∃ c', Controller.resetBatches ⟨s⟩ = .ok c') ↔
      s.probabilities.shape = [] ∨ ∀ n a, s.accumulators.get? n = some a →
        a.treeLeaves = [] ∨ ∃ t, a = .leaf (.tensor t) := by
  constructor
  · rintro ⟨c', hc⟩
    rcases Controller.resetBatches_result hwf with ⟨-, h⟩ | ⟨-, ⟨h, -⟩ | ⟨-, h⟩⟩
    · rw [hc] at h; cases h
    · by_cases hb : s.probabilities.shape = []
      · exact .inl hb
      · refine .inr fun n a ha => ?_
        rcases h n a ha with h' | h' | ⟨l, rfl⟩
        · exact absurd h' hb
        · exact .inl h'
        · obtain ⟨t, rfl, -⟩ := hwf.batched n _ ha l (by show l ∈ [l]; simp)
          exact .inr ⟨t, rfl⟩
    · rw [hc] at h; cases h
  · intro hr
    rcases Controller.resetBatches_result hwf with ⟨⟨n, u, h1, h2⟩, -⟩ | ⟨-, ⟨-, h⟩ | ⟨⟨n, a, ha, hn⟩, -⟩⟩
    · rw [hidle n u h1] at h2; cases h2
    · exact h
    · exfalso
      apply hn
      rcases hr with hr | hr
      · exact .inl hr
      · rcases hr n a ha with h | ⟨t, rfl⟩
        · exact .inr (.inl h)
        · exact .inr (.inr ⟨_, rfl⟩)

end AnyArith

open Fixtures
attribute [local instance] Arith.exact

/-- C16 is false: the fresh controller with a list accumulator is a counterexample. -/
theorem C16_not_for_all : ¬ ∀ s : ACTStates ℚ, s.WF →
    (∀ n u, s.updates.get? n = some u → u = .none) →
    ∃ c', Controller.resetBatches ⟨s⟩ = .ok c' := by
  intro h
  have hidle : ∀ n u, fresh.updates.get? n = some u → u = .none := by
    intro n u hu
    rcases get?_two hu with ⟨-, rfl⟩ | ⟨-, rfl⟩ <;> rfl
  obtain ⟨c', hc⟩ := h fresh fresh_wf hidle
  have := C16_containers_raise fresh_wf hidle (by decide) (name := "tree") (kind := .list) rfl
    (by decide)
  rw [hc] at this
  cases this

/-- The condition of the partial theorem is met by `simple`, which has a bare tensor accumulator and
is reset successfully after halting. -/
example : simple.WF ∧ succeeds (run ⟨simple⟩ (roundOps [sround [1/2, 1] 4 6] ++ [.reset])) = true ∧
    raised (run ⟨fresh⟩ (roundOps [round [1/2, 1] 4 6] ++ [.reset])) = some .attributeError :=
  ⟨simple_wf, by decide +kernel, by decide +kernel⟩

end JaxAct
