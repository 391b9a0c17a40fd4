import Verif.Lemmas.History
import Verif.Props.Fixtures

/-! # C10 cache_update stores exactly one slot or raises -/

namespace JaxAct
variable {α : Type}

/-- C10, errors: `ValueError` exactly for a name without a slot, `RuntimeError` exactly for a slot
that already holds an update, no other exception, whatever the controller. -/
theorem C10_cache_errors (c : Controller α) (name : String) (item : PyTree (Leaf α)) :
    (c.cacheUpdate name item = .error .valueError ↔ name ∉ c.state.updates.keys) ∧
    (c.cacheUpdate name item = .error .runtimeError ↔
      ∃ u, c.state.updates.get? name = some u ∧ u ≠ .none) ∧
    ∀ e, c.cacheUpdate name item = .error e → e = .valueError ∨ e = .runtimeError := by
  unfold Controller.cacheUpdate
  simp only
  cases hm : c.state.updates.get? name with
  | none =>
    have h1 : c.state.updates.mem name = false := by simp [Dict.mem, hm]
    simp [h1, raise, Dict.get?_eq_none_iff.1 hm]
  | some u =>
    have h1 : c.state.updates.mem name = true := by simp [Dict.mem, hm]
    have h2 : name ∈ c.state.updates.keys := Dict.mem_keys_iff.2 ⟨u, hm⟩
    simp only [h1, not_true, if_false, Dict.getItem_ok.2 hm, ok_bind, h2, Option.some.injEq]
    cases u <;> simp [PyTree.isNone, raise, ACTStates.replace_core]

/-- C10, success: exactly if the slot exists and is empty; then the result differs only in that slot
(all other fields, the names and all other slots are the same). -/
theorem C10_cache_success (c : Controller α) (name : String) (item : PyTree (Leaf α)) :
    ((∃ c', c.cacheUpdate name item = .ok c') ↔ c.state.updates.get? name = some .none) ∧
    ∀ c', c.cacheUpdate name item = .ok c' →
      (∀ n, c'.state.updates.get? n = if n = name then some item else c.state.updates.get? n) ∧
      c'.state.updates.keys = c.state.updates.keys ∧
      c'.state.accumulators = c.state.accumulators ∧ c'.state.defaults = c.state.defaults ∧
      c'.state.probabilities = c.state.probabilities ∧ c'.state.residuals = c.state.residuals ∧
      c'.state.iterations = c.state.iterations ∧ c'.state.epsilon = c.state.epsilon ∧
      c'.state.depression_constant = c.state.depression_constant ∧
      c'.state.error_mode = c.state.error_mode := by
  refine ⟨⟨?_, ?_⟩, ?_⟩
  · rintro ⟨c', h⟩
    exact (Controller.cacheUpdate_ok_iff.1 h).empty
  · intro h
    exact ⟨⟨{ c.state with updates := c.state.updates.set name item }⟩,
      Controller.cacheUpdate_ok_iff.2 ⟨h, rfl⟩⟩
  · intro c' h
    obtain ⟨h1, h2⟩ := Controller.cacheUpdate_ok_iff.1 h
    rw [h2]
    refine ⟨fun n => ?_, Dict.keys_set_of_mem (Dict.mem_keys_iff.2 ⟨_, h1⟩) _, rfl, rfl, rfl, rfl,
      rfl, rfl, rfl, rfl⟩
    rw [Dict.get?_set]
    by_cases hn : n = name
    · rw [if_pos hn, if_pos hn.symm]
    · rw [if_neg hn, if_neg (Ne.symm hn)]

section Example
open Fixtures
attribute [local instance] Arith.exact

/-- All three outcomes. -/
example :
    raised (Controller.cacheUpdate ⟨fresh⟩ "nope" (bare (col 1 1))) = some .valueError ∧
    raised (run ⟨fresh⟩ [.cache "out" (bare (col 1 1)), .cache "out" (bare (col 2 2))]) =
      some .runtimeError ∧
    obs (Controller.cacheUpdate ⟨fresh⟩ "out" (bare (col 1 5)))
      (fun c => ACTStates.entry? c.state.updates "out" 0 [1, 0]) = some 5 := by decide +kernel

/-- Caching `None` is accepted and leaves the slot empty, so it can be cached again. -/
example : succeeds (run ⟨fresh⟩ [.cache "out" .none, .cache "out" (bare (col 2 2))]) = true := by
  decide +kernel

end Example
end JaxAct
