import Verif.Props.C13

/-! # C12 iterate_act needs every update and then empties the slots -/

namespace JaxAct
variable {α : Type} [Arith α]

/-- C12, first part: if some accumulator has no cached update, `iterate_act` raises whatever halting
tensor it is given, and raises `RuntimeError` for a halting tensor of the right shape and dtype. -/
theorem C12_missing_update_raises {s : ACTStates α} (hwf : s.WF) {name : String}
    (hname : name ∈ s.accumulators.keys) (hmiss : s.updates.get? name = some .none)
    (h : Tensor α) :
    (∃ e, Controller.iterateAct ⟨s⟩ h = .error e) ∧
    (h.shape = s.probabilities.shape → h.dtype = s.probabilities.dtype →
      Controller.iterateAct ⟨s⟩ h = .error .runtimeError) := by
  have hno : ¬ ∀ name acc, s.accumulators.get? name = some acc →
      ∃ upd, s.updates.get? name = some upd ∧ UpdateFits s.probabilities.dtype acc upd := by
    intro hall
    obtain ⟨a, ha⟩ := Dict.mem_keys_iff.1 hname
    obtain ⟨u, h1, h2, -⟩ := hall name a ha
    rw [hmiss] at h1
    cases h1
    exact h2 rfl
  constructor
  · cases hr : Controller.iterateAct ⟨s⟩ h with
    | error e => exact ⟨e, rfl⟩
    | ok c' => exact absurd ((C13_iterate_succeeds_iff hwf h).1 ⟨c', hr⟩).2.2 hno
  · intro h1 h2
    refine (C13_iterate_errors hwf h).2.2.1.2 ⟨h1, ?_, hno⟩
    rw [h2, DType.withFloat, if_pos hwf.floating]

/-- C12, second part: after a success no update is pending, every accumulator has an empty slot, and
the names (in the same order) are unchanged. -/
theorem C12_success_empties {s : ACTStates α} (hwf : s.WF) {h : Tensor α} {c' : Controller α}
    (ok : Controller.iterateAct ⟨s⟩ h = .ok c') :
    c'.hasCachedUpdates = false ∧
    (∀ name ∈ c'.accumulators.keys, c'.state.updates.get? name = some .none) ∧
    c'.accumulators.keys = s.accumulators.keys := by
  have st := Controller.iterateAct_ok hwf ok
  have hwf' := Controller.IterStep.wf hwf st
  have hcl : ∀ name ∈ c'.accumulators.keys, c'.state.updates.get? name = some .none := by
    intro name hn
    exact st.cleared name (by rw [← st.akeys]; exact hn)
  refine ⟨?_, hcl, st.akeys⟩
  unfold Controller.hasCachedUpdates
  rw [Controller.any_pending hwf'.upd_keys]
  intro n u hu
  have hn : n ∈ c'.accumulators.keys := (hwf'.upd_iff n).1 (Dict.mem_keys_iff.2 ⟨u, hu⟩)
  rw [hcl n hn] at hu
  cases hu
  rfl

/-- C12: success needs an update in every slot, that is `updates_ready_to_commit`. -/
theorem C12_success_needs_ready {s : ACTStates α} (hwf : s.WF) {h : Tensor α} {c' : Controller α}
    (ok : Controller.iterateAct ⟨s⟩ h = .ok c') :
    (Controller.updatesReadyToCommit ⟨s⟩) = true := by
  have st := Controller.iterateAct_ok hwf ok
  unfold Controller.updatesReadyToCommit
  rw [List.all_eq_true]
  rintro ⟨n, u⟩ hm
  have hu := Dict.get?_of_mem hwf.upd_keys hm
  obtain ⟨a, ha⟩ := Dict.mem_keys_iff.1 ((hwf.upd_iff n).1 (Dict.mem_keys_iff.2 ⟨u, hu⟩))
  obtain ⟨u', a', h1, -, h3⟩ := st.tree n a ha
  rw [hu] at h1
  cases h1
  simp [h3.notNone]

section Example
open Fixtures
attribute [local instance] Arith.exact

/-- One of two updates is missing: `RuntimeError`.  With both the iteration succeeds and the slots are
empty. -/
example :
    raised (run ⟨fresh⟩ [.cache "out" (bare (col 1 1)), .iterate (vec [1, 1])]) =
      some .runtimeError ∧
    obs (run ⟨fresh⟩ (round [1/2, 1/2] 4 4).ops) (fun c => some (c.hasCachedUpdates,
      c.accumulators.keys)) = some (false, ["out", "tree"]) ∧
    fresh.updates.get? "tree" = some .none := by
  refine ⟨by decide +kernel, by decide +kernel, rfl⟩

end Example
end JaxAct
