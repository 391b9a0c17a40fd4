import Verif.Lemmas.Builder
import Verif.Props.Fixtures

/-! # C27 Deleting a definition -/

namespace JaxAct
variable {α : Type}
open Builder

/-- C27: deleting a defined accumulator succeeds, removes it from all three dictionaries and leaves
every other name and every other field unchanged. -/
theorem C27_delete_defined {s : ACTStates α} (hwf : s.WF) {name : String}
    (hn : name ∈ s.accumulators.keys) :
    ∃ b', deleteDefinition ⟨s⟩ name = .ok b' ∧
      (∀ n, b'.state.defaults.get? n = if n = name then none else s.defaults.get? n) ∧
      (∀ n, b'.state.accumulators.get? n = if n = name then none else s.accumulators.get? n) ∧
      (∀ n, b'.state.updates.get? n = if n = name then none else s.updates.get? n) ∧
      b'.state.epsilon = s.epsilon ∧ b'.state.probabilities = s.probabilities ∧
      b'.state.residuals = s.residuals ∧ b'.state.iterations = s.iterations ∧
      b'.state.depression_constant = s.depression_constant ∧
      b'.state.error_mode = s.error_mode := by
  refine ⟨_, delete_ok_iff.2 ⟨(hwf.def_iff _).2 hn, hn, (hwf.upd_iff _).2 hn, rfl⟩,
    fun n => ?_, fun n => ?_, fun n => ?_, rfl, rfl, rfl, rfl, rfl, rfl⟩
  · simp only [Dict.get?_erase hwf.def_keys, eq_comm (a := name)]
  · simp only [Dict.get?_erase hwf.acc_keys, eq_comm (a := name)]
  · simp only [Dict.get?_erase hwf.upd_keys, eq_comm (a := name)]

/-- C27: a name missing from any of the three dictionaries raises `KeyError`, and nothing else
raises. -/
theorem C27_delete_error_iff (b : Builder α) (name : String) (e : Err) :
    b.deleteDefinition name = .error e ↔ e = .keyError ∧ (b.state.defaults.get? name = none ∨
      b.state.accumulators.get? name = none ∨ b.state.updates.get? name = none) := by
  rw [delete_error_iff]
  simp only [Dict.get?_eq_none_iff]

/-- C27: defining a new name and deleting it gives back the builder (not only an equal mapping:
even the order of the entries). -/
theorem C27_define_delete {s : ACTStates α} (hwf : s.WF) {name : String}
    (hn : name ∉ s.accumulators.keys) {t : PyTree (Leaf α)} {b' : Builder α}
    (h : defineAccumulatorDirectly ⟨s⟩ name t = .ok b') :
    b'.deleteDefinition name = .ok ⟨s⟩ := by
  obtain ⟨-, rfl⟩ := define_ok_iff.1 h
  rw [delete_ok_iff]
  have hd : name ∉ s.defaults.keys := fun h => hn ((hwf.def_iff _).1 h)
  have hu : name ∉ s.updates.keys := fun h => hn ((hwf.upd_iff _).1 h)
  refine ⟨Dict.mem_keys_set.2 (.inl rfl), Dict.mem_keys_set.2 (.inl rfl),
    Dict.mem_keys_set.2 (.inl rfl), ?_⟩
  simp only [Dict.erase_set_of_not_mem hd, Dict.erase_set_of_not_mem hn,
    Dict.erase_set_of_not_mem hu]

/-- C27: deleting and defining again the same tree also gives the same lookups when no update is
pending and the accumulator holds its default. -/
theorem C27_delete_define {s : ACTStates α} (hwf : s.WF) {name : String} {t : PyTree (Leaf α)}
    (hd : s.defaults.get? name = some t) (ha : s.accumulators.get? name = some t)
    (hu : s.updates.get? name = some .none) :
    ∃ b₁ b₂, deleteDefinition ⟨s⟩ name = .ok b₁ ∧ b₁.defineAccumulatorDirectly name t = .ok b₂ ∧
      ∀ n, b₂.state.defaults.get? n = s.defaults.get? n ∧
        b₂.state.accumulators.get? n = s.accumulators.get? n ∧
        b₂.state.updates.get? n = s.updates.get? n := by
  have hn : name ∈ s.accumulators.keys := Dict.mem_keys_iff.2 ⟨t, ha⟩
  refine ⟨_, _, delete_ok_iff.2 ⟨(hwf.def_iff _).2 hn, hn, (hwf.upd_iff _).2 hn, rfl⟩,
    define_ok_iff.2 ⟨hwf.batched _ _ ha, rfl⟩, fun n => ?_⟩
  simp only [Dict.get?_set, Dict.get?_erase hwf.def_keys, Dict.get?_erase hwf.acc_keys,
    Dict.get?_erase hwf.upd_keys]
  by_cases hnn : name = n
  · subst hnn; simp [hd, ha, hu]
  · simp [hnn]

section Example
open Fixtures

example : raised (deleteDefinition ⟨fresh⟩ "out") = none ∧
    raised (deleteDefinition ⟨fresh⟩ "missing") = some .keyError ∧
    "out" ∈ fresh.accumulators.keys ∧ "missing" ∉ fresh.accumulators.keys := by decide +kernel

end Example
end JaxAct
