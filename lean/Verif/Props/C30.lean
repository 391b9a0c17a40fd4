import Verif.Lemmas.Editor
import Verif.Props.Fixtures

/-! # C30 Editor rejects unknown accumulators -/

namespace JaxAct
open Editor
variable {α : Type}

/-- C30: in standard mode each of the three setters raises for a name that is not defined:
`JaxRuntimeError`, or `KeyError` for `set_updates` with a value other than `None`. -/
theorem C30_unknown_name {e : Editor α} (hwf : e.state.WF) (hm : e.errorMode = "standard")
    {name : String} (hn : name ∉ e.state.accumulators.keys) (v : PyTree (Leaf α)) :
    e.setAccumulator name v = .error .jaxRuntimeError ∧
    e.setDefaults name v = .error .jaxRuntimeError ∧
    (v = .none → e.setUpdates name v = .error .jaxRuntimeError) ∧
    (v ≠ .none → e.setUpdates name v = .error .keyError) := by
  have hd : name ∉ e.state.defaults.keys := fun h => hn ((hwf.def_iff name).1 h)
  have ha : e.state.accumulators.mem name = false := by
    rw [Bool.eq_false_iff, ne_eq, Dict.mem_iff]; exact hn
  have hd' : e.state.defaults.mem name = false := by
    rw [Bool.eq_false_iff, ne_eq, Dict.mem_iff]; exact hd
  have hc : e.checkAgainstAccumulator name v = .ok false := by
    unfold checkAgainstAccumulator; simp [ha, hd']
  rw [setAccumulator_error_iff, setDefaults_error_iff, setUpdates_error_iff, setUpdates_error_iff,
    hc, executeValidation_error_iff hm, executeValidation_error_iff hm,
    executeValidation_error_iff hm]
  refine ⟨.inr ⟨rfl, rfl⟩, .inr ⟨rfl, rfl⟩, ?_, ?_⟩
  · rintro rfl
    right
    simp [checkUpdate, PyTree.isNone, hd']
  · intro hv
    left
    have h1 : v.isNone = false := by cases v <;> simp_all [PyTree.isNone]
    have h2 : e.state.defaults.getItem name = .error .keyError :=
      Dict.getItem_error.2 ⟨rfl, Dict.get?_eq_none_iff.2 hd⟩
    simp [checkUpdate, h1, h2, bind, Except.bind]

/-- C30: no setter adds a name: after a success in standard mode the three key lists (in order) are
what they were. -/
theorem C30_no_name_added {e e' : Editor α} (hwf : e.state.WF) (hm : e.errorMode = "standard")
    (name : String) (v : PyTree (Leaf α))
    (h : e.setAccumulator name v = .ok e' ∨ e.setDefaults name v = .ok e' ∨
      e.setUpdates name v = .ok e') :
    name ∈ e.state.accumulators.keys ∧
    e'.state.accumulators.keys = e.state.accumulators.keys ∧
    e'.state.defaults.keys = e.state.defaults.keys ∧
    e'.state.updates.keys = e.state.updates.keys := by
  have key : name ∈ e.state.accumulators.keys := by
    by_contra hn
    obtain ⟨h1, h2, h3, h4⟩ := C30_unknown_name hwf hm hn v
    rcases h with h | h | h
    · rw [h1] at h; cases h
    · rw [h2] at h; cases h
    · by_cases hv : v = .none
      · rw [h3 hv] at h; cases h
      · rw [h4 hv] at h; cases h
  refine ⟨key, ?_⟩
  rcases h with h | h | h
  · obtain ⟨-, rfl⟩ := setAccumulator_ok_iff.1 h
    exact ⟨Dict.keys_set_of_mem key v, rfl, rfl⟩
  · obtain ⟨-, rfl⟩ := setDefaults_ok_iff.1 h
    exact ⟨rfl, Dict.keys_set_of_mem ((hwf.def_iff name).2 key) v, rfl⟩
  · obtain ⟨-, rfl⟩ := setUpdates_ok_iff.1 h
    exact ⟨rfl, rfl, Dict.keys_set_of_mem ((hwf.upd_iff name).2 key) v⟩

/-- C30, other side: outside standard mode an unknown name is stored without complaint, which breaks
the alignment of the dictionaries. -/
theorem C30_silence_adds {e : Editor α} (hm : e.errorMode ≠ "standard") (name : String)
    (v : PyTree (Leaf α)) :
    e.setAccumulator name v =
      .ok ⟨{ e.state with accumulators := e.state.accumulators.set name v }, e.errorMode⟩ :=
  setAccumulator_ok_iff.2 ⟨executeValidation_silent hm _, rfl⟩

section Example
open Fixtures
attribute [local instance] Arith.exact

example : fresh.WF ∧ "nope" ∉ fresh.accumulators.keys ∧
    raised (Editor.setAccumulator ⟨fresh, "standard"⟩ "nope" (bare (col 1 1)))
      = some .jaxRuntimeError ∧
    raised (Editor.setUpdates ⟨fresh, "standard"⟩ "nope" (bare (col 1 1))) = some .keyError ∧
    raised (Editor.setUpdates ⟨fresh, "standard"⟩ "out" (bare (col 1 1))) = none ∧
    (Editor.setAccumulator ⟨fresh, "silence"⟩ "nope" .none).toOption.map
      (fun e => e.state.accumulators.keys) = some ["out", "tree", "nope"] :=
  ⟨fresh_wf, by decide, by decide +kernel, by decide +kernel, by decide +kernel, by decide +kernel⟩

end Example
end JaxAct
