import Verif.Lemmas.Flatten
import Verif.Props.C35

/-! # C34 Pytree round trip -/

namespace JaxAct
open PyTree
variable {α β γ : Type}

/-- C34, states: `tree_unflatten(treedef, leaves)` of a flattened state rebuilds a well typed state
equal to the original, dicts compared as mappings at every depth. -/
theorem C34_state (s : ACTStates α) (h : s.DictsWF) :
    ∃ s' : ACTStates α,
      treeUnflattenState (treeFlattenState s.raw).2 (treeFlattenState s.raw).1 = .ok s'.raw ∧
      s'.Same s :=
  ⟨s.sorted, by rw [treeUnflattenState_roundtrip, ACTStates.raw_canon], ACTStates.sorted_same h⟩

/-- C34, the four classes: the rebuilt object is of the same class, its state is equal to the original
one, and an editor keeps its error mode (valid or not). -/
theorem C34_objects (s : ACTStates α) (h : s.DictsWF) (mode : String) :
    ∃ s' : ACTStates α, s'.Same s ∧
      unflattenObj (flattenObj (Controller.mk s).raw).2 (flattenObj (Controller.mk s).raw).1
        = .ok (Controller.mk s').raw ∧
      unflattenObj (flattenObj (Builder.mk s).raw).2 (flattenObj (Builder.mk s).raw).1
        = .ok (Builder.mk s').raw ∧
      unflattenObj (flattenObj (Viewer.mk s).raw).2 (flattenObj (Viewer.mk s).raw).1
        = .ok (Viewer.mk s').raw ∧
      unflattenObj (flattenObj (Editor.mk s mode).raw).2 (flattenObj (Editor.mk s mode).raw).1
        = .ok (Editor.mk s' mode).raw := by
  obtain ⟨s', h1, h2⟩ := C34_state s h
  refine ⟨s', h2, ?_, ?_, ?_, ?_⟩ <;>
  · simp only [flattenObj, unflattenObj, Controller.raw, Builder.raw, Viewer.raw, Editor.raw, h1]
    rfl

/-- The typed view used above loses nothing: different states, and editors differing in the mode, are
different objects. -/
theorem C34_objects_distinct (s s' : ACTStates α) (m m' : String) :
    (s.raw = s'.raw → s = s') ∧
    ((Editor.mk s m).raw = (Editor.mk s' m').raw → s = s' ∧ m = m') := by
  refine ⟨ACTStates.raw_injective, fun h => ?_⟩
  simp only [Editor.raw, RawObj.mk.injEq, ObjClass.editor.injEq] at h
  exact ⟨ACTStates.raw_injective h.2, h.1⟩

/-- C34, the other direction, for every class and any values in the leaf positions (as `tree_map`, `jit` and
`while_loop` put there): unflattening with the right number of values succeeds and flattening the
result gives back the values and the treedef. -/
theorem C34_rebuild (o : RawObj β) (ls : List γ) (h : ls.length = (flattenObj o).1.length) :
    ∃ o' : RawObj γ, unflattenObj (flattenObj o).2 ls = .ok o' ∧ o'.cls = o.cls ∧
      flattenObj o' = (ls, (flattenObj o).2) := by
  obtain ⟨c, s⟩ := o
  have hl : ls.length = (treeFlattenState s).1.length := by cases c <;> exact h
  obtain ⟨r, h1, h2, h3⟩ := treeUnflattenState_ok s ls hl
  have h4 := treeUnflattenState_flatten h2 h3
  refine ⟨⟨c, r⟩, ?_, rfl, ?_⟩
  · cases c <;> · simp only [flattenObj, unflattenObj, h1]; rfl
  · cases c <;> simp only [flattenObj, h4]

/-- C34: with any other number of values the rebuild raises `ValueError`. -/
theorem C34_wrong_number (o : RawObj β) (ls : List γ) (h : ls.length ≠ (flattenObj o).1.length) :
    unflattenObj (flattenObj o).2 ls = .error .valueError := by
  obtain ⟨c, s⟩ := o
  have hl : ls.length ≠ (treeFlattenState s).2.lens.sum := by
    have : (treeFlattenState s).2.lens.sum = (treeFlattenState s).1.length := by
      rw [treeFlattenState_eq, List.length_flatten, List.map_map]; rfl
    rw [this]
    cases c <;> exact h
  have h1 := treeUnflattenState_error _ ls hl
  cases c <;> · simp only [flattenObj, unflattenObj, h1]; rfl

/-- C34: the registered `state_unflatten` on arbitrary arguments.  Each group of leaves must have the number
of leaves of the treedef it is paired with, otherwise `ValueError`; and there must be nine pairs, one for
each field, otherwise `TypeError` from the constructor. -/
theorem C34_state_unflatten (aux : List TreeDef) (flat : List (List β)) :
    (¬ (∀ x ∈ flat.zip aux, x.1.length = x.2.leaves.length) →
      stateUnflatten aux flat = .error .valueError) ∧
    ((∀ x ∈ flat.zip aux, x.1.length = x.2.leaves.length) →
      (min flat.length aux.length = 9 → ∃ s : RawState β, stateUnflatten aux flat = .ok s) ∧
      (min flat.length aux.length ≠ 9 → stateUnflatten aux flat = .error .typeError)) := by
  obtain ⟨h1, h2⟩ := unflattenFields_zip flat aux
  refine ⟨fun h => by simp only [stateUnflatten, h2 h]; rfl, fun h => ?_⟩
  obtain ⟨ts, h3, h4⟩ := h1 h
  rw [← h4]
  simp only [stateUnflatten, h3]
  refine ⟨fun h9 => ?_, fun h9 => ?_⟩
  · obtain ⟨r, hr, -⟩ := RawState.ofValues_fields h9
    exact ⟨r, hr⟩
  · show RawState.ofValues ts = _
    unfold RawState.ofValues
    split
    · exact absurd rfl h9
    · rfl

/-- C34, sameness of treedefs: two states flatten alike exactly if they are equal with dicts compared as
mappings. -/
theorem C34_flatten_iff (s s' : ACTStates α) (h : s.DictsWF) (h' : s'.DictsWF) :
    treeFlattenState s.raw = treeFlattenState s'.raw ↔ s.Same s' := by
  rw [treeFlattenState_eq_iff, ACTStates.raw_canon, ACTStates.raw_canon,
    ← ACTStates.sorted_eq_iff h h']
  exact ⟨ACTStates.raw_injective, fun e => by rw [e]⟩

/-! Non-vacuity: a state with nested containers, eleven leaves. -/

open Fixtures in
example : (treeFlattenState fresh.raw).1.length = 11 ∧ (treeFlattenState fresh.raw).2.lens
    = [1, 1, 1, 1, 3, 3, 0, 1, 0] := by decide +kernel

end JaxAct
