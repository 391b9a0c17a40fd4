import Verif.Lemmas.Editor
import Verif.Props.C13
import Verif.Props.C14

/-! # C29 Editor cannot redefine a pytree

The claim as stated is false: `are_pytree_structure_equal` cannot tell `None` from a leaf
(`utils.py`, see C40), so a tree with `None` in leaf position is accepted and the edited controller
can no longer iterate (`C29_none_accepted`).  What is missing from the `_partial` theorems is exactly
this case: they assume that the trees contain no `None`. -/

namespace JaxAct
open Editor
variable {α : Type}

/-- C29, exact acceptance condition of the three setters, whatever the trees. -/
theorem C29_acceptance {e : Editor α} (hwf : e.state.WF) (hm : e.errorMode = "standard")
    (name : String) (v : PyTree (Leaf α)) :
    ((∃ e', e.setAccumulator name v = .ok e') ↔
      ∃ acc, e.state.accumulators.get? name = some acc ∧
        Utils.nullLeaves acc = Utils.nullLeaves v ∧
        ∀ p ∈ acc.treeLeaves.zip v.treeLeaves, ∃ a b, p.1 = Leaf.tensor a ∧ p.2 = Leaf.tensor b ∧
          a.shape = b.shape ∧ a.dtype = b.dtype) ∧
    ((∃ e', e.setDefaults name v = .ok e') ↔ ∃ e', e.setAccumulator name v = .ok e') ∧
    ((∃ e', e.setUpdates name v = .ok e') ↔
      ∃ d, e.state.defaults.get? name = some d ∧ (v = .none ∨
        Utils.nullLeaves d = Utils.nullLeaves v ∧
        ∀ p ∈ d.treeLeaves.zip v.treeLeaves, ∃ a b, p.1 = Leaf.tensor a ∧ p.2 = Leaf.tensor b ∧
          a.shape = b.shape ∧ a.dtype = b.dtype)) := by
  have h1 : ∀ e', (e.setAccumulator name v = .ok e' ↔ _) := fun _ => setAccumulator_ok_iff
  have h2 : ∀ e', (e.setDefaults name v = .ok e' ↔ _) := fun _ => setDefaults_ok_iff
  have h3 : ∀ e', (e.setUpdates name v = .ok e' ↔ _) := fun _ => setUpdates_ok_iff
  simp only [h1, h2, h3, executeValidation_ok_iff hm, checkAgainst_ok_iff hwf, checkUpdate_ok_iff,
    compatible_iff, exists_and_left, exists_eq, and_true]

/-- C29: without `None` in the trees, `set_accumulator` accepts exactly the trees of the same
structure, leaf shapes and leaf dtypes. -/
theorem C29_set_accumulator_partial {e : Editor α} (hwf : e.state.WF) (hm : e.errorMode = "standard")
    {name : String} {acc v : PyTree (Leaf α)} (hacc : e.state.accumulators.get? name = some acc)
    (ha : acc.NoNone) (hv : v.NoNone) (e' : Editor α) :
    e.setAccumulator name v = .ok e' ↔ SameType acc v ∧
      e' = ⟨{ e.state with accumulators := e.state.accumulators.set name v }, e.errorMode⟩ := by
  rw [setAccumulator_ok_iff, executeValidation_ok_iff hm, checkAgainst_ok_iff hwf]
  simp only [hacc, Option.some.injEq, exists_eq_left', compatible_iff_sameType ha hv]

/-- C29: the same for `set_defaults`. -/
theorem C29_set_defaults_partial {e : Editor α} (hwf : e.state.WF) (hm : e.errorMode = "standard")
    {name : String} {acc v : PyTree (Leaf α)} (hacc : e.state.accumulators.get? name = some acc)
    (ha : acc.NoNone) (hv : v.NoNone) (e' : Editor α) :
    e.setDefaults name v = .ok e' ↔ SameType acc v ∧
      e' = ⟨{ e.state with defaults := e.state.defaults.set name v }, e.errorMode⟩ := by
  rw [setDefaults_ok_iff, executeValidation_ok_iff hm, checkAgainst_ok_iff hwf]
  simp only [hacc, Option.some.injEq, exists_eq_left', compatible_iff_sameType ha hv]

theorem SameType.symm {a b : PyTree (Leaf α)} (h : SameType a b) : SameType b a := by
  refine ⟨h.1.symm, ?_⟩
  refine List.Forall₂.flip (List.Forall₂.imp ?_ h.2)
  rintro x y ⟨a, b, h1, h2, h3, h4⟩
  exact ⟨b, a, h2, h1, h3.symm, h4.symm⟩

/-- C29: without `None`, `set_updates` accepts exactly `None` (clearing the slot) and the trees of
the type of the default. -/
theorem C29_set_updates_partial {e : Editor α} (hm : e.errorMode = "standard")
    {name : String} {d v : PyTree (Leaf α)} (hd : e.state.defaults.get? name = some d)
    (ha : d.NoNone) (hv : v = .none ∨ v.NoNone) (e' : Editor α) :
    e.setUpdates name v = .ok e' ↔ (v = .none ∨ SameType d v) ∧
      e' = ⟨{ e.state with updates := e.state.updates.set name v }, e.errorMode⟩ := by
  rw [setUpdates_ok_iff, executeValidation_ok_iff hm, checkUpdate_ok_iff]
  simp only [hd, Option.some.injEq, exists_eq_left']
  rcases hv with rfl | hv
  · simp
  · rw [compatible_iff_sameType ha hv]

theorem Batched.of_sameType {b : List Nat} {s t : PyTree (Leaf α)} (h : Batched b s)
    (hs : SameType s t) : Batched b t := by
  intro l hl
  obtain ⟨k, hk, rfl⟩ := List.mem_iff_getElem.1 hl
  have hlen := hs.2.length_eq
  obtain ⟨x, y, e1, e2, e3, e4⟩ := (List.forall₂_iff_get.1 hs.2).2 k (hlen ▸ hk) hk
  simp only [List.get_eq_getElem] at e1 e2
  obtain ⟨a, ha, h1, h2⟩ := h _ (List.getElem_mem (hlen ▸ hk))
  rw [e1] at ha
  cases ha
  exact ⟨y, e2, e4 ▸ h1, e3 ▸ h2⟩

theorem UpdateFits.of_sameType {d : DType} {s t u : PyTree (Leaf α)} (hs : SameType s t)
    (h : UpdateFits d s u) : UpdateFits d t u := by
  refine ⟨h.1, ?_⟩
  have l1 := hs.2.length_eq
  have l2 := h.2.length_eq
  refine List.forall₂_iff_get.2 ⟨l1.symm.trans l2, fun k hk1 hk2 => ?_⟩
  obtain ⟨x, y, e1, e2, e3, e4⟩ := (List.forall₂_iff_get.1 hs.2).2 k (l1 ▸ hk1) hk1
  obtain ⟨x', z, g1, g2, g3, g4⟩ := (List.forall₂_iff_get.1 h.2).2 k (l1 ▸ hk1) hk2
  rw [e1] at g1
  cases g1
  exact ⟨y, z, e2, g2, g3.trans e3, e4 ▸ g4⟩

/-- C29: an accumulator edit with trees free of `None` keeps the state well formed, and `iterate_act`
succeeds on the edited controller for exactly the same halting inputs as before. -/
theorem C29_still_iterates_partial [Arith α] {e e' : Editor α} (hwf : e.state.WF)
    (hm : e.errorMode = "standard") {name : String} {acc v : PyTree (Leaf α)}
    (hacc : e.state.accumulators.get? name = some acc) (ha : acc.NoNone) (hv : v.NoNone)
    (h : e.setAccumulator name v = .ok e') :
    e'.state.WF ∧ ∀ p, (∃ c, e'.build.iterateAct p = .ok c) ↔ ∃ c, e.build.iterateAct p = .ok c := by
  obtain ⟨hst, rfl⟩ := (C29_set_accumulator_partial hwf hm hacc ha hv e').1 h
  have hmem : name ∈ e.state.accumulators.keys := Dict.mem_keys_iff.2 ⟨acc, hacc⟩
  have hkeys := Dict.keys_set_of_mem hmem v
  have hwf' : ACTStates.WF { e.state with accumulators := e.state.accumulators.set name v } := by
    refine ⟨hwf.floating, hwf.res_shape, hwf.res_dtype, hwf.it_shape, hwf.it_dtype,
      hwf.acc_keys.set _ _, hwf.def_keys, hwf.upd_keys, ?_, ?_, ?_, ?_⟩
    · intro n; show _ ↔ n ∈ (e.state.accumulators.set name v).keys; rw [hkeys]; exact hwf.def_iff n
    · intro n; show _ ↔ n ∈ (e.state.accumulators.set name v).keys; rw [hkeys]; exact hwf.upd_iff n
    · intro n t ht
      change (e.state.accumulators.set name v).get? n = some t at ht
      rw [Dict.get?_set] at ht
      split at ht
      · cases ht; exact (hwf.batched name acc hacc).of_sameType hst
      · exact hwf.batched n t ht
    · intro n t u ht hu
      change (e.state.accumulators.set name v).get? n = some t at ht
      rw [Dict.get?_set] at ht
      split at ht
      · rename_i hn; subst hn; cases ht; exact hst.symm.trans (hwf.same name acc u hacc hu)
      · exact hwf.same n t u ht hu
  refine ⟨hwf', fun p => ?_⟩
  have i1 := C13_iterate_succeeds_iff hwf' p
  have i2 := C13_iterate_succeeds_iff hwf p
  show (∃ c, Controller.iterateAct ⟨_⟩ p = .ok c) ↔ ∃ c, Controller.iterateAct ⟨e.state⟩ p = .ok c
  rw [i1, i2]
  refine and_congr_right fun _ => and_congr_right fun _ => ?_
  show (∀ n a, (e.state.accumulators.set name v).get? n = some a → _) ↔ _
  constructor
  · intro h n a hna
    by_cases hn : name = n
    · subst hn
      rw [hacc] at hna; cases hna
      obtain ⟨u, hu, hf⟩ := h name v (by rw [Dict.get?_set]; simp)
      exact ⟨u, hu, hf.of_sameType hst.symm⟩
    · exact h n a (by rw [Dict.get?_set_ne _ hn]; exact hna)
  · intro h n a hna
    rw [Dict.get?_set] at hna
    split at hna
    · rename_i hn
      subst hn; cases hna
      obtain ⟨u, hu, hf⟩ := h name acc hacc
      exact ⟨u, hu, hf.of_sameType hst⟩
    · exact h n a hna

/-- C29, updates: after `set_updates` with a tree (free of `None`) of the type of the default, that
update fits the accumulator as far as dtypes allow: it never is the reason for a shape or count
failure of `iterate_act`. -/
theorem C29_update_fits_partial {e e' : Editor α} (hwf : e.state.WF) (hm : e.errorMode = "standard")
    {name : String} {acc d v : PyTree (Leaf α)} (hacc : e.state.accumulators.get? name = some acc)
    (hd : e.state.defaults.get? name = some d) (ha : d.NoNone) (hv : v.NoNone)
    (h : e.setUpdates name v = .ok e')
    (hdt : ∀ t, Leaf.tensor t ∈ acc.treeLeaves →
      DType.promote t.dtype e.state.probabilities.dtype = t.dtype) :
    e'.state.updates.get? name = some v ∧ UpdateFits e.state.probabilities.dtype acc v := by
  obtain ⟨hst, rfl⟩ := (C29_set_updates_partial hm hd ha (.inr hv) e').1 h
  have hne : v ≠ .none := by rintro rfl; exact hv
  have hst := (hwf.same name acc d hacc hd).trans (hst.resolve_left hne)
  refine ⟨by simp, hne, List.forall₂_iff_get.2 ⟨hst.2.length_eq, fun k hk1 hk2 => ?_⟩⟩
  obtain ⟨x, y, e1, e2, e3, e4⟩ := (List.forall₂_iff_get.1 hst.2).2 k hk1 hk2
  refine ⟨x, y, e1, e2, e3.symm, ?_⟩
  have := hdt x (by rw [← e1]; exact List.get_mem ..)
  rw [← e4]
  revert this
  generalize x.dtype = a
  generalize e.state.probabilities.dtype = b
  cases a <;> cases b <;> decide

section Example
open Fixtures
attribute [local instance] Arith.exact

/-- An edit that meets the hypotheses and is accepted, and ones of another shape or structure that
are refused. -/
example : fresh.WF ∧ (pair (vec [0, 0]) (col 1 1)).NoNone ∧
    raised (Editor.setAccumulator ⟨fresh, "standard"⟩ "tree" (pair (vec [5, 6]) (col 7 8))) = none ∧
    raised (Editor.setAccumulator ⟨fresh, "standard"⟩ "tree" (pair (vec [5, 6]) (vec [7, 8])))
      = some .jaxRuntimeError ∧
    raised (Editor.setDefaults ⟨fresh, "standard"⟩ "tree"
      (.node .tuple [bare (vec [5, 6]), bare (col 7 8)])) = some .jaxRuntimeError ∧
    raised (Editor.setUpdates ⟨fresh, "standard"⟩ "out" (bare (vec [1, 2])))
      = some .jaxRuntimeError ∧
    raised (Editor.setUpdates ⟨fresh, "standard"⟩ "out" (bare (col 1 2))) = none :=
  ⟨fresh_wf, ⟨trivial, trivial, trivial⟩, by decide +kernel, by decide +kernel, by decide +kernel,
    by decide +kernel, by decide +kernel⟩

/-- The counterexample to the full claim: in standard mode `None` is accepted as the accumulator
`out`, and after that a round that worked before the edit raises `RuntimeError`. -/
theorem C29_none_accepted :
    succeeds (run ⟨simple⟩ (roundOps [sround [1/2, 1] 4 6])) = true ∧
    ∃ e', Editor.setAccumulator ⟨simple, "standard"⟩ "out" .none = .ok e' ∧
      raised (run e'.build (roundOps [sround [1/2, 1] 4 6])) = some .runtimeError :=
  ⟨by decide +kernel, _, rfl, by decide +kernel⟩

end Example
end JaxAct
