import Verif.Lemmas.Viewer
import Verif.Props.Fixtures

/-! # C33 Viewer transform applies the function to every tensor

The claim is false for `updates`: `viewer.py:117-119` iterates over `self.defaults`, so the pending
updates are thrown away and replaced by the transformed defaults, and empty slots are filled
(`C33_updates_lost`).  Everything else holds, and is what the `_partial` theorem says. -/

namespace JaxAct
open Viewer
variable {α : Type}

/-- C33, all fields but `updates`: a successful `transform f` has applied `f` to iterations, residuals,
probabilities and every leaf of every accumulator and default, keeping names, their order and tree
structures, and changes no number. -/
theorem C33_transform_partial {v v' : Viewer α} {f : Tensor α → Res (Tensor α)}
    (h : v.transform f = .ok v') :
    f v.state.iterations = .ok v'.state.iterations ∧
    f v.state.residuals = .ok v'.state.residuals ∧
    f v.state.probabilities = .ok v'.state.probabilities ∧
    v'.state.accumulators.keys = v.state.accumulators.keys ∧
    v'.state.defaults.keys = v.state.defaults.keys ∧
    (∀ n t, v.state.accumulators.get? n = some t → ∃ t', v'.state.accumulators.get? n = some t' ∧
      t'.treeStructure = t.treeStructure ∧ List.Forall₂ (fun x y => ∃ a b, x = Leaf.tensor a ∧
        f a = .ok b ∧ y = Leaf.tensor b) t.treeLeaves t'.treeLeaves) ∧
    (∀ n t, v.state.defaults.get? n = some t → ∃ t', v'.state.defaults.get? n = some t' ∧
      t'.treeStructure = t.treeStructure ∧ List.Forall₂ (fun x y => ∃ a b, x = Leaf.tensor a ∧
        f a = .ok b ∧ y = Leaf.tensor b) t.treeLeaves t'.treeLeaves) ∧
    v'.state.epsilon = v.state.epsilon ∧
    v'.state.depression_constant = v.state.depression_constant ∧
    v'.state.error_mode = v.state.error_mode := by
  obtain ⟨h1, h2, h3, h4, h5, -, h7, h8, h9⟩ := transform_ok h
  exact ⟨h1, h2, h3, h4.1, h5.1, h4.2, h5.2, h7, h8, h9⟩

/-- C33: `transform f` succeeds exactly if `f` succeeds on every tensor it is applied to and the trees
contain nothing but tensors. -/
theorem C33_success_iff {v : Viewer α} (ha : v.state.accumulators.WF) (hd : v.state.defaults.WF)
    (f : Tensor α → Res (Tensor α)) :
    (∃ v', v.transform f = .ok v') ↔
      (∃ r, f v.state.iterations = .ok r) ∧ (∃ r, f v.state.residuals = .ok r) ∧
      (∃ r, f v.state.probabilities = .ok r) ∧
      ∀ n t, (v.state.accumulators.get? n = some t ∨ v.state.defaults.get? n = some t) →
        ∀ l ∈ t.treeLeaves, ∃ a b, l = Leaf.tensor a ∧ f a = .ok b := by
  have key : ∀ {d d' : Dict (PyTree (Leaf α))}, MappedDict f d d' → ∀ n t, d.get? n = some t →
      ∀ l ∈ t.treeLeaves, ∃ a b, l = Leaf.tensor a ∧ f a = .ok b := by
    intro d d' hm n t ht l hl
    obtain ⟨t', -, -, h2⟩ := hm.2 n t ht
    obtain ⟨k, hk, rfl⟩ := List.mem_iff_getElem.1 hl
    obtain ⟨a, b, h3, h4, -⟩ := (List.forall₂_iff_get.1 h2).2 k hk (h2.length_eq ▸ hk)
    exact ⟨a, b, h3, h4⟩
  constructor
  · rintro ⟨v', h⟩
    have tr := transform_ok h
    refine ⟨⟨_, tr.iterations⟩, ⟨_, tr.residuals⟩, ⟨_, tr.probabilities⟩, ?_⟩
    rintro n t (ht | ht)
    · exact key tr.accumulators n t ht
    · exact key tr.defaults n t ht
  · rintro ⟨h1, h2, h3, h4⟩
    exact transform_of h1 h2 h3
      (fun n t ht => h4 n t (.inl (Dict.get?_of_mem ha ht)))
      (fun n t ht => h4 n t (.inr (Dict.get?_of_mem hd ht)))

/-- C33: whatever `f` raises, the caller sees `RuntimeError`. -/
theorem C33_error_is_runtime {v : Viewer α} {f : Tensor α → Res (Tensor α)} {e : Err}
    (h : v.transform f = .error e) : e = .runtimeError := transform_error h

/-- C33, the defect: the new `updates` are the transformed defaults, whatever the updates were. -/
theorem C33_updates_from_defaults {v v' : Viewer α} {f : Tensor α → Res (Tensor α)}
    (h : v.transform f = .ok v') :
    v'.state.updates = v'.state.defaults ∧
    ∀ u, Viewer.transform ⟨{ v.state with updates := u }⟩ f = .ok v' :=
  ⟨(transform_ok h).updates, fun _ => h⟩

section Example
open Fixtures
attribute [local instance] Arith.exact

/-- The negation of the claim on a concrete viewer: the identity function fills the empty slot `out`
and replaces a pending update by the default. -/
theorem C33_updates_lost :
    let v : Viewer ℚ := ⟨{ fresh with updates := [("out", .none), ("tree", pair (vec [3, 3]) (col 4 4))] }⟩
    (v.transform (fun t => .ok t)).toOption.map (fun w =>
      ((w.state.updates.get? "out").map PyTree.isNone, ACTStates.entry? w.state.updates "tree" 0 [0]))
      = some (some false, some 0) := by decide +kernel

/-- A function that fails on rank two: `RuntimeError`. -/
example : raised (Viewer.transform ⟨fresh⟩
    (fun t => if t.shape.length = 2 then .error .keyError else .ok t)) = some .runtimeError := by
  decide +kernel

/-- A transform that meets the hypotheses (entrywise doubling). -/
example : (Viewer.transform ⟨fresh⟩ (fun t => .ok ⟨t.dtype, t.arr.map (· + 2)⟩)).toOption.bind
    (fun w => ACTStates.entry? w.state.accumulators "tree" 1 [1, 0]) = some 3 := by decide +kernel

end Example
end JaxAct
