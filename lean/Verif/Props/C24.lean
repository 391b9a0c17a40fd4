import Verif.Lemmas.Builder
import Verif.Props.Fixtures

/-! # C24 define_accumulator_directly accepts exactly valid definitions -/

namespace JaxAct
variable {α : Type}
open Builder

/-- C24, success: accepted iff every leaf is a floating tensor whose shape starts with the batch
shape; then `defaults` and `accumulators` hold the tree under `name`, the update slot is empty,
every other name and every other field is unchanged. -/
theorem C24_define_ok_iff (b b' : Builder α) (name : String) (t : PyTree (Leaf α)) :
    b.defineAccumulatorDirectly name t = .ok b' ↔
      (∀ l ∈ t.treeLeaves, ∃ a : Tensor α, l = .tensor a ∧ a.dtype.isFloating = true ∧
        b.state.probabilities.shape <+: a.shape) ∧
      b' = ⟨{ b.state with
        defaults := b.state.defaults.set name t
        accumulators := b.state.accumulators.set name t
        updates := b.state.updates.set name .none }⟩ := define_ok_iff

/-- C24, what the new builder shows: lookups in the three dictionaries. -/
theorem C24_define_lookup {b b' : Builder α} {name : String} {t : PyTree (Leaf α)}
    (h : b.defineAccumulatorDirectly name t = .ok b') (n : String) :
    b'.state.defaults.get? n = (if n = name then some t else b.state.defaults.get? n) ∧
    b'.state.accumulators.get? n = (if n = name then some t else b.state.accumulators.get? n) ∧
    b'.state.updates.get? n = (if n = name then some .none else b.state.updates.get? n) := by
  obtain ⟨-, rfl⟩ := define_ok_iff.1 h
  simp only [Dict.get?_set, eq_comm (a := name), and_self]

/-- C24, errors: the exception is determined by the first invalid leaf: `TypeError` if it is not a
floating tensor, `ValueError` if it is one with a wrong batch shape. -/
theorem C24_define_error_iff (b : Builder α) (name : String) (t : PyTree (Leaf α)) (e : Err) :
    b.defineAccumulatorDirectly name t = .error e ↔
      ∃ pre l post, t.treeLeaves = pre ++ l :: post ∧
        (∀ x ∈ pre, ∃ a : Tensor α, x = .tensor a ∧ a.dtype.isFloating = true ∧
          b.state.probabilities.shape <+: a.shape) ∧
        ((e = .typeError ∧ ∀ a : Tensor α, l = .tensor a → a.dtype.isFloating = false) ∨
         (e = .valueError ∧ ∃ a : Tensor α, l = .tensor a ∧ a.dtype.isFloating = true ∧
           ¬ b.state.probabilities.shape <+: a.shape)) := by
  unfold defineAccumulatorDirectly
  rw [define_error_iff]
  constructor
  · intro h
    rcases validateLeaves_cases b.state.probabilities.shape t.treeLeaves with
      ⟨h1, -⟩ | ⟨pre, l, post, h1, h2, h3⟩
    · rw [h1] at h; cases h
    · refine ⟨pre, l, post, h1, h2, ?_⟩
      rcases h3 with ⟨h3, h4⟩ | ⟨h3, h4⟩
      · rw [h] at h3; cases h3; exact .inl ⟨rfl, h4⟩
      · rw [h] at h3; cases h3; exact .inr ⟨rfl, h4⟩
  · rintro ⟨pre, l, post, h1, h2, h3⟩
    have hl : ¬ GoodLeaf b.state.probabilities.shape l := by
      rcases h3 with ⟨-, h⟩ | ⟨-, h⟩
      · exact not_good_of_badDtype h
      · exact not_good_of_badShape h
    rcases validateLeaves_cases b.state.probabilities.shape t.treeLeaves with
      ⟨-, g⟩ | ⟨pre', l', post', g1, g2, g3⟩
    · exact absurd (g l (by rw [h1]; simp)) hl
    · have hl' : ¬ GoodLeaf b.state.probabilities.shape l' := by
        rcases g3 with ⟨-, h⟩ | ⟨-, h⟩
        · exact not_good_of_badDtype h
        · exact not_good_of_badShape h
      have : l = l' := first_unique (h1.symm.trans g1) h2 g2 hl hl'
      subst this
      rcases h3 with ⟨rfl, h⟩ | ⟨rfl, h⟩
      · rcases g3 with ⟨g, -⟩ | ⟨-, g⟩
        · exact g
        · exact absurd h (not_badDtype_of_badShape g)
      · rcases g3 with ⟨-, g⟩ | ⟨g, -⟩
        · exact absurd g (not_badDtype_of_badShape h)
        · exact g

section Example
open Fixtures

/-- A valid two-leaf tree is accepted; an integer leaf, an object and a wrong batch shape are not. -/
example :
    raised (defineAccumulatorDirectly ⟨fresh⟩ "new" (pair (vec [1, 2]) (col 3 4))) = none ∧
    raised (defineAccumulatorDirectly ⟨fresh⟩ "new"
      (pair (vec [1, 2]) ⟨.i32, (col 3 4).arr⟩)) = some .typeError ∧
    raised (defineAccumulatorDirectly ⟨fresh⟩ "new"
      (.node .tuple [bare (vec [1, 2]), .leaf (.obj "text")])) = some .typeError ∧
    raised (defineAccumulatorDirectly ⟨fresh⟩ "new" (bare (vec [1, 2, 3]))) = some .valueError ∧
    raised (defineAccumulatorDirectly ⟨fresh⟩ "new"
      (pair (vec [1, 2, 3]) ⟨.i32, (col 3 4).arr⟩)) = some .valueError := by decide +kernel

end Example
end JaxAct
