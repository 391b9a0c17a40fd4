import Verif.Lemmas.Types
import Verif.Props.Fixtures

/-!
# C53 Exceptions and result types do not depend on values

JAX traces user code once, with abstract values.  This is sound only if the numbers in the tensors
decide neither which exception is raised nor the types of the result.
-/

namespace JaxAct
open PyTree
variable {α β : Type} [Arith α] [Arith β]

/-- One call. -/
theorem call_alike {s : ACTStates α} {s' : ACTStates β} (hwf : s.WF) (hwf' : s'.WF)
    (h : StatesAlike s s') {op : Op α} {op' : Op β} (ho : CallsAlike op op') :
    OutcomesAlike (op.call ⟨s⟩) (op'.call ⟨s'⟩) := by
  cases ho with
  | cache n ht => exact cacheUpdate_alike h n ht
  | iterate ht => exact iterateAct_alike h hwf hwf' ht
  | reset => exact resetBatches_alike h hwf hwf'

/-- C53: two sequences of the same calls, from well-formed controllers of the same types with arguments
of the same types, raise the same exception or return controllers of the same types.  The two may
compute with different kinds of numbers. -/
theorem C53_values_do_not_matter {s : ACTStates α} {s' : ACTStates β} (hwf : s.WF) (hwf' : s'.WF)
    (h : StatesAlike s s') {ops : List (Op α)} {ops' : List (Op β)}
    (ho : List.Forall₂ CallsAlike ops ops') : OutcomesAlike (run ⟨s⟩ ops) (run ⟨s'⟩ ops') := by
  induction ho generalizing s s' with
  | nil => exact .ok h
  | cons h1 h2 ih =>
    rename_i op op' ops ops'
    have hc := call_alike hwf hwf' h h1
    unfold run
    cases hr : op.call ⟨s⟩ with
    | error e =>
      rw [hr] at hc
      cases hr' : op'.call ⟨s'⟩ with
      | error e' => rw [hr'] at hc; cases hc; exact .error e
      | ok c' => rw [hr'] at hc; cases hc
    | ok c =>
      rw [hr] at hc
      cases hr' : op'.call ⟨s'⟩ with
      | error e' => rw [hr'] at hc; cases hc
      | ok c' =>
        rw [hr'] at hc
        cases hc with
        | ok hcc =>
          have w1 : c.state.WF := run_wf (ops := [op]) hwf (by simp [run, hr])
          have w2 : c'.state.WF := run_wf (ops := [op']) hwf' (by simp [run, hr'])
          exact ih w1 w2 hcc

/-! ### Abstract values -/

/-- The arithmetic of tracers: there is nothing to compute. -/
@[reducible] def Arith.abstract : Arith Unit where
  zero := ()
  one := ()
  add _ _ _ := ()
  sub _ _ _ := ()
  mul _ _ _ := ()
  max _ _ := ()
  min _ _ := ()
  cast _ _ := ()
  lt _ _ := false
  le _ _ := false

/-- `jax.ShapeDtypeStruct` of an array. -/
def Tensor.abstract (t : Tensor α) : Tensor Unit := ⟨t.dtype, t.arr.map fun _ => ()⟩

/-- Of a leaf. -/
def Leaf.abstract : Leaf α → Leaf Unit
  | .tensor t => .tensor t.abstract
  | .obj o => .obj o

/-- Of a dict of trees. -/
def Dict.abstract (d : Dict (PyTree (Leaf α))) : Dict (PyTree (Leaf Unit)) :=
  d.map fun kv => (kv.1, kv.2.map Leaf.abstract)

/-- Of a state: the state a traced function sees. -/
def ACTStates.abstract (s : ACTStates α) : ACTStates Unit where
  epsilon := ()
  iterations := s.iterations.abstract
  residuals := s.residuals.abstract
  probabilities := s.probabilities.abstract
  defaults := s.defaults.abstract
  accumulators := s.accumulators.abstract
  updates := s.updates.abstract
  depression_constant := ()
  error_mode := s.error_mode

/-- Of a call. -/
def Op.abstract : Op α → Op Unit
  | .cache n t => .cache n (t.map Leaf.abstract)
  | .iterate h => .iterate h.abstract
  | .reset => .reset

omit [Arith α] in
theorem tree_abstract (t : PyTree (Leaf α)) : TreesAlike t (t.map Leaf.abstract) := by
  refine ⟨by simp, ?_⟩
  simp only [treeLeaves_map, List.map_map]
  refine List.map_congr_left fun l _ => ?_
  cases l <;> rfl

omit [Arith α] in
theorem dict_abstract (d : Dict (PyTree (Leaf α))) : DictsAlike d d.abstract := by
  intro n
  have : d.abstract.get? n = (d.get? n).map (PyTree.map Leaf.abstract) := by
    unfold Dict.abstract
    induction d with
    | nil => rfl
    | cons kv d ih => simp only [List.map_cons, Dict.get?_cons, ih]; split <;> rfl
  rw [this]
  cases d.get? n with
  | none => exact .none
  | some t => exact .some (tree_abstract t)

omit [Arith α] in
theorem state_abstract (s : ACTStates α) : StatesAlike s s.abstract :=
  ⟨⟨rfl, rfl⟩, ⟨rfl, rfl⟩, ⟨rfl, rfl⟩, dict_abstract _, dict_abstract _, dict_abstract _, rfl⟩

omit [Arith α] in
theorem state_abstract_wf {s : ACTStates α} (hwf : s.WF) : s.abstract.WF := by
  have hk : ∀ d : Dict (PyTree (Leaf α)), d.WF → d.abstract.WF := by
    intro d hd
    have : d.abstract.keys = d.keys := by simp [Dict.abstract, Dict.keys, Function.comp_def]
    unfold Dict.WF; rw [this]; exact hd
  exact (state_abstract s).wf hwf (hk _ hwf.acc_keys) (hk _ hwf.def_keys) (hk _ hwf.upd_keys)

/-- C53, tracing: running the calls on the abstract values finds the exception that the real run raises,
or the types it returns. -/
theorem C53_tracing {s : ACTStates α} (hwf : s.WF) (ops : List (Op α)) :
    OutcomesAlike (run ⟨s⟩ ops) (@run Unit Arith.abstract ⟨s.abstract⟩ (ops.map Op.abstract)) := by
  let _ := Arith.abstract
  refine C53_values_do_not_matter hwf (state_abstract_wf hwf) (state_abstract s) ?_
  rw [List.forall₂_map_right_iff, List.forall₂_same]
  intro op _
  cases op with
  | cache n t => exact .cache n (tree_abstract t)
  | iterate h => exact .iterate ⟨rfl, rfl⟩
  | reset => exact .reset

section Example
open Fixtures
attribute [local instance] Arith.exact

/-- Both outcomes occur: a good round, and a reset that raises for the container accumulator. -/
example : fresh.WF ∧ succeeds (run ⟨fresh⟩ (round [1/2, 2/3] 4 6).ops) = true ∧
    raised (run ⟨fresh⟩ ((round [1/2, 2/3] 4 6).ops ++ [Op.reset])) = some .attributeError ∧
    raised (@run Unit Arith.abstract ⟨fresh.abstract⟩
      (((round [1/2, 2/3] 4 6).ops ++ [Op.reset]).map Op.abstract)) = some .attributeError :=
  ⟨fresh_wf, by decide +kernel, by decide +kernel, by decide +kernel⟩

end Example

end JaxAct
