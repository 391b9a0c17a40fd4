import Verif.Model.Builder
import Verif.Model.Editor
import Verif.Model.Viewer
import Verif.Model.Layers
import Verif.Lemmas.Dict
import Verif.Props.C46

/-! # C87 What is set is what is read -/

namespace JaxAct
variable {α : Type}

/-- C87, the properties of the four classes: each returns the field of the state that bears its name. -/
theorem C87_properties (s : ACTStates α) (mode : String) :
    (let b := Builder.mk s
     b.epsilon = s.read .epsilon ∧ b.probabilities = s.read .probabilities ∧
     b.residuals = s.read .residuals ∧ b.iterations = s.read .iterations ∧
     b.defaults = s.read .defaults ∧ b.accumulators = s.read .accumulators ∧
     b.updates = s.read .updates) ∧
    (let c := Controller.mk s
     c.depressionConstant = s.read .depression_constant ∧ c.probabilities = s.read .probabilities ∧
     c.residuals = s.read .residuals ∧ c.iterations = s.read .iterations ∧
     c.accumulators = s.read .accumulators) ∧
    (let v := Viewer.mk s
     v.probabilities = s.read .probabilities ∧ v.residuals = s.read .residuals ∧
     v.iterations = s.read .iterations ∧ v.defaults = s.read .defaults ∧
     v.accumulators = s.read .accumulators ∧ v.updates = s.read .updates) ∧
    (let e := Editor.mk s mode
     e.epsilon = s.read .epsilon ∧ e.probabilities = s.read .probabilities ∧
     e.residuals = s.read .residuals ∧ e.iterations = s.read .iterations ∧
     e.defaults = s.read .defaults ∧ e.accumulators = s.read .accumulators ∧
     e.updates = s.read .updates) :=
  ⟨⟨rfl, rfl, rfl, rfl, rfl, rfl, rfl⟩, ⟨rfl, rfl, rfl, rfl, rfl⟩,
    ⟨rfl, rfl, rfl, rfl, rfl, rfl⟩, ⟨rfl, rfl, rfl, rfl, rfl, rfl, rfl⟩⟩

/-- A setter call that returned went through the validation and replaced one field. -/
theorem set_ok {e e' : Editor α} {checks : Res Bool} {r : Res (ACTStates α)}
    (h : (do e.executeValidation checks
             let state ← r
             pure (⟨state, e.errorMode⟩ : Editor α) : Res (Editor α)) = .ok e') :
    r = .ok e'.state ∧ e'.errorMode = e.errorMode := by
  cases hv : e.executeValidation checks with
  | error _ => rw [hv] at h; cases h
  | ok _ =>
    rw [hv] at h
    cases hr : r with
    | error _ => rw [hr] at h; cases h
    | ok s => rw [hr] at h; cases h; exact ⟨rfl, rfl⟩

/-- C87, the editor's tensor and epsilon setters, in either error mode: when the call returns, the
property of that name reads the value given, every other field and the error mode are as before. -/
theorem C87_editor_fields [Arith α] (e e' : Editor α) (t : Tensor α) (x : α) :
    (e.setProbabilities t = .ok e' → e'.probabilities = t ∧ e'.errorMode = e.errorMode ∧
      ∀ f, f ≠ Field.probabilities → e'.state.read f = e.state.read f) ∧
    (e.setResiduals t = .ok e' → e'.residuals = t ∧ e'.errorMode = e.errorMode ∧
      ∀ f, f ≠ Field.residuals → e'.state.read f = e.state.read f) ∧
    (e.setIterations t = .ok e' → e'.iterations = t ∧ e'.errorMode = e.errorMode ∧
      ∀ f, f ≠ Field.iterations → e'.state.read f = e.state.read f) ∧
    (e.setEpsilon x = .ok e' → e'.epsilon = x ∧ e'.errorMode = e.errorMode ∧
      ∀ f, f ≠ Field.epsilon → e'.state.read f = e.state.read f) := by
  obtain ⟨s', m'⟩ := e'
  refine ⟨fun h => ?_, fun h => ?_, fun h => ?_, fun h => ?_⟩ <;>
  · obtain ⟨h1, h2⟩ := set_ok h
    cases h1
    refine ⟨rfl, h2, fun f hf => ?_⟩
    cases f <;> first | rfl | exact absurd rfl hf

/-- C87, the editor's tree setters: the entry of that name reads the tree given, every other name in
that dict and every other field are as before. -/
theorem C87_editor_trees [Arith α] (e e' : Editor α) (name : String) (t : PyTree (Leaf α)) :
    (e.setAccumulator name t = .ok e' → e'.errorMode = e.errorMode ∧
      (∀ n, e'.accumulators.get? n = if name = n then some t else e.accumulators.get? n) ∧
      ∀ f, f ≠ Field.accumulators → e'.state.read f = e.state.read f) ∧
    (e.setDefaults name t = .ok e' → e'.errorMode = e.errorMode ∧
      (∀ n, e'.defaults.get? n = if name = n then some t else e.defaults.get? n) ∧
      ∀ f, f ≠ Field.defaults → e'.state.read f = e.state.read f) ∧
    (e.setUpdates name t = .ok e' → e'.errorMode = e.errorMode ∧
      (∀ n, e'.updates.get? n = if name = n then some t else e.updates.get? n) ∧
      ∀ f, f ≠ Field.updates → e'.state.read f = e.state.read f) := by
  obtain ⟨s', m'⟩ := e'
  refine ⟨fun h => ?_, fun h => ?_, fun h => ?_⟩ <;>
  · obtain ⟨h1, h2⟩ := set_ok h
    cases h1
    refine ⟨h2, fun n => ?_, fun f hf => ?_⟩
    · exact Dict.get?_set _ _ _ _
    · cases f <;> first | rfl | exact absurd rfl hf

/-- C87, the builder: after a definition the three dicts read the definition, the definition and an
empty slot under that name, and nothing else changed; the controller built reads the same. -/
theorem C87_builder [Arith α] (b b' : Builder α) (name : String) (t : PyTree (Leaf α))
    (h : b.defineAccumulatorDirectly name t = .ok b') :
    (∀ n, b'.defaults.get? n = if name = n then some t else b.defaults.get? n) ∧
    (∀ n, b'.accumulators.get? n = if name = n then some t else b.accumulators.get? n) ∧
    (∀ n, b'.updates.get? n = if name = n then some .none else b.updates.get? n) ∧
    b'.epsilon = b.epsilon ∧ b'.probabilities = b.probabilities ∧ b'.residuals = b.residuals ∧
    b'.iterations = b.iterations ∧
    b'.build.depressionConstant = b.build.depressionConstant ∧
    b'.build.accumulators = b'.accumulators ∧ b'.build.probabilities = b'.probabilities ∧
    b'.build.residuals = b'.residuals ∧ b'.build.iterations = b'.iterations := by
  unfold Builder.defineAccumulatorDirectly Builder.define at h
  cases hv : Builder.validateLeaves b.state.probabilities.shape t.treeLeaves with
  | error _ => rw [hv] at h; cases h
  | ok _ =>
    rw [hv] at h
    cases h
    exact ⟨fun n => Dict.get?_set _ _ _ _, fun n => Dict.get?_set _ _ _ _,
      fun n => Dict.get?_set _ _ _ _, rfl, rfl, rfl, rfl, rfl, rfl, rfl, rfl, rfl⟩

/-- C87: the builder of the layer classes is the one of `ControllerBuilder.new_builder`, with the
arguments in the same places. -/
theorem C87_layer_builder [Arith α] (l : Layer α) (batch : List Nat) (d : Option DType) (eps dep : α) :
    l.newBuilder batch d eps dep = Builder.newBuilder batch d eps dep := rfl

section
open Fixtures
attribute [local instance] Arith.exact

/-- Setters that return, in the mode that checks; and a probability that is refused. -/
example :
    ((Editor.mk simple "standard").setProbabilities (vec [1/2, 1/4])).toOption.bind
      (fun e => e.probabilities.arr.at? [1]) = some (1/4) ∧
    ((Editor.mk simple "standard").setEpsilon (1/5)).toOption.map (fun e => e.epsilon) = some (1/5) ∧
    ((Editor.mk simple "standard").setProbabilities (vec [1/2, 5/4])).toOption.isNone = true := by
  decide +kernel

/-- A tree setter that returns. -/
example :
    ((Editor.mk simple "standard").setAccumulator "out" (bare (col 3 4))).toOption.bind
      (fun e => ACTStates.entry? e.accumulators "out" 0 [1, 0]) = some 4 := by decide +kernel

/-- A definition beside an existing one. -/
example :
    ((Builder.mk simple).defineAccumulatorDirectly "new" (bare (vec [5, 6]))).toOption.bind
      (fun b => ACTStates.entry? b.defaults "new" 0 [1]) = some 6 := by decide +kernel

end

end JaxAct
