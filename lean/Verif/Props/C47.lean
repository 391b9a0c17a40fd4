import Verif.Model.Editor
import Verif.Model.Viewer
import Verif.Model.Builder
import Verif.Props.Fixtures

/-! # C47 save and load are inverse -/

namespace JaxAct
variable {α : Type}

/-- C47, controllers: every property and the result of every method is the same on `load(save(c))`. -/
theorem C47_controller (c : Controller α) : Controller.load c.save = c := rfl

/-- C47, viewers. -/
theorem C47_viewer (v : Viewer α) : Viewer.load v.save = v := rfl

/-- C47, editors: `edit_save(save(e), mode)` is the editor of the same state in the given mode, and
`build` gives the controller with that save; a mode that does not exist is refused. -/
theorem C47_editor (e : Editor α) (mode : String) :
    (mode ∈ ["standard", "silence"] →
      ∃ e', Editor.editSave e.save mode = .ok e' ∧ e'.save = e.save ∧ e'.errorMode = mode ∧
        e'.build.save = e.save) ∧
    (mode ∉ ["standard", "silence"] → Editor.editSave e.save mode = .error .valueError) := by
  constructor
  · intro h
    exact ⟨⟨e.save, mode⟩, by simp [Editor.editSave, Editor.errorModes, h], rfl, rfl, rfl⟩
  · intro h
    simp [Editor.editSave, Editor.errorModes, h]

/-- C47, agreement: a controller, a viewer and an editor made from one save agree on every property
that two of them have. -/
theorem C47_shared_properties [Arith α] (s : ACTStates α) (mode : String) (e : Editor α)
    (he : Editor.editSave s mode = .ok e) :
    let c := Controller.load s
    let v := Viewer.load s
    (c.probabilities = v.probabilities ∧ c.probabilities = e.probabilities) ∧
    (c.residuals = v.residuals ∧ c.residuals = e.residuals) ∧
    (c.iterations = v.iterations ∧ c.iterations = e.iterations) ∧
    (c.accumulators = v.accumulators ∧ c.accumulators = e.accumulators) ∧
    (v.defaults = e.defaults) ∧
    (v.updates = e.updates) ∧
    (c.haltThreshold = v.haltThreshold) ∧
    (c.haltedBatches = v.haltedBatches) := by
  have : e = ⟨s, mode⟩ := by
    unfold Editor.editSave at he
    split at he <;> cases he
    rfl
  subst this
  exact ⟨⟨rfl, rfl⟩, ⟨rfl, rfl⟩, ⟨rfl, rfl⟩, ⟨rfl, rfl⟩, rfl, rfl, rfl, rfl⟩

/-- C47, the ways of getting from a controller to the others agree with going through a save, and an
unedited editor builds the controller it came from. -/
theorem C47_conversions (c : Controller α) (mode : String) :
    c.makeViewer = Viewer.load c.save ∧
    Editor.editController c mode = Editor.editSave c.save mode ∧
    (∀ e, Editor.editController c mode = .ok e → e.build = c) := by
  refine ⟨rfl, rfl, fun e he => ?_⟩
  unfold Editor.editController at he
  split at he <;> cases he
  rfl

/-! Non-vacuity: an editor made from the save of a concrete controller. -/

attribute [local instance] Arith.exact in
example : ∃ e, Editor.editSave Fixtures.fresh "standard" = .ok e ∧
    e.accumulators.keys = ["out", "tree"] := ⟨⟨Fixtures.fresh, "standard"⟩, rfl, rfl⟩

end JaxAct
