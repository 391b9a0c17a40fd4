import Verif.Model.Viewer
import Verif.Lemmas.Utils
import Verif.Lemmas.Dict
import Verif.Lemmas.Res
import Verif.Spec.WellFormed

/-! # Lemmas on the viewer -/

namespace JaxAct
variable {α : Type}

/-- `t'` is the tree `t` with `f` applied to every leaf. -/
def MappedTree (f : Tensor α → Res (Tensor α)) (t t' : PyTree (Leaf α)) : Prop :=
  t'.treeStructure = t.treeStructure ∧
  List.Forall₂ (fun x y => ∃ a b, x = Leaf.tensor a ∧ f a = .ok b ∧ y = Leaf.tensor b)
    t.treeLeaves t'.treeLeaves

/-- `d'` has the keys of `d` (in order) and under each the tree with `f` applied to every leaf. -/
def MappedDict (f : Tensor α → Res (Tensor α)) (d d' : Dict (PyTree (Leaf α))) : Prop :=
  d'.keys = d.keys ∧ ∀ n t, d.get? n = some t → ∃ t', d'.get? n = some t' ∧ MappedTree f t t'

namespace Viewer

theorem onLeaf_ok_iff {f : Tensor α → Res (Tensor α)} {l l' : Leaf α} :
    onLeaf f l = .ok l' ↔ ∃ a b, l = Leaf.tensor a ∧ f a = .ok b ∧ l' = Leaf.tensor b := by
  unfold onLeaf
  cases l with
  | obj o => simp [Leaf.asTensor, bind, Except.bind]
  | tensor a =>
    cases h : f a <;> simp [Leaf.asTensor, bind, Except.bind, pure, Except.pure, h, eq_comm]

theorem treeMap_onLeaf_ok {f : Tensor α → Res (Tensor α)} {t t' : PyTree (Leaf α)}
    (h : t.treeMap (onLeaf f) = .ok t') : MappedTree f t t' := by
  obtain ⟨h1, h2⟩ := PyTree.treeMap_ok_iff.1 h
  have hc := PyTree.flatten_of_struct h1
  refine ⟨by rw [PyTree.treeStructure, hc, h1], ?_⟩
  rw [show t'.treeLeaves = t'.leaves by rw [PyTree.treeLeaves, hc]]
  exact h2.imp fun x y hxy => onLeaf_ok_iff.1 hxy

theorem mapMRes_of {β γ : Type} {f : β → Res γ} {ls : List β} (h : ∀ l ∈ ls, ∃ r, f l = .ok r) :
    ∃ out, PyTree.mapMRes f ls = .ok out ∧ out.length = ls.length := by
  induction ls with
  | nil => exact ⟨[], rfl, rfl⟩
  | cons l ls ih =>
    obtain ⟨r, hr⟩ := h l (by simp)
    obtain ⟨out, ho, hl⟩ := ih fun l' hl' => h l' (by simp [hl'])
    exact ⟨r :: out, by simp [PyTree.mapMRes, hr, ho], by simp [hl]⟩

theorem treeMap_of {f : Tensor α → Res (Tensor α)} {t : PyTree (Leaf α)}
    (h : ∀ l ∈ t.treeLeaves, ∃ a b, l = Leaf.tensor a ∧ f a = .ok b) :
    ∃ t', t.treeMap (onLeaf f) = .ok t' := by
  obtain ⟨out, ho, hl⟩ := mapMRes_of (f := onLeaf f) (ls := t.treeLeaves) fun l hl => by
    obtain ⟨a, b, h1, h2⟩ := h l hl
    exact ⟨_, onLeaf_ok_iff.2 ⟨a, b, h1, h2, rfl⟩⟩
  unfold PyTree.treeMap
  rw [ho]
  exact PyTree.treeUnflatten_ok (by rw [hl, PyTree.treeStructure_leaves_length])

theorem mapM_onLeaf_ok {f : Tensor α → Res (Tensor α)} {d d' : Dict (PyTree (Leaf α))}
    (h : d.mapM (PyTree.treeMap (onLeaf f)) = .ok d') : MappedDict f d d' := by
  obtain ⟨h1, h2⟩ := Dict.mapM_ok h
  refine ⟨h1, fun n t ht => ?_⟩
  have := h2 n
  rw [ht] at this
  obtain ⟨w, hw, hr⟩ := this
  exact ⟨w, hr, treeMap_onLeaf_ok hw⟩

/-- What `transform` returns. -/
structure Transformed (f : Tensor α → Res (Tensor α)) (s s' : ACTStates α) : Prop where
  iterations : f s.iterations = .ok s'.iterations
  residuals : f s.residuals = .ok s'.residuals
  probabilities : f s.probabilities = .ok s'.probabilities
  accumulators : MappedDict f s.accumulators s'.accumulators
  defaults : MappedDict f s.defaults s'.defaults
  updates : s'.updates = s'.defaults
  epsilon : s'.epsilon = s.epsilon
  depression : s'.depression_constant = s.depression_constant
  error_mode : s'.error_mode = s.error_mode

theorem transform_ok {v v' : Viewer α} {f : Tensor α → Res (Tensor α)}
    (h : v.transform f = .ok v') : Transformed f v.state v'.state := by
  unfold transform at h
  rw [bind_ok] at h
  obtain ⟨⟨it, re, pr, ac, de, up⟩, h1, h2⟩ := h
  simp only [ACTStates.replace, bind_ok] at h2
  obtain ⟨s', h2, h3⟩ := h2
  cases h2
  cases h3
  have h1 : v.transformBody f = .ok (it, re, pr, ac, de, up) := by
    unfold wrapRuntime at h1
    split at h1
    · rename_i x hx; cases h1; exact hx
    · cases h1
  unfold transformBody at h1
  simp only [bind_ok] at h1
  obtain ⟨a1, g1, a2, g2, a3, g3, a4, g4, a5, g5, a6, g6, h1⟩ := h1
  rw [g5] at g6
  cases g6
  cases h1
  exact ⟨g1, g2, g3, mapM_onLeaf_ok g4, mapM_onLeaf_ok g5, rfl, rfl, rfl, rfl⟩

theorem transform_error {v : Viewer α} {f : Tensor α → Res (Tensor α)} {e : Err}
    (h : v.transform f = .error e) : e = .runtimeError := by
  unfold transform at h
  rw [bind_error] at h
  rcases h with h | ⟨x, -, h⟩
  · unfold wrapRuntime at h
    split at h
    · cases h
    · cases h; rfl
  · simp [ACTStates.replace, bind, Except.bind, pure, Except.pure] at h

/-- Every leaf of every tree is a tensor on which `f` succeeds. -/
def AllLeavesOk (f : Tensor α → Res (Tensor α)) (d : Dict (PyTree (Leaf α))) : Prop :=
  ∀ n t, (n, t) ∈ d → ∀ l ∈ t.treeLeaves, ∃ a b, l = Leaf.tensor a ∧ f a = .ok b

theorem transform_of {v : Viewer α} {f : Tensor α → Res (Tensor α)}
    (h1 : ∃ r, f v.state.iterations = .ok r) (h2 : ∃ r, f v.state.residuals = .ok r)
    (h3 : ∃ r, f v.state.probabilities = .ok r)
    (h4 : AllLeavesOk f v.state.accumulators) (h5 : AllLeavesOk f v.state.defaults) :
    ∃ v', v.transform f = .ok v' := by
  obtain ⟨it, h1⟩ := h1
  obtain ⟨re, h2⟩ := h2
  obtain ⟨pr, h3⟩ := h3
  obtain ⟨ac, h4⟩ := Dict.mapM_of (f := PyTree.treeMap (onLeaf f)) (d := v.state.accumulators)
    fun kv hkv => treeMap_of (h4 kv.1 kv.2 hkv)
  obtain ⟨de, h5⟩ := Dict.mapM_of (f := PyTree.treeMap (onLeaf f)) (d := v.state.defaults)
    fun kv hkv => treeMap_of (h5 kv.1 kv.2 hkv)
  unfold transform transformBody
  simp only [h1, h2, h3, h4, h5, bind, Except.bind, pure, Except.pure, wrapRuntime,
    ACTStates.replace]
  exact ⟨_, rfl⟩

end Viewer
end JaxAct
