import Verif.Props.C13
import Verif.Lemmas.Exact

/-! # C08 Halting probabilities are clamped -/

namespace JaxAct
open ACTStates

/-- C08 for every arithmetic in which clipping twice is clipping once. -/
theorem C08_iterate_clip_of_idempotent {α : Type} [Arith α]
    (hidem : ∀ x : α, Spec.clamp (Spec.clamp x) = Spec.clamp x)
    (c : Controller α) (h : Tensor α) : c.iterateAct h.clip01 = c.iterateAct h := by
  have : h.clip01.clip01 = h.clip01 := by
    refine Tensor.ext_at (by simp) (by simp) fun i => ?_
    rw [Tensor.at?_clip01, Tensor.at?_clip01]
    cases h.at? i with
    | none => rfl
    | some x =>
      simp only [Option.map_some, Tensor.clip01_dtype, DType.withFloat_withFloat, Tensor.convS_self]
      exact congrArg some (hidem _)
  unfold Controller.iterateAct
  rw [this, Tensor.clip01_shape]

/-- C08.  `iterate_act(h)` and `iterate_act(clip(h, 0, 1))` are the same (result or exception). -/
theorem C08_iterate_clip {K : Type} [Field K] [LinearOrder K] [IsStrictOrderedRing K]
    (c : Controller K) (h : Tensor K) :
    letI := Arith.exact K
    c.iterateAct h.clip01 = c.iterateAct h := by
  let _ := Arith.exact K
  exact C08_iterate_clip_of_idempotent Spec.clamp_clamp c h

/-- C08.  Whether and how `iterate_act` fails does not depend on the values passed (any
arithmetic). -/
theorem C08_values_never_raise {α : Type} [Arith α] {s : ACTStates α} (hwf : s.WF)
    {h h' : Tensor α} (hs : h.shape = h'.shape) (hd : h.dtype = h'.dtype) (e : Err) :
    Controller.iterateAct ⟨s⟩ h = .error e ↔ Controller.iterateAct ⟨s⟩ h' = .error e := by
  obtain ⟨a1, a2, a3, a4⟩ := C13_iterate_errors hwf h
  obtain ⟨b1, b2, b3, b4⟩ := C13_iterate_errors hwf h'
  rw [hs] at a1 a2 a3
  rw [hd] at a2 a3
  constructor
  · intro he
    rcases a4 e he with rfl | rfl | rfl
    · exact b1.2 (a1.1 he)
    · exact b2.2 (a2.1 he)
    · exact b3.2 (a3.1 he)
  · intro he
    rcases b4 e he with rfl | rfl | rfl
    · exact a1.2 (b1.1 he)
    · exact a2.2 (b2.1 he)
    · exact a3.2 (b3.1 he)

section Example
open Fixtures
attribute [local instance] Arith.exact

/-- Out-of-range values are really changed by clipping, and accepted. -/
example : (vec [-3, 5]).clip01.at? [0] = some 0 ∧ (vec [-3, 5]).clip01.at? [1] = some 1 ∧
    obs (run ⟨simple⟩ (roundOps [sround [-3, 5] 4 6]))
      (fun c => some (c.probabilities.at? [0], c.probabilities.at? [1])) =
      some (some 0, some 1) := by decide +kernel

end Example

end JaxAct
