import Verif.Model.Editor
import Verif.Lemmas.Tensor
import Verif.Lemmas.Dict
import Verif.Spec.WellFormed
import Verif.Lemmas.Structure

/-! # The editor's checks -/

namespace JaxAct
namespace Editor
variable {α : Type} [Arith α]

omit [Arith α] in
theorem executeValidation_standard {e : Editor α} (hm : e.errorMode = "standard") (b : Bool) :
    e.executeValidation (.ok b) = if b then .ok () else .error .jaxRuntimeError := by
  unfold executeValidation
  rw [if_pos hm]
  cases b <;> rfl

omit [Arith α] in
theorem executeValidation_silent {e : Editor α} (hm : e.errorMode ≠ "standard") (r : Res Bool) :
    e.executeValidation r = .ok () := by
  unfold executeValidation
  rw [if_neg hm]

theorem isProbability_iff {t : Tensor α} (h : t.dtype.isFloating = true) :
    isProbability t = true ↔
      ∀ i x, t.at? i = some x → Arith.lt x Arith.zero = false ∧ Arith.lt Arith.one x = false := by
  unfold isProbability
  rw [DType.withInt_of h, DType.withFloat_of h]
  have hc : t.conv t.dtype = t := by simp [Tensor.conv]
  rw [hc, Bool.and_eq_true, Bool.not_eq_true', Bool.not_eq_true', Bool.eq_false_iff,
    Bool.eq_false_iff, ne_eq, ne_eq, Arr.any_iff, Arr.any_iff]
  constructor
  · rintro ⟨h1, h2⟩ i x hx
    exact ⟨by by_contra hc; exact h1 ⟨i, x, hx, by simpa using hc⟩,
      by by_contra hc; exact h2 ⟨i, x, hx, by simpa using hc⟩⟩
  · intro h
    refine ⟨?_, ?_⟩
    · rintro ⟨i, x, hx, hl⟩; have := (h i x hx).1; simp [hl] at this
    · rintro ⟨i, x, hx, hl⟩; have := (h i x hx).2; simp [hl] at this

theorem isNatural_iff {t : Tensor α} (h : t.dtype ≠ .bool) :
    isNatural t = true ↔ ∀ i x, t.at? i = some x → Arith.le Arith.zero x = true := by
  unfold isNatural
  rw [← DType.withInt_eq_self_iff.2 h]
  have hc : t.conv t.dtype = t := by simp [Tensor.conv]
  rw [hc, Arr.all_iff]

omit [Arith α] in
theorem leavesCompatible_iff : ∀ os ns : List (Leaf α),
    leavesCompatible os ns = .ok true ↔ ∀ p ∈ os.zip ns, ∃ a b, p.1 = Leaf.tensor a ∧
      p.2 = Leaf.tensor b ∧ a.shape = b.shape ∧ a.dtype = b.dtype
  | [], _ => by simp [leavesCompatible]
  | _ :: _, [] => by simp [leavesCompatible]
  | o :: os, n :: ns => by
    simp only [leavesCompatible, List.zip_cons_cons, List.forall_mem_cons,
      ← leavesCompatible_iff os ns]
    cases o with
    | obj o => simp [Leaf.asTensor, bind, Except.bind]
    | tensor a =>
      cases n with
      | obj n => simp [Leaf.asTensor, bind, Except.bind]
      | tensor b =>
        cases hr : leavesCompatible os ns with
        | error e => simp [Leaf.asTensor, bind, Except.bind]
        | ok r => simp [Leaf.asTensor, bind, Except.bind, pure, Except.pure, and_assoc]

omit [Arith α] in
theorem leavesCompatible_error : ∀ (os ns : List (Leaf α)) (e : Err),
    leavesCompatible os ns = .error e → e = .attributeError
  | [], _, _, h => by simp [leavesCompatible] at h
  | _ :: _, [], _, h => by simp [leavesCompatible] at h
  | o :: os, n :: ns, e, h => by
    simp only [leavesCompatible] at h
    cases o with
    | obj o => simp [Leaf.asTensor, bind, Except.bind] at h; exact h.symm
    | tensor a =>
      cases n with
      | obj n => simp [Leaf.asTensor, bind, Except.bind] at h; exact h.symm
      | tensor b =>
        cases hr : leavesCompatible os ns with
        | error e' =>
          simp [Leaf.asTensor, bind, Except.bind, hr] at h
          exact h ▸ leavesCompatible_error os ns e' hr
        | ok r => simp [Leaf.asTensor, bind, Except.bind, pure, Except.pure, hr] at h

omit [Arith α] in
/-- Exactly what the editor compares. -/
theorem compatible_iff (s t : PyTree (Leaf α)) :
    compatible s t = .ok true ↔ Utils.nullLeaves s = Utils.nullLeaves t ∧
      ∀ p ∈ s.treeLeaves.zip t.treeLeaves, ∃ a b, p.1 = Leaf.tensor a ∧
        p.2 = Leaf.tensor b ∧ a.shape = b.shape ∧ a.dtype = b.dtype := by
  rw [← leavesCompatible_iff, ← Utils.structureEqual_iff]
  unfold compatible
  cases leavesCompatible s.treeLeaves t.treeLeaves with
  | error e => simp [bind, Except.bind]
  | ok r => simp [bind, Except.bind, pure, Except.pure]

omit [Arith α] in
theorem compatible_error {s t : PyTree (Leaf α)} {e : Err} (h : compatible s t = .error e) :
    e = .attributeError := by
  unfold compatible at h
  cases hr : leavesCompatible s.treeLeaves t.treeLeaves with
  | error e' =>
    rw [hr] at h
    simp [bind, Except.bind] at h
    exact h ▸ leavesCompatible_error _ _ _ hr
  | ok r => rw [hr] at h; simp [bind, Except.bind, pure, Except.pure] at h

omit [Arith α] in
theorem compatible_iff_sameType {s t : PyTree (Leaf α)} (hs : s.NoNone) (ht : t.NoNone) :
    compatible s t = .ok true ↔ SameType s t := by
  rw [compatible_iff, ← Utils.structureEqual_iff, Utils.structureEqual_noNone hs ht]
  unfold SameType
  refine and_congr_right fun hst => ?_
  have hlen : s.treeLeaves.length = t.treeLeaves.length := by
    rw [← PyTree.treeStructure_leaves_length, ← PyTree.treeStructure_leaves_length, hst]
  rw [List.forall₂_iff_zip]
  constructor
  · exact fun h => ⟨hlen, fun hp => h _ hp⟩
  · exact fun h p hp => h.2 hp

omit [Arith α] in
theorem SameType_compatible {s t : PyTree (Leaf α)} (h : SameType s t) :
    compatible s t = .ok true := by
  rw [compatible_iff, ← Utils.structureEqual_iff]
  exact ⟨Utils.structureEqual_of_treeStructure h.1, fun p hp => (List.forall₂_iff_zip.1 h.2).2 hp⟩

omit [Arith α] in
theorem executeValidation_ok_iff {e : Editor α} (hm : e.errorMode = "standard") (r : Res Bool) :
    e.executeValidation r = .ok () ↔ r = .ok true := by
  unfold executeValidation
  rw [if_pos hm]
  rcases r with err | b
  · simp
  · cases b <;> simp

omit [Arith α] in
theorem executeValidation_error_iff {e : Editor α} (hm : e.errorMode = "standard") (r : Res Bool)
    (err : Err) : e.executeValidation r = .error err ↔
      r = .error err ∨ (r = .ok false ∧ err = .jaxRuntimeError) := by
  unfold executeValidation
  rw [if_pos hm]
  rcases r with err' | b
  · simp
  · cases b <;> simp [eq_comm]

omit [Arith α] in
theorem then_ok_iff {e e' : Editor α} {r : Res Bool} {s' : ACTStates α} :
    (do e.executeValidation r; let st ← (Except.ok s' : Res (ACTStates α)); pure (Editor.mk st e.errorMode))
      = .ok e' ↔ e.executeValidation r = .ok () ∧ e' = ⟨s', e.errorMode⟩ := by
  cases e.executeValidation r <;> simp [bind, Except.bind, pure, Except.pure, eq_comm]

omit [Arith α] in
theorem then_error_iff {e : Editor α} {r : Res Bool} {s' : ACTStates α} {err : Err} :
    (do e.executeValidation r; let st ← (Except.ok s' : Res (ACTStates α)); pure (Editor.mk st e.errorMode))
      = .error err ↔ e.executeValidation r = .error err := by
  cases e.executeValidation r <;> simp [bind, Except.bind, pure, Except.pure]

omit [Arith α] in
theorem setAccumulator_ok_iff {e e' : Editor α} {name : String} {v : PyTree (Leaf α)} :
    e.setAccumulator name v = .ok e' ↔
      e.executeValidation (e.checkAgainstAccumulator name v) = .ok () ∧
      e' = ⟨{ e.state with accumulators := e.state.accumulators.set name v }, e.errorMode⟩ :=
  then_ok_iff

omit [Arith α] in
theorem setDefaults_ok_iff {e e' : Editor α} {name : String} {v : PyTree (Leaf α)} :
    e.setDefaults name v = .ok e' ↔
      e.executeValidation (e.checkAgainstAccumulator name v) = .ok () ∧
      e' = ⟨{ e.state with defaults := e.state.defaults.set name v }, e.errorMode⟩ :=
  then_ok_iff

omit [Arith α] in
theorem setUpdates_ok_iff {e e' : Editor α} {name : String} {v : PyTree (Leaf α)} :
    e.setUpdates name v = .ok e' ↔
      e.executeValidation (e.checkUpdate name v) = .ok () ∧
      e' = ⟨{ e.state with updates := e.state.updates.set name v }, e.errorMode⟩ :=
  then_ok_iff

omit [Arith α] in
theorem setAccumulator_error_iff {e : Editor α} {name : String} {v : PyTree (Leaf α)} {err : Err} :
    e.setAccumulator name v = .error err ↔
      e.executeValidation (e.checkAgainstAccumulator name v) = .error err := then_error_iff

omit [Arith α] in
theorem setDefaults_error_iff {e : Editor α} {name : String} {v : PyTree (Leaf α)} {err : Err} :
    e.setDefaults name v = .error err ↔
      e.executeValidation (e.checkAgainstAccumulator name v) = .error err := then_error_iff

omit [Arith α] in
theorem setUpdates_error_iff {e : Editor α} {name : String} {v : PyTree (Leaf α)} {err : Err} :
    e.setUpdates name v = .error err ↔
      e.executeValidation (e.checkUpdate name v) = .error err := then_error_iff

omit [Arith α] in
theorem checkAgainst_ok_iff {e : Editor α} (hwf : e.state.WF) {name : String}
    {v : PyTree (Leaf α)} :
    e.checkAgainstAccumulator name v = .ok true ↔
      ∃ acc, e.state.accumulators.get? name = some acc ∧ compatible acc v = .ok true := by
  unfold checkAgainstAccumulator
  have hd : e.state.defaults.mem name = true ↔ e.state.accumulators.mem name = true := by
    rw [Dict.mem_iff, Dict.mem_iff, hwf.def_iff]
  split
  · rename_i hm
    obtain ⟨acc, hacc⟩ := Dict.mem_keys_iff.1 (Dict.mem_iff.1 hm)
    rw [Dict.getItem_ok.2 hacc, hd.2 hm]
    simp only [hacc, Option.some.injEq, exists_eq_left']
    cases hc : compatible acc v <;> simp [hc, bind, Except.bind, pure, Except.pure]
  · rename_i hm
    have h1 : e.state.accumulators.get? name = none := by
      rw [Dict.get?_eq_none_iff, ← Dict.mem_iff]; exact hm
    have h2 : e.state.defaults.mem name = false := by
      rw [Bool.eq_false_iff, ne_eq, hd]; exact hm
    simp [h1, h2]

omit [Arith α] in
theorem checkUpdate_ok_iff {e : Editor α} {name : String} {v : PyTree (Leaf α)} :
    e.checkUpdate name v = .ok true ↔
      ∃ d, e.state.defaults.get? name = some d ∧ (v = .none ∨ compatible d v = .ok true) := by
  unfold checkUpdate
  by_cases hv : v = .none
  · subst hv
    simp only [PyTree.isNone, if_true, Except.ok.injEq, Dict.mem_iff, Dict.mem_keys_iff, true_or,
      and_true]
  · have : v.isNone = false := by cases v <;> simp_all [PyTree.isNone]
    rw [this]
    simp only [Bool.false_eq_true, if_false, hv, false_or]
    cases hd : e.state.defaults.get? name with
    | none => simp [Dict.getItem, hd, bind, Except.bind]
    | some d =>
      have : e.state.defaults.mem name = true := by simp [Dict.mem, hd]
      simp only [Dict.getItem, hd, this, Option.some.injEq, exists_eq_left']
      cases hc : compatible d v <;> simp [hc, bind, Except.bind, pure, Except.pure]

end Editor
end JaxAct
