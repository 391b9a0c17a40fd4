import Verif.Props.C56
import Verif.Lemmas.Rounded
import Verif.Lemmas.Exact

/-! # C57 A reset batch element starts over -/

namespace JaxAct
open ACTStates
section AnyArith
variable {α : Type} [Arith α]

/-- Zero bookkeeping, accumulators equal to the defaults and no pending updates at `b`: what a newly
built controller has at every batch element. -/
structure FreshAt (b : List Nat) (s : ACTStates α) : Prop where
  prob : s.probabilities.at? b = some Arith.zero
  resid : s.residuals.at? b = some Arith.zero
  iter : s.iterations.at? b = some Arith.zero
  acc : DictAgree b b s.accumulators s.defaults
  idle : ∀ n u, s.updates.get? n = some u → u = .none

/-- Multiplying by a false mask gives zero, in every dtype. -/
def MaskZero (α : Type) [Arith α] : Prop :=
  ∀ (d : DType) (x : α), Spec.keepIf d false x = Arith.zero

/-- Right after `reset_batches` an element that was halted is fresh. -/
theorem C57_reset_fresh (hz : MaskZero α) {s : ACTStates α} (hs : s.WF) {b : List Nat}
    (hb : (Controller.haltedBatches ⟨s⟩).at? b = some true) {c : Controller α}
    (ok : Controller.resetBatches ⟨s⟩ = .ok c) : FreshAt b c.state := by
  have st := Controller.resetBatches_ok hs ok
  obtain ⟨p, hp, hh⟩ := (halted_iff hs.floating).1 hb
  obtain ⟨r, n, hr, hn⟩ := hs.cell hp
  obtain ⟨c1, c2, c3⟩ := st.cell b p r n hp hr hn
  simp only [Spec.resetCell, hh, Bool.not_true] at c1 c2 c3
  rw [hz] at c1 c2 c3
  refine ⟨c1, c2, c3, fun name => ?_, fun n u hu => ?_⟩
  · rw [st.defaults]
    by_cases hname : name ∈ s.accumulators.keys
    · obtain ⟨a, ha⟩ := Dict.mem_keys_iff.1 hname
      obtain ⟨d, a', d1, d2, d3, -, d4⟩ := st.tree name a ha
      rw [d1, d2]
      refine Option.Rel.some ?_
      obtain ⟨-, hsame⟩ := hs.same name a d ha d1
      have l1 : a'.treeLeaves.length = a.treeLeaves.length := by
        rw [← PyTree.treeStructure_leaves_length, d3, PyTree.treeStructure_leaves_length]
      rw [TreeAgree, List.forall₂_iff_get]
      refine ⟨by rw [l1]; exact hsame.length_eq, fun k k1 k2 => ?_⟩
      have hka : k < a.treeLeaves.length := l1 ▸ k1
      obtain ⟨ta, td, ta', e1, e2, e3, e4⟩ := d4 k _ (List.getElem?_eq_getElem hka)
      obtain ⟨z1, z2, q1, q2, q3, q4⟩ := (List.forall₂_iff_get.1 hsame).2 k hka k2
      simp only [List.get_eq_getElem] at q1 q2
      rw [e1] at q1
      rw [List.getElem?_eq_getElem k2, q2] at e2
      cases q1; cases e2
      rw [List.getElem?_eq_getElem k1] at e3
      refine ⟨ta', td, Option.some.inj e3, q2, e4.dtype.trans q4, fun i => ?_⟩
      cases hta : ta.at? (b ++ i) with
      | none =>
        rw [at?_none_of_shape e4.shape hta, at?_none_of_shape q3.symm hta]
      | some av =>
        obtain ⟨dv, hdv⟩ := Controller.at?_some_of_shape (b := td) q3.symm hta
        have t1 : (b ++ i).take s.probabilities.shape.length = b := by
          rw [← length_of_at? hp, List.take_left]
        rw [e4.entry _ av dv p hta hdv (by rw [t1]; exact hp), hdv, Spec.resetEntry, if_pos hh]
    · have h3 : c.state.accumulators.get? name = none := by
        rw [Dict.get?_eq_none_iff, st.akeys]; exact hname
      have h4 : s.defaults.get? name = none := by
        rw [Dict.get?_eq_none_iff, hs.def_iff]; exact hname
      rw [h3, h4]
      exact Option.Rel.none
  · rw [st.updates] at hu
    exact PyTree.isNone_iff.1 (st.idle n u hu)

omit [Arith α] in
theorem DictAgree.symm {b b' : List Nat} {d e : Dict (PyTree (Leaf α))} (h : DictAgree b b' d e) :
    DictAgree b' b e d := by
  intro n
  have := h n
  cases hd : d.get? n <;> cases he : e.get? n <;> rw [hd, he] at this
  · exact Option.Rel.none
  · cases this
  · cases this
  · cases this with
    | some h =>
      refine Option.Rel.some (List.Forall₂.flip (h.imp ?_))
      rintro l m ⟨t, u, h1, h2, h3, h4⟩
      exact ⟨u, t, h2, h1, h3.symm, fun i => (h4 i).symm⟩

omit [Arith α] in
theorem DictAgree.trans {b b' b'' : List Nat} {d e f : Dict (PyTree (Leaf α))}
    (h : DictAgree b b' d e) (h' : DictAgree b' b'' e f) : DictAgree b b'' d f := by
  intro n
  have h1 := h n
  have h2 := h' n
  revert h1 h2
  generalize d.get? n = x
  generalize e.get? n = y
  generalize f.get? n = z
  rintro (_ | h1) h2
  · cases h2 with
    | some h2 =>
      rename_i x y h1 z
      refine Option.Rel.some ?_
      unfold TreeAgree at *
      rw [List.forall₂_iff_get] at h1 h2 ⊢
      refine ⟨h1.1.trans h2.1, fun k k1 k2 => ?_⟩
      obtain ⟨t, u, a1, a2, a3, a4⟩ := h1.2 k k1 (h1.1 ▸ k1)
      obtain ⟨v, w, b1, b2, b3, b4⟩ := h2.2 k (h1.1 ▸ k1) k2
      rw [a2] at b1; cases b1
      exact ⟨t, w, a1, b2, a3.trans b3, fun i => (a4 i).trans (b4 i)⟩
  · cases h2; exact Option.Rel.none

/-- Two elements that are fresh, with the same constants and defaults, agree. -/
theorem FreshAt.agree {s t : ACTStates α} (hs : s.WF) (ht : t.WF) {b b' : List Nat}
    (h : FreshAt b s) (h' : FreshAt b' t) (he : s.epsilon = t.epsilon)
    (hd : s.depression_constant = t.depression_constant)
    (hp : s.probabilities.dtype = t.probabilities.dtype)
    (hi : s.iterations.dtype = t.iterations.dtype) (hdef : DictAgree b b' s.defaults t.defaults) :
    AgreeAt b b' s t := by
  refine ⟨he, hd, hp, hi, h.prob.trans h'.prob.symm, h.resid.trans h'.resid.symm,
    h.iter.trans h'.iter.symm, h.acc.trans (hdef.trans h'.acc.symm), hdef, fun n => ?_⟩
  have key : n ∈ s.updates.keys ↔ n ∈ t.updates.keys := by
    rw [hs.upd_iff, ht.upd_iff, ← hs.def_iff, ← ht.def_iff]; exact hdef.keys_iff n
  cases hsu : s.updates.get? n with
  | none =>
    rw [Dict.get?_eq_none_iff, key, ← Dict.get?_eq_none_iff] at hsu
    rw [hsu]; exact Option.Rel.none
  | some u =>
    obtain ⟨v, hv⟩ := Dict.mem_keys_iff.1 (key.1 (Dict.mem_keys_iff.2 ⟨u, hsu⟩))
    rw [hv, h.idle n u hsu, h'.idle n v hv]
    exact Option.Rel.some List.Forall₂.nil

/-- C57.  A controller is used for any history, then `reset_batches` is called while element `b` is
halted, and it is used further.  From then on element `b` behaves exactly as an element `b'` of a
controller that was never used and has the same constants and defaults. -/
theorem C57_reset_starts_over (hz : MaskZero α) {s t : ACTStates α} (hs : s.WF) (ht : t.WF)
    {b b' : List Nat} {c0 c1 c d : Controller α} {ops0 ops ops' : List (Op α)}
    (h0 : run ⟨s⟩ ops0 = .ok c0) (hb : c0.haltedBatches.at? b = some true)
    (hr : c0.resetBatches = .ok c1) (h1 : run c1 ops = .ok c)
    (hf : FreshAt b' t) (he : s.epsilon = t.epsilon)
    (hd : s.depression_constant = t.depression_constant)
    (hp : s.probabilities.dtype = t.probabilities.dtype)
    (hi : s.iterations.dtype = t.iterations.dtype) (hdef : DictAgree b b' s.defaults t.defaults)
    (hops : List.Forall₂ (OpAgree b b') ops ops') (h2 : run ⟨t⟩ ops' = .ok d) :
    AgreeAt b b' c.state d.state ∧ c.haltedBatches.at? b = d.haltedBatches.at? b' := by
  obtain ⟨s0⟩ := c0
  obtain ⟨s1⟩ := c1
  have w0 := run_wf hs h0
  have st := Controller.resetBatches_ok w0 hr
  have w1 := Controller.ResetStep.wf w0 st
  have inv : s0.epsilon = s.epsilon ∧ s0.depression_constant = s.depression_constant ∧
      s0.probabilities.dtype = s.probabilities.dtype ∧
      s0.iterations.dtype = s.iterations.dtype ∧ s0.defaults = s.defaults := by
    refine (run_induction (Inv := fun x => x.epsilon = s.epsilon ∧
      x.depression_constant = s.depression_constant ∧
      x.probabilities.dtype = s.probabilities.dtype ∧
      x.iterations.dtype = s.iterations.dtype ∧ x.defaults = s.defaults) ?_ ?_ ?_ ops0 hs
      ⟨rfl, rfl, rfl, rfl, rfl⟩ h0).2
    · rintro x n u x' - k h
      rw [k.eq]; exact h
    · rintro x g x' - k ⟨k1, k2, k3, k4, k5⟩
      exact ⟨k.epsilon.trans k1, k.depression.trans k2, k.pdtype.trans k3, k.idtype.trans k4,
        k.defaults.trans k5⟩
    · rintro x x' - k ⟨k1, k2, k3, k4, k5⟩
      exact ⟨k.epsilon.trans k1, k.depression.trans k2, k.pdtype.trans k3, k.idtype.trans k4,
        k.defaults.trans k5⟩
  obtain ⟨i1, i2, i3, i4, i5⟩ := inv
  have f1 := C57_reset_fresh hz w0 hb hr
  have ag : AgreeAt b b' s1 t := f1.agree w1 ht hf (by rw [st.epsilon, i1, he])
    (by rw [st.depression, i2, hd]) (by rw [st.pdtype, i3, hp]) (by rw [st.idtype, i4, hi])
    (by rw [st.defaults, i5]; exact hdef)
  exact C56_position_irrelevant w1 ht f1.prob ag hops h1 h2

end AnyArith

/-- Exact arithmetic. -/
theorem maskZero_exact {K : Type} [Field K] [LinearOrder K] : @MaskZero K (Arith.exact K) :=
  fun d x => @Spec.keepIf_eq K _ _ d false x

/-- Rounded arithmetic, in any formats. -/
theorem maskZero_rounded (F : DType → Fmt) : @MaskZero ℚ (Arith.rounded F) := by
  intro d x
  unfold Spec.keepIf convS Arith.ofBool
  show Arith.roundTo F d (x * _) = (0 : ℚ)
  have h0 : ∀ d, Arith.roundTo F d 0 = 0 := fun d => by
    unfold Arith.roundTo; split
    · exact Fmt.rnd_zero _
    · rfl
  split
  · show Arith.roundTo F d (x * 0) = 0
    rw [mul_zero, h0]
  · show Arith.roundTo F d (x * Arith.roundTo F d 0) = 0
    rw [h0, mul_zero, h0]

section Example
open Fixtures
attribute [local instance] Arith.exact

/-- Element 1 halts in the first round, is reset, and the second round does to it what it does to a
new controller; element 0 is in its second iteration. -/
example : obs (run ⟨simple⟩ (roundOps [sround [1/2, 1] 4 6] ++ [.reset] ++
      roundOps [sround [1/4, 1/4] 8 8]))
    (fun c => some (c.probabilities.at? [1], c.iterations.at? [1],
      entry? c.accumulators "out" 0 [1, 0], entry? c.accumulators "out" 0 [0, 0])) =
      some (some (1/4), some 1, some 2, some 4) ∧
    obs (run ⟨simple⟩ (roundOps [sround [1/4, 1/4] 8 8]))
    (fun c => some (c.probabilities.at? [1], c.iterations.at? [1],
      entry? c.accumulators "out" 0 [1, 0], entry? c.accumulators "out" 0 [0, 0])) =
      some (some (1/4), some 1, some 2, some 2) := by decide +kernel

/-- The hypotheses: `simple` is fresh at 1, and element 1 is halted before the reset. -/
example : FreshAt [1] simple ∧ obs (run ⟨simple⟩ (roundOps [sround [1/2, 1] 4 6]))
    (fun c => c.haltedBatches.at? [1]) = some true := by
  refine ⟨⟨by decide +kernel, by decide +kernel, by decide +kernel, fun n => ?_, fun n u hu => ?_⟩,
    by decide +kernel⟩
  · show Option.Rel _ (simple.accumulators.get? n) (simple.accumulators.get? n)
    cases hn : simple.accumulators.get? n with
    | none => exact Option.Rel.none
    | some x =>
      refine Option.Rel.some (List.forall₂_same.2 fun l hl => ?_)
      obtain ⟨t, rfl, -⟩ := simple_batched n x hn l hl
      exact ⟨t, t, rfl, rfl, rfl, fun i => rfl⟩
  · exact (get?_one hu).2

end Example
end JaxAct
