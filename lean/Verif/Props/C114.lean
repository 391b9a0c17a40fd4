import Verif.Props.C109

/-!
# C114 Accumulating ones gives the cumulative probability

An accumulator that is given ones is a copy of `probabilities`, to the last digit: what is added to the cumulative
probability is what the updates are weighted with.
-/

namespace JaxAct
open PyTree ACTStates

section General
variable {α : Type} [Arith α]

/-- An element and an accumulator entry of it that holds its cumulative probability. -/
structure CopyState (d : DType) (eps dep : α) (good : α → Prop) (b : List Nat) (q : Place) (s : ACTStates α) :
    Prop where
  wf : s.WF
  epsilon : s.epsilon = eps
  depression : s.depression_constant = dep
  dtype : s.probabilities.dtype = d
  idx : q.idx.take s.probabilities.shape.length = b
  copy : ∃ p ta, good p ∧ s.probabilities.at? b = some p ∧
    leaf? s.accumulators q.name q.leaf = some (.tensor ta) ∧ ta.dtype = d ∧ ta.at? q.idx = some p

variable {rep : DType → α → Prop} {d : DType} {eps dep : α} {good : α → Prop} {b : List Nat} {q : Place}

theorem CopyState.rounds (L : Pausable rep d eps dep good)
    (hone : ∀ {p} h, good p → Arith.mul d (Spec.weight d eps dep p h) Arith.one = Spec.weight d eps dep p h) :
    ∀ {rs : List (Round α)}, (∀ r ∈ rs, r.UpdateAt q d Arith.one) → ∀ {s : ACTStates α} {c : Controller α},
    CopyState d eps dep good b q s → run ⟨s⟩ (roundOps rs) = .ok c → CopyState d eps dep good b q c.state
  | [], _, s, c, hs, hrun => by cases hrun; exact hs
  | r :: rs, hu, s, c, hs, hrun => by
    simp only [roundOps, List.flatMap_cons] at hrun
    rw [run_append, bind_ok] at hrun
    obtain ⟨⟨s1⟩, h1, h2⟩ := hrun
    refine CopyState.rounds L hone (fun r hr => hu r (List.mem_cons_of_mem _ hr)) (s := s1) ?_ h2
    obtain ⟨wf, rfl, rfl, rfl, hi, p, ta, hg, hp, a1, a2, a3⟩ := hs
    obtain ⟨r0, n0, hr0, -⟩ := wf.cell hp
    obtain ⟨b1, b2, b3, b4, b5, -, y, dU, v, n, -, b8, b9, -, tb, b11, b12, b13⟩ :=
      PausedStates.half wf h1 hp hr0 hi ⟨ta, a1, a2, a3⟩
    obtain ⟨rfl, rfl⟩ := b8 _ _ (hu r List.mem_cons_self)
    refine ⟨b1, b2, b3, b4, by rw [b5]; exact hi, _, tb, L.next _ hg, b9, b11, b12, ?_⟩
    rw [b13]
    congr 1
    show _ = Arith.add _ p _
    unfold Spec.accStep
    split
    · rename_i hh
      exact (L.halted _ hg hh).symm
    · have hpr : DType.promote s.probabilities.dtype s.probabilities.dtype = s.probabilities.dtype := by
        cases s.probabilities.dtype <;> rfl
      have hcv : ∀ x : α, convS s.probabilities.dtype s.probabilities.dtype x = x := by
        intro x
        unfold convS
        rw [if_pos rfl]
      simp only [hpr, hcv]
      rw [hone _ hg]

omit [Arith α] in
theorem CopyState.read {s : ACTStates α} (h : CopyState d eps dep good b q s) :
    ∃ p, s.probabilities.at? b = some p ∧ entry? s.accumulators q.name q.leaf q.idx = some p := by
  obtain ⟨p, ta, -, h1, h2, -, h3⟩ := h.copy
  exact ⟨p, h1, entry?_eq_some.2 ⟨_, h2, h3⟩⟩

end General

section Exact
variable {K : Type} [Field K] [LinearOrder K] [IsStrictOrderedRing K]
attribute [local instance] Arith.exact

/-- C114 in exact arithmetic.  An accumulator entry of the dtype of `probabilities` holds the cumulative probability of
its element (zero at the beginning) and is given the update 1 in every round.  Then it holds the cumulative probability
of the element at the end. -/
theorem C114_ones {s : ACTStates K} (hs : s.WF) (hdep : 0 ≤ s.depression_constant) {b : List Nat} {q : Place} {p : K}
    (hidx : q.idx.take s.probabilities.shape.length = b) (hp : s.probabilities.at? b = some p)
    (h1 : (Controller.haltedBatches ⟨s⟩).at? b = some true → p = 1)
    (ha : ∃ ta, leaf? s.accumulators q.name q.leaf = some (.tensor ta) ∧ ta.dtype = s.probabilities.dtype ∧
      ta.at? q.idx = some p)
    {rs : List (Round K)} (hrs : ∀ r ∈ rs, r.UpdateAt q s.probabilities.dtype 1) {c : Controller K}
    (hrun : run ⟨s⟩ (roundOps rs) = .ok c) :
    ∃ p, c.probabilities.at? b = some p ∧ entry? c.accumulators q.name q.leaf q.idx = some p := by
  obtain ⟨ta, a1, a2, a3⟩ := ha
  exact (CopyState.rounds (Pausable.exact s.probabilities.dtype hdep) (fun h _ => mul_one _) hrs
    ⟨hs, rfl, rfl, rfl, hidx, p, ta, fun hh => h1 ((halted_iff hs.floating).2 ⟨p, hp, hh⟩), hp, a1, a2, a3⟩ hrun).read

end Exact

section Rounded
variable {F : DType → Fmt} [A : Arith ℚ]
open Arith Fmt

/-- C114 with every operation rounded, in any valid formats: the two numbers are the same also then. -/
theorem C114_ones_rounded (hA : A = Arith.rounded F) (hV : ∀ d : DType, d.isFloating = true → (F d).Valid)
    {s : ACTStates ℚ} (hs : s.WF) (he : 0 ≤ s.epsilon) (hdep : 0 ≤ s.depression_constant) {b : List Nat} {q : Place}
    {p : ℚ} (hidx : q.idx.take s.probabilities.shape.length = b) (hp : s.probabilities.at? b = some p)
    (hrep : (F s.probabilities.dtype).rnd p = p) (h0 : 0 ≤ p) (hle : p ≤ 1)
    (h1 : (Controller.haltedBatches ⟨s⟩).at? b = some true → p = 1)
    (ha : ∃ ta, leaf? s.accumulators q.name q.leaf = some (.tensor ta) ∧ ta.dtype = s.probabilities.dtype ∧
      ta.at? q.idx = some p)
    {rs : List (Round ℚ)} (hrs : ∀ r ∈ rs, r.UpdateAt q s.probabilities.dtype 1) {c : Controller ℚ}
    (hrun : run ⟨s⟩ (roundOps rs) = .ok c) :
    ∃ p, c.probabilities.at? b = some p ∧ entry? c.accumulators q.name q.leaf q.idx = some p := by
  obtain ⟨ta, a1, a2, a3⟩ := ha
  have hd := hs.floating
  have h1' : (Arith.one : ℚ) = 1 := by subst hA; rfl
  have hsub : ∀ x y : ℚ, Arith.sub s.probabilities.dtype x y = (F s.probabilities.dtype).rnd (x - y) :=
    fun x y => by subst hA; exact Spec.roundTo_float hd _
  have hmul : ∀ x y : ℚ, Arith.mul s.probabilities.dtype x y = (F s.probabilities.dtype).rnd (x * y) :=
    fun x y => by subst hA; exact Spec.roundTo_float hd _
  refine (CopyState.rounds (Pausable.rounded hA hV hd he hdep) (fun {p} h _ => ?_) (by rw [h1']; exact hrs)
    ⟨hs, rfl, rfl, rfl, hidx, p, ta,
      ⟨hrep, h0, hle, fun hh => h1 ((halted_iff hs.floating).2 ⟨p, hp, hh⟩)⟩, hp, a1, a2, a3⟩ hrun).read
  rw [hmul, h1', mul_one]
  unfold Spec.weight
  split
  · rw [hsub]
    exact rnd_rep (hV _ hd).1 _
  · unfold Spec.demand
    rw [hmul]
    exact rnd_rep (hV _ hd).1 _

end Rounded

section Example
open Fixtures
attribute [local instance] ieee

/-- In IEEE arithmetic, two rounds with halting probabilities `1/10` and `1/5`: the theorem applies, and the number is
not `3/10`. -/
theorem C114_example : (∃ c p, run ⟨simple⟩ (roundOps [sround [1/10, 1] 1 6, sround [1/5, 1] 1 6]) = .ok c ∧
      c.probabilities.at? [0] = some p ∧ entry? c.accumulators "out" 0 [0, 0] = some p) ∧
    obs (run ⟨simple⟩ (roundOps [sround [1/10, 1] 1 6, sround [1/5, 1] 1 6])) (fun c =>
      some (decide (c.probabilities.at? [0] = some (3/10)))) = some false := by
  refine ⟨?_, by decide +kernel⟩
  have h1 : succeeds (run ⟨simple⟩ (roundOps [sround [1/10, 1] 1 6, sround [1/5, 1] 1 6])) = true := by decide +kernel
  cases e1 : run ⟨simple⟩ (roundOps [sround [1/10, 1] 1 6, sround [1/5, 1] 1 6]) with
  | error e => rw [e1] at h1; cases h1
  | ok c =>
    obtain ⟨p, k1, k2⟩ := C114_ones_rounded (F := DType.fmt) rfl (fun d _ => fmt_valid d) simple_wf
      (by norm_num [simple, fresh]) (by norm_num [simple, fresh]) (b := [0]) (q := ⟨"out", 0, [0, 0]⟩) (p := 0) rfl
      (by decide +kernel) (Fmt.rnd_zero _) le_rfl zero_le_one (fun h => absurd h (by decide +kernel))
      ⟨_, rfl, rfl, by decide +kernel⟩ (fun r hr => by
        simp only [List.mem_cons, List.not_mem_nil, or_false] at hr
        rcases hr with rfl | rfl <;> exact ⟨_, rfl, rfl, by decide +kernel⟩) e1
    exact ⟨c, p, rfl, k1, k2⟩

end Example

end JaxAct
