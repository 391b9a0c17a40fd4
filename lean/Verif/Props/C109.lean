import Verif.Spec.Pause
import Verif.Props.C19
import Verif.Props.C105

/-!
# C109 Elements may pause

A batch element that has nothing to contribute in an iteration is given a halting probability of zero.  Such
iterations can be put in or left out anywhere without changing what the element computes, so elements of one batch
may go at different speeds.
-/

namespace JaxAct
open PyTree ACTStates

section General
variable {α : Type} [Arith α]

omit [Arith α] in
theorem round_iterate {r : Round α} {h : Tensor α} (hm : Op.iterate h ∈ r.ops) : h = r.halting := by
  unfold Round.ops at hm
  rcases List.mem_append.1 hm with hm | hm
  · obtain ⟨_, -, e⟩ := List.mem_map.1 hm
    cases e
  · cases List.mem_singleton.1 hm
    rfl

/-- What is needed of the cumulative probabilities `p` with `good p`: they can be stored, an iteration of a halted
element does not change them, and iterations keep them good. -/
structure Pausable (rep : DType → α → Prop) (d : DType) (eps dep : α) (good : α → Prop) : Prop where
  neutral : NeutralZero rep
  stored : ∀ {e : DType} (x y : α), e.isFloating = true → rep e (Arith.add e x y)
  rep : ∀ {p}, good p → rep d p
  halted : ∀ {p} (h : α), good p → Spec.isHalted d eps p = true →
    Arith.add d p (Spec.weight d eps dep p h) = p
  next : ∀ {p} (h : α), good p → good (Arith.add d p (Spec.weight d eps dep p h))

/-- An element of one state and its entry `q` with an element of another state and its entry `q'`. -/
structure PausedStates (rep : DType → α → Prop) (d dA : DType) (eps dep : α) (good : α → Prop) (b b' : List Nat)
    (q q' : Place) (p r a : α) (s t : ACTStates α) : Prop where
  good : good p
  stored : rep dA a
  wf : s.WF
  wf' : t.WF
  epsilon : s.epsilon = eps
  epsilon' : t.epsilon = eps
  depression : s.depression_constant = dep
  depression' : t.depression_constant = dep
  dtype : s.probabilities.dtype = d
  dtype' : t.probabilities.dtype = d
  prob : s.probabilities.at? b = some p
  prob' : t.probabilities.at? b' = some p
  resid : s.residuals.at? b = some r
  resid' : t.residuals.at? b' = some r
  idx : q.idx.take s.probabilities.shape.length = b
  idx' : q'.idx.take t.probabilities.shape.length = b'
  entry : ∃ ta, leaf? s.accumulators q.name q.leaf = some (.tensor ta) ∧ ta.dtype = dA ∧ ta.at? q.idx = some a
  entry' : ∃ ta, leaf? t.accumulators q'.name q'.leaf = some (.tensor ta) ∧ ta.dtype = dA ∧
    ta.at? q'.idx = some a

namespace PausedStates
variable {rep : DType → α → Prop} {d dA : DType} {eps dep : α} {good : α → Prop} {b b' : List Nat} {q q' : Place}
  {p r a : α} {s t : ACTStates α}

omit [Arith α] in
theorem symm (h : PausedStates rep d dA eps dep good b b' q q' p r a s t) :
    PausedStates rep d dA eps dep good b' b q' q p r a t s :=
  ⟨h.good, h.stored, h.wf', h.wf, h.epsilon', h.epsilon, h.depression', h.depression, h.dtype', h.dtype, h.prob',
    h.prob, h.resid', h.resid, h.idx', h.idx, h.entry', h.entry⟩

/-- One round of one of the two: what it does to the element and the entry. -/
theorem half {s s' : ACTStates α} (hs : s.WF) {x : Round α} (h : run ⟨s⟩ x.ops = .ok ⟨s'⟩) {b : List Nat} {q : Place}
    {p r a : α} {dA : DType} (hp : s.probabilities.at? b = some p) (hr : s.residuals.at? b = some r)
    (hi : q.idx.take s.probabilities.shape.length = b)
    (ha : ∃ ta, leaf? s.accumulators q.name q.leaf = some (.tensor ta) ∧ ta.dtype = dA ∧ ta.at? q.idx = some a) :
    s'.WF ∧ s'.epsilon = s.epsilon ∧ s'.depression_constant = s.depression_constant ∧
    s'.probabilities.dtype = s.probabilities.dtype ∧
    s'.probabilities.shape.length = s.probabilities.shape.length ∧ dA.isFloating = true ∧
    ∃ y dU u n, x.halting.at? b = some y ∧ (∀ d v, x.UpdateAt q d v → d = dU ∧ v = u) ∧
      s'.probabilities.at? b = some (Spec.step s.probabilities.dtype s.iterations.dtype s.epsilon
        s.depression_constant ⟨p, r, n⟩ (convS x.halting.dtype s.probabilities.dtype y)).prob ∧
      s'.residuals.at? b = some (Spec.step s.probabilities.dtype s.iterations.dtype s.epsilon
        s.depression_constant ⟨p, r, n⟩ (convS x.halting.dtype s.probabilities.dtype y)).resid ∧
      ∃ ta, leaf? s'.accumulators q.name q.leaf = some (.tensor ta) ∧ ta.dtype = dA ∧
        ta.at? q.idx = some (Spec.accStep s.probabilities.dtype dA dU s.epsilon s.depression_constant p
          (convS x.halting.dtype s.probabilities.dtype y) a u) := by
  obtain ⟨U, wU, st, hU⟩ := round_ok_get hs h
  obtain ⟨r', n, y, e1, -, e3, e4, e5, -⟩ := st.cellAt wU (b := b) (p := p) hp
  have e1' : s.residuals.at? b = some r' := e1
  rw [hr] at e1'
  cases e1'
  obtain ⟨ta, a1, a2, a3⟩ := ha
  obtain ⟨tf, ef, hf, -⟩ := hs.leaf_tensor a1
  cases ef
  subst a2
  refine ⟨Controller.IterStep.wf wU st, st.epsilon, st.depression, st.pdtype, by rw [st.pshape], hf, ?_⟩
  rcases st.leaf (n := q.name) (k := q.leaf) with ⟨g, -⟩ | ⟨ta1, tu, ta', g1, g2, g3, g4⟩
  · have g' : leaf? s.accumulators q.name q.leaf = Option.none := g
    rw [a1] at g'; cases g'
  · have g1' : leaf? s.accumulators q.name q.leaf = some (.tensor ta1) := g1
    rw [a1] at g1'
    cases g1'
    obtain ⟨u, hu⟩ := Controller.at?_some_of_shape (b := tu) g4.ushape a3
    refine ⟨y, tu.dtype, u, n, e3, ?_, e4, e5, ta', g3, g4.dtype,
      g4.entry q.idx a u p y a3 hu (by rw [hi]; exact hp) (by rw [hi]; exact e3)⟩
    rintro dv v ⟨tv, v1, rfl, v2⟩
    have v3 := leaf?_transfer hU v1
    have g2' : leaf? U q.name q.leaf = some (.tensor tu) := g2
    rw [g2'] at v3
    cases v3
    rw [hu] at v2
    cases v2
    exact ⟨rfl, rfl⟩

/-- A round both have. -/
theorem both (L : Pausable rep d eps dep good) (h : PausedStates rep d dA eps dep good b b' q q' p r a s t)
    {x x' : Round α} {s' t' : ACTStates α} (h1 : run ⟨s⟩ x.ops = .ok ⟨s'⟩) (h2 : run ⟨t⟩ x'.ops = .ok ⟨t'⟩)
    {y u : α} {dU : DType} (dtype : x'.halting.dtype = x.halting.dtype)
    (halting : x.halting.at? b = some y) (halting' : x'.halting.at? b' = some y)
    (update : x.UpdateAt q dU u) (update' : x'.UpdateAt q' dU u) :
    ∃ p r a, PausedStates rep d dA eps dep good b b' q q' p r a s' t' := by
  obtain ⟨a1, a2, a3, a4, a5, a6, y1, dU1, u1, n1, a7, a8, a9, a10, a11⟩ :=
    half h.wf h1 h.prob h.resid h.idx h.entry
  obtain ⟨b1, b2, b3, b4, b5, -, y2, dU2, u2, n2, b7, b8, b9, b10, b11⟩ :=
    half h.wf' h2 h.prob' h.resid' h.idx' h.entry'
  rw [halting] at a7
  rw [halting'] at b7
  cases a7
  cases b7
  obtain ⟨rfl, rfl⟩ := a8 _ _ update
  obtain ⟨rfl, rfl⟩ := b8 _ _ update'
  rw [h.dtype, h.epsilon, h.depression] at a9 a10 a11
  rw [h.dtype', h.epsilon', h.depression', dtype] at b9 b10 b11
  refine ⟨_, _, _, L.next _ h.good, ?_, a1, b1, a2.trans h.epsilon, b2.trans h.epsilon', a3.trans h.depression,
    b3.trans h.depression', a4.trans h.dtype, b4.trans h.dtype', a9, b9, a10, b10, by rw [a5]; exact h.idx,
    by rw [b5]; exact h.idx', a11, b11⟩
  unfold Spec.accStep
  split
  · exact h.stored
  · exact L.stored _ _ a6

/-- A round in which the element of the first pauses. -/
theorem pause (L : Pausable rep d eps dep good) (h : PausedStates rep d dA eps dep good b b' q q' p r a s t)
    {x : Round α} {s' : ACTStates α} (h1 : run ⟨s⟩ x.ops = .ok ⟨s'⟩) (hs : Silent b s x.ops) :
    PausedStates rep d dA eps dep good b b' q q' p r a s' t := by
  obtain ⟨a1, a2, a3, a4, a5, a6, y, dU, u, n, a7, a8, a9, a10, a11⟩ :=
    half h.wf h1 h.prob h.resid h.idx h.entry
  have hd := hs x.halting (by simp [Round.ops]) y a7
  rw [h.dtype, h.epsilon, h.depression] at a9 a10 a11
  rw [h.dtype, h.depression] at hd
  rw [L.neutral.accStep (L.rep h.good) h.stored hd] at a11
  refine ⟨h.good, h.stored, a1, h.wf', a2.trans h.epsilon, h.epsilon', a3.trans h.depression,
    h.depression', a4.trans h.dtype, h.dtype', ?_, h.prob', ?_, h.resid', by rw [a5]; exact h.idx, h.idx', a11,
    h.entry'⟩
  · rw [a9]
    cases hh : Spec.isHalted d eps p with
    | false => rw [L.neutral.step (c := ⟨p, r, n⟩) (L.rep h.good) hd hh]
    | true => exact congrArg some (L.halted _ h.good hh)
  · rw [a10]
    cases hh : Spec.isHalted d eps p with
    | false => rw [L.neutral.step (c := ⟨p, r, n⟩) (L.rep h.good) hd hh]
    | true => unfold Spec.step; simp only [hh, Bool.not_true, Bool.and_false, Bool.false_eq_true, if_false]

/-- Any rounds. -/
theorem rounds [LE α] [Zero α] (L : Pausable rep d eps dep good)
    (hsil : ∀ {b : List Nat} {s : ACTStates α} {x : Round α}, (∀ y, x.halting.at? b = some y → y ≤ 0) →
      Silent b s x.ops) {rs rs' : List (Round α)} (hrs : Paused b b' q q' rs rs') :
    ∀ {p r a : α} {s t : ACTStates α} {c c' : Controller α},
    PausedStates rep d dA eps dep good b b' q q' p r a s t → run ⟨s⟩ (roundOps rs) = .ok c →
    run ⟨t⟩ (roundOps rs') = .ok c' →
    ∃ p r a, PausedStates rep d dA eps dep good b b' q q' p r a c.state c'.state := by
  induction hrs with
  | nil =>
    intro p r a s t c c' h h1 h2
    cases h1
    cases h2
    exact ⟨p, r, a, h⟩
  | both dt e1 e2 e3 e4 _ ih =>
    intro p r a s t c c' h h1 h2
    simp only [roundOps, List.flatMap_cons] at h1 h2
    rw [run_append, bind_ok] at h1 h2
    obtain ⟨⟨s1⟩, h1, h1'⟩ := h1
    obtain ⟨⟨t1⟩, h2, h2'⟩ := h2
    obtain ⟨p1, r1, a1, h⟩ := h.both L h1 h2 dt e1 e2 e3 e4
    exact ih h h1' h2'
  | pause e1 _ ih =>
    intro p r a s t c c' h h1 h2
    simp only [roundOps, List.flatMap_cons] at h1
    rw [run_append, bind_ok] at h1
    obtain ⟨⟨s1⟩, h1, h1'⟩ := h1
    exact ih (h.pause L h1 (hsil e1)) h1' h2
  | pause' e1 _ ih =>
    intro p r a s t c c' h h1 h2
    simp only [roundOps, List.flatMap_cons] at h2
    rw [run_append, bind_ok] at h2
    obtain ⟨⟨t1⟩, h2, h2'⟩ := h2
    exact ih (h.symm.pause L h2 (hsil e1)).symm h1 h2'

/-- What is read off. -/
theorem read (h : PausedStates rep d dA eps dep good b b' q q' p r a s t) :
    (Controller.haltedBatches ⟨s⟩).at? b = (Controller.haltedBatches ⟨t⟩).at? b' ∧
    s.probabilities.at? b = t.probabilities.at? b' ∧ s.residuals.at? b = t.residuals.at? b' ∧
    ∃ a, entry? s.accumulators q.name q.leaf q.idx = some a ∧
      entry? t.accumulators q'.name q'.leaf q'.idx = some a := by
  obtain ⟨ta, a1, -, a3⟩ := h.entry
  obtain ⟨tb, b1, -, b3⟩ := h.entry'
  refine ⟨?_, h.prob.trans h.prob'.symm, h.resid.trans h.resid'.symm, a, entry?_eq_some.2 ⟨_, a1, a3⟩,
    entry?_eq_some.2 ⟨_, b1, b3⟩⟩
  rw [(halted_iff h.wf.floating).2 ⟨p, h.prob, rfl⟩, (halted_iff h.wf'.floating).2 ⟨p, h.prob', rfl⟩, h.dtype,
    h.dtype', h.epsilon, h.epsilon']

end PausedStates
end General

section Exact
variable {K : Type} [Field K] [LinearOrder K] [IsStrictOrderedRing K]
attribute [local instance] Arith.exact

theorem Pausable.exact (d : DType) {eps dep : K} (hdep : 0 ≤ dep) :
    Pausable (fun _ _ => True) d eps dep fun p => Spec.isHalted d eps p = true → p = 1 where
  neutral := .exact
  stored _ _ _ := trivial
  rep _ := trivial
  halted {p} h hg hh := by
    rw [Spec.weight_of_crosses (Spec.crosses_of_halted hdep hh)]
    show p + (1 - p) = p
    rw [hg hh]; ring
  next {p} h _ := by
    intro hh
    show p + Spec.weight d eps dep p h = 1
    cases hc : Spec.crosses d eps dep p h with
    | true => rw [Spec.weight_of_crosses hc]; ring
    | false =>
      have hw : Spec.weight d eps dep p h = Spec.demand d dep h := by
        unfold Spec.weight; rw [hc]; rfl
      rw [hw] at hh
      have e : Spec.isHalted d eps (Arith.add d p (Spec.demand d dep h)) = Spec.crosses d eps dep p h := by
        unfold Spec.isHalted Spec.crosses
        show Arith.lt _ (p + _) = Arith.lt _ (_ + p)
        rw [add_comm]
      rw [e, hc] at hh
      cases hh

/-- C109.  Element `b` of one controller and element `b'` of another one (or of the same), with the same cumulative
probability, residual, `epsilon` and depression constant, and the same number in an accumulator entry of each.  They
are given the same halting probabilities and updates in the same order, but in either sequence there may be further
rounds, anywhere and any number of them, in which the element is given a halting probability of zero or less, with
whatever updates.  Afterwards both have the same cumulative probability, residual and accumulated entry, and either
both are halted or neither is. -/
theorem C109_pause {s t : ACTStates K} (hs : s.WF) (ht : t.WF) (hdep : 0 ≤ s.depression_constant)
    (heps : t.epsilon = s.epsilon) (hdc : t.depression_constant = s.depression_constant)
    (hpd : t.probabilities.dtype = s.probabilities.dtype) {b b' : List Nat} {q q' : Place} {p r a : K}
    {dA : DType} (hidx : q.idx.take s.probabilities.shape.length = b)
    (hidx' : q'.idx.take t.probabilities.shape.length = b')
    (hp : s.probabilities.at? b = some p) (hp' : t.probabilities.at? b' = some p)
    (hr : s.residuals.at? b = some r) (hr' : t.residuals.at? b' = some r)
    (h1 : (Controller.haltedBatches ⟨s⟩).at? b = some true → p = 1)
    (ha : ∃ ta, leaf? s.accumulators q.name q.leaf = some (.tensor ta) ∧ ta.dtype = dA ∧ ta.at? q.idx = some a)
    (ha' : ∃ ta, leaf? t.accumulators q'.name q'.leaf = some (.tensor ta) ∧ ta.dtype = dA ∧
      ta.at? q'.idx = some a)
    {rs rs' : List (Round K)} (hrs : Paused b b' q q' rs rs') {c c' : Controller K}
    (hrun : run ⟨s⟩ (roundOps rs) = .ok c) (hrun' : run ⟨t⟩ (roundOps rs') = .ok c') :
    c.haltedBatches.at? b = c'.haltedBatches.at? b' ∧ c.probabilities.at? b = c'.probabilities.at? b' ∧
    c.residuals.at? b = c'.residuals.at? b' ∧ ∃ a, entry? c.accumulators q.name q.leaf q.idx = some a ∧
      entry? c'.accumulators q'.name q'.leaf q'.idx = some a := by
  obtain ⟨p1, r1, a1, h⟩ := PausedStates.rounds (Pausable.exact s.probabilities.dtype hdep)
    (fun hx => Silent.exact (.inr fun h hm y hy => hx y (round_iterate hm ▸ hy))) hrs (dA := dA)
    ⟨fun hh => h1 ((halted_iff hs.floating).2 ⟨p, hp, hh⟩), trivial, hs, ht, rfl, heps, rfl, hdc, rfl, hpd, hp, hp',
      hr, hr', hidx, hidx', ha, ha'⟩ hrun hrun'
  exact h.read

end Exact

section Rounded
variable {F : DType → Fmt} [A : Arith ℚ]
open Arith Fmt

theorem Pausable.rounded (hA : A = Arith.rounded F) (hV : ∀ d : DType, d.isFloating = true → (F d).Valid) {d : DType}
    (hd : d.isFloating = true) {eps dep : ℚ} (heps : 0 ≤ eps) (hdep : 0 ≤ dep) :
    Pausable (fun d x => roundTo F d x = x) d eps dep fun p =>
      (F d).Rep p ∧ 0 ≤ p ∧ p ≤ 1 ∧ (Spec.isHalted d eps p = true → p = 1) where
  neutral := .rounded hA
  stored {e} x y he := by
    have : Arith.add e x y = roundTo F e (x + y) := by subst hA; rfl
    rw [this, Spec.roundTo_float he, Spec.roundTo_float he]
    exact rnd_rep (hV e he).1 _
  rep hg := by rw [Spec.roundTo_float hd]; exact hg.1
  halted {p} h hg hh := by
    obtain ⟨g1, g2, g3, g4⟩ := hg
    rcases step_rounded_cases hA (dI := d) hd (hV d hd) (eps := eps) hdep (c := ⟨p, 0, 0⟩) g1 g2 g3 h with
      ⟨-, k⟩ | ⟨-, -, k2, k3⟩
    · exact k.trans (g4 hh).symm
    · have := (Spec.isHalted_rounded hA).1 hh
      exact absurd (lt_of_lt_of_le this (le_trans k2 k3)) (lt_irrefl _)
  next {p} h hg := by
    obtain ⟨g1, g2, g3, g4⟩ := hg
    rcases step_rounded_cases hA (dI := d) hd (hV d hd) (eps := eps) hdep (c := ⟨p, 0, 0⟩) g1 g2 g3 h with
      ⟨-, k⟩ | ⟨-, k1, k2, k3⟩
    · have k' : Arith.add d p (Spec.weight d eps dep p h) = 1 := k
      rw [k']
      exact ⟨rnd_one (hV d hd), zero_le_one, le_rfl, fun _ => rfl⟩
    · refine ⟨k1, le_trans g2 k2, le_trans k3 (Spec.threshold_le_one hA hd (hV d hd) (hV .f64 rfl) heps),
        fun hh => ?_⟩
      exact absurd (lt_of_lt_of_le ((Spec.isHalted_rounded hA).1 hh) k3) (lt_irrefl _)

/-- C109 with rounding, in any formats: also then pauses change nothing, not even the last digit. -/
theorem C109_pause_rounded (hA : A = Arith.rounded F) (hV : ∀ d : DType, d.isFloating = true → (F d).Valid)
    {s t : ACTStates ℚ} (hs : s.WF) (ht : t.WF) (he : 0 ≤ s.epsilon) (hdep : 0 ≤ s.depression_constant)
    (heps : t.epsilon = s.epsilon) (hdc : t.depression_constant = s.depression_constant)
    (hpd : t.probabilities.dtype = s.probabilities.dtype) {b b' : List Nat} {q q' : Place} {p r a : ℚ}
    {dA : DType} (hidx : q.idx.take s.probabilities.shape.length = b)
    (hidx' : q'.idx.take t.probabilities.shape.length = b')
    (hp : s.probabilities.at? b = some p) (hp' : t.probabilities.at? b' = some p)
    (hr : s.residuals.at? b = some r) (hr' : t.residuals.at? b' = some r)
    (hrep : (F s.probabilities.dtype).rnd p = p) (h0 : 0 ≤ p) (hle : p ≤ 1)
    (h1 : (Controller.haltedBatches ⟨s⟩).at? b = some true → p = 1) (hrepa : (F dA).rnd a = a)
    (ha : ∃ ta, leaf? s.accumulators q.name q.leaf = some (.tensor ta) ∧ ta.dtype = dA ∧ ta.at? q.idx = some a)
    (ha' : ∃ ta, leaf? t.accumulators q'.name q'.leaf = some (.tensor ta) ∧ ta.dtype = dA ∧
      ta.at? q'.idx = some a)
    {rs rs' : List (Round ℚ)} (hrs : Paused b b' q q' rs rs') {c c' : Controller ℚ}
    (hrun : run ⟨s⟩ (roundOps rs) = .ok c) (hrun' : run ⟨t⟩ (roundOps rs') = .ok c') :
    c.haltedBatches.at? b = c'.haltedBatches.at? b' ∧ c.probabilities.at? b = c'.probabilities.at? b' ∧
    c.residuals.at? b = c'.residuals.at? b' ∧ ∃ a, entry? c.accumulators q.name q.leaf q.idx = some a ∧
      entry? c'.accumulators q'.name q'.leaf q'.idx = some a := by
  have hrepa' : roundTo F dA a = a := by
    unfold roundTo
    split
    · exact hrepa
    · rfl
  obtain ⟨p1, r1, a1, h⟩ := PausedStates.rounds (Pausable.rounded hA hV hs.floating he hdep)
    (fun hx => Silent.rounded hA (.inr fun h hm y hy => hx y (round_iterate hm ▸ hy))) hrs (dA := dA)
    ⟨⟨hrep, h0, hle, fun hh => h1 ((halted_iff hs.floating).2 ⟨p, hp, hh⟩)⟩, hrepa', hs, ht, rfl, heps, rfl, hdc, rfl,
      hpd, hp, hp', hr, hr', hidx, hidx', ha, ha'⟩ hrun hrun'
  exact h.read

end Rounded

section Example
open Fixtures
attribute [local instance] ieee

/-- Element 0 is given a halting probability in every round. -/
def steadyPace : List (Round ℚ) := [sround [1/10, 1] 3 6, sround [7/10, 1] 1 6, sround [7/10, 1] 8 6]

/-- Element 1 gets the same, but pauses twice, with other updates, and once more after halting. -/
def slowPace : List (Round ℚ) :=
  [sround [1, 0] 0 77, sround [1, 1/10] 0 3, sround [1, -2] 0 5, sround [1, 7/10] 2 1, sround [1, 7/10] 2 8,
    sround [1/2, 0] 0 9]

theorem paces : Paused [0] [1] ⟨"out", 0, [0, 0]⟩ ⟨"out", 0, [1, 0]⟩ steadyPace slowPace := by
  have idle : ∀ {u v : ℚ} {x y z : ℚ}, v ≤ 0 → (sround [u, v] x y).halting.at? [1] = some z → z ≤ 0 := by
    intro u v x y z hv hz
    rcases vec_two hz with ⟨h, -⟩ | ⟨-, rfl⟩
    · cases h
    · exact hv
  refine .pause' (fun z hz => idle le_rfl hz) ?_
  refine .both (x := 1/10) (u := 3) (d := .f32) rfl (by decide +kernel) (by decide +kernel)
    ⟨_, rfl, rfl, by decide +kernel⟩ ⟨_, rfl, rfl, by decide +kernel⟩ ?_
  refine .pause' (fun z hz => idle (by norm_num) hz) ?_
  refine .both (x := 7/10) (u := 1) (d := .f32) rfl (by decide +kernel) (by decide +kernel)
    ⟨_, rfl, rfl, by decide +kernel⟩ ⟨_, rfl, rfl, by decide +kernel⟩ ?_
  refine .both (x := 7/10) (u := 8) (d := .f32) rfl (by decide +kernel) (by decide +kernel)
    ⟨_, rfl, rfl, by decide +kernel⟩ ⟨_, rfl, rfl, by decide +kernel⟩ ?_
  exact .pause' (fun z hz => idle le_rfl hz) .nil

/-- In IEEE arithmetic: the theorem applies to the two.  The numbers are rounded ones, the counters differ. -/
theorem C109_example : (∃ c c', run ⟨simple⟩ (roundOps steadyPace) = .ok c ∧
      run ⟨simple⟩ (roundOps slowPace) = .ok c' ∧
      c.haltedBatches.at? [0] = c'.haltedBatches.at? [1] ∧ c.residuals.at? [0] = c'.residuals.at? [1] ∧
      ∃ a, entry? c.accumulators "out" 0 [0, 0] = some a ∧ entry? c'.accumulators "out" 0 [1, 0] = some a) ∧
    obs (run ⟨simple⟩ (roundOps steadyPace)) (fun c =>
      some (c.haltedBatches.at? [0], c.iterations.at? [0])) = some (some true, some 3) ∧
    obs (run ⟨simple⟩ (roundOps slowPace)) (fun c =>
      some (c.haltedBatches.at? [1], c.iterations.at? [1])) = some (some true, some 5) ∧
    obs (run ⟨simple⟩ (roundOps slowPace)) (fun c =>
      some (decide (entry? c.accumulators "out" 0 [1, 0] = some (3 * (1/10) + 7/10 + 8 * (2/10))))) =
      some false := by
  refine ⟨?_, by decide +kernel, by decide +kernel, by decide +kernel⟩
  have h1 : succeeds (run ⟨simple⟩ (roundOps steadyPace)) = true := by decide +kernel
  have h2 : succeeds (run ⟨simple⟩ (roundOps slowPace)) = true := by decide +kernel
  cases e1 : run ⟨simple⟩ (roundOps steadyPace) with
  | error e => rw [e1] at h1; cases h1
  | ok c =>
    cases e2 : run ⟨simple⟩ (roundOps slowPace) with
    | error e => rw [e2] at h2; cases h2
    | ok c' =>
      obtain ⟨k1, -, k3, k4⟩ := C109_pause_rounded (F := DType.fmt) rfl (fun d _ => fmt_valid d) simple_wf simple_wf
        (by norm_num [simple, fresh]) (by norm_num [simple, fresh]) rfl rfl rfl (b := [0]) (b' := [1])
        (q := ⟨"out", 0, [0, 0]⟩) (q' := ⟨"out", 0, [1, 0]⟩) (p := 0) (r := 0) (a := 0) (dA := .f32) rfl rfl
        (by decide +kernel) (by decide +kernel) (by decide +kernel) (by decide +kernel) (Fmt.rnd_zero _) le_rfl
        zero_le_one (fun h => absurd h (by decide +kernel)) (Fmt.rnd_zero _) ⟨_, rfl, rfl, by decide +kernel⟩
        ⟨_, rfl, rfl, by decide +kernel⟩ paces e1 e2
      exact ⟨c, c', rfl, rfl, k1, k3, k4⟩

end Example

end JaxAct
