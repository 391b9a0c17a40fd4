import Verif.Spec.Continue
import Verif.Spec.Edit
import Verif.Props.C04

/-!
# C99 Continuing from any point

C04 to C07 start from a fresh element.  A controller that was loaded or edited may have any cumulative
probability.
-/

namespace JaxAct
open ACTStates
variable {K : Type} [Field K] [LinearOrder K] [IsStrictOrderedRing K]
attribute [local instance] Arith.exact

namespace Graves

omit [IsStrictOrderedRing K] in
theorem CrossedFrom.mono {p eps dep : K} {h : Nat → K} {t t' : Nat} (hc : CrossedFrom p eps dep h t)
    (ht : t ≤ t') : CrossedFrom p eps dep h t' := by
  obtain ⟨j, h1, h2⟩ := hc
  exact ⟨j, h1.trans ht, h2⟩

theorem crossedFrom_iff {p eps dep : K} (hd : 0 ≤ dep) {h : Nat → K} {t : Nat} :
    CrossedFrom p eps dep h t ↔ 1 - eps < p + cumDemand dep h t := by
  constructor
  · rintro ⟨j, h1, h2⟩; linarith [cumDemand_mono hd h h1]
  · intro h2; exact ⟨t, le_rfl, h2⟩

omit [IsStrictOrderedRing K] in
theorem sum_weightFrom_of_not {p eps dep : K} {h : Nat → K} {t : Nat}
    (hn : ¬ CrossedFrom p eps dep h t) :
    ∑ j ∈ Finset.range t, weightFrom p eps dep h j = cumDemand dep h t := by
  refine Finset.sum_congr rfl fun j hj => ?_
  rw [Finset.mem_range] at hj
  unfold weightFrom
  rw [if_pos fun hc => hn (hc.mono (by omega))]

omit [IsStrictOrderedRing K] in
/-- After the crossing the weights sum to what was missing. -/
theorem sum_weightFrom_of_crossed {p eps dep : K} {h : Nat → K} (hp : p ≤ 1 - eps) :
    ∀ {t : Nat}, CrossedFrom p eps dep h t → ∑ j ∈ Finset.range t, weightFrom p eps dep h j = 1 - p
  | 0, hc => by
    obtain ⟨j, h1, h2⟩ := hc
    obtain rfl : j = 0 := by omega
    simp only [cumDemand, Finset.range_zero, Finset.sum_empty, add_zero] at h2
    exact absurd h2 (not_lt.2 hp)
  | t + 1, hc => by
    rw [Finset.sum_range_succ]
    by_cases hn : CrossedFrom p eps dep h t
    · rw [sum_weightFrom_of_crossed hp hn]
      unfold weightFrom
      rw [if_neg (by simpa using hc), if_neg (by simpa using hn), add_zero]
    · rw [sum_weightFrom_of_not hn]
      unfold weightFrom
      rw [if_neg (by simpa using hc), if_pos hn]
      ring

omit [IsStrictOrderedRing K] in
theorem stepsFrom_succ (p eps dep : K) (h : Nat → K) (t : Nat) :
    stepsFrom p eps dep h (t + 1) = if CrossedFrom p eps dep h t then stepsFrom p eps dep h t
      else stepsFrom p eps dep h t + 1 := by
  unfold stepsFrom
  rw [Finset.range_add_one, Finset.filter_insert]
  by_cases hc : CrossedFrom p eps dep h t
  · rw [if_neg (by simpa using hc), if_pos hc]
  · rw [if_pos hc, if_neg hc, Finset.card_insert_of_notMem (by simp)]

omit [IsStrictOrderedRing K] in
theorem stepsFrom_of_not {p eps dep : K} {h : Nat → K} {t : Nat} (hn : ¬ CrossedFrom p eps dep h t) :
    stepsFrom p eps dep h t = t := by
  unfold stepsFrom
  rw [Finset.filter_true_of_mem, Finset.card_range]
  intro j hj hc
  exact hn (hc.mono (Finset.mem_range.1 hj).le)

omit [IsStrictOrderedRing K] in
theorem remainderFrom_succ {p eps dep r : K} {h : Nat → K} {t : Nat} :
    remainderFrom p eps dep r h (t + 1) = if CrossedFrom p eps dep h t then remainderFrom p eps dep r h t
      else if CrossedFrom p eps dep h (t + 1) then 1 - (p + cumDemand dep h t) else r := by
  unfold remainderFrom
  rw [stepsFrom_succ]
  by_cases hn : CrossedFrom p eps dep h t
  · rw [if_pos hn, if_pos hn, if_pos hn, if_pos (hn.mono (Nat.le_succ t))]
  · rw [if_neg hn, if_neg hn, stepsFrom_of_not hn]; rfl

theorem spec_weightFrom {d : DType} {p eps dep : K} (he : 0 < eps) (hp : p ≤ 1 - eps) (hd : 0 ≤ dep)
    {h : Nat → K} {t : Nat} :
    Spec.weight d eps dep (p + ∑ j ∈ Finset.range t, weightFrom p eps dep h j) (h t) =
      weightFrom p eps dep h t ∧
    (Spec.isHalted d eps (p + ∑ j ∈ Finset.range t, weightFrom p eps dep h j) = true ↔
      CrossedFrom p eps dep h t) ∧
    (¬ CrossedFrom p eps dep h t →
      (Spec.crosses d eps dep (p + ∑ j ∈ Finset.range t, weightFrom p eps dep h j) (h t) = true ↔
        CrossedFrom p eps dep h (t + 1))) := by
  have hcl : Spec.clamp (h t) = clip (h t) := rfl
  by_cases hc : CrossedFrom p eps dep h t
  · rw [sum_weightFrom_of_crossed hp hc, add_sub_cancel]
    have hh : Spec.isHalted d eps (1 : K) = true := by rw [Spec.isHalted_iff]; linarith
    refine ⟨?_, by simp [hh, hc], fun hn => absurd hc hn⟩
    rw [Spec.weight_of_crosses (Spec.crosses_of_halted hd hh)]
    unfold weightFrom
    rw [if_neg (by simpa using hc.mono (Nat.le_succ t)), if_neg (by simpa using hc)]
    ring
  · rw [sum_weightFrom_of_not hc]
    have hle : p + cumDemand dep h t ≤ 1 - eps := by
      rw [crossedFrom_iff hd, not_lt] at hc; exact hc
    have hh : Spec.isHalted d eps (p + cumDemand dep h t) = false := Spec.isHalted_false_iff.2 hle
    have hx : Spec.crosses d eps dep (p + cumDemand dep h t) (h t) = true ↔
        CrossedFrom p eps dep h (t + 1) := by
      rw [Spec.crosses_iff, crossedFrom_iff hd, cumDemand_succ, hcl]
      constructor <;> intro <;> linarith
    refine ⟨?_, by simp [hh, hc], fun _ => hx⟩
    unfold weightFrom
    by_cases hc' : CrossedFrom p eps dep h (t + 1)
    · rw [if_neg (by simpa using hc'), if_pos hc]
      exact Spec.weight_of_crosses (hx.2 hc')
    · rw [if_pos hc']
      exact Spec.weight_of_not (Bool.eq_false_iff.2 fun hh => hc' (hx.1 hh))

end Graves

omit [IsStrictOrderedRing K] in
theorem halted_iff_of_prob {s : ACTStates K} (hwf : s.WF) {b : List Nat} {p : K}
    (hp : s.probabilities.at? b = some p) :
    (Controller.mk s).haltedBatches.at? b = some true ↔
      Spec.isHalted s.probabilities.dtype s.epsilon p = true := by
  rw [halted_iff hwf.floating]
  constructor
  · rintro ⟨p', hp', hh⟩
    rw [hp] at hp'
    cases hp'
    exact hh
  · intro hh; exact ⟨_, hp, hh⟩

/-- C99: an element that is not halted continues.  Let it have probability `p`, residual `r` and counter `n`.
After any rounds with halting probabilities `h` the weights of the rounds are the demands until the sum,
counted from `p`, crosses, then what is missing, then nothing; the residual is kept until the crossing. -/
theorem C99_continue {s : ACTStates K} (hwf : s.WF)
    (he0 : 0 < s.epsilon) (hdep : 0 ≤ s.depression_constant)
    (rs : List (Round K)) {c' : Controller K} (hrun : run ⟨s⟩ (roundOps rs) = .ok c')
    {b : List Nat} {p r n : K} (h : Nat → K) (hp : s.probabilities.at? b = some p)
    (hr : s.residuals.at? b = some r) (hi : s.iterations.at? b = some n)
    (hopen : p ≤ 1 - s.epsilon)
    (hh : ∀ (t : Nat) (x : Round K), rs[t]? = some x → x.halting.at? b = some (h t)) :
    c'.probabilities.at? b = some (p + ∑ t ∈ Finset.range rs.length,
      Graves.weightFrom p s.epsilon s.depression_constant h t) ∧
    c'.iterations.at? b =
      some (n + (Graves.stepsFrom p s.epsilon s.depression_constant h rs.length : K)) ∧
    c'.residuals.at? b =
      some (Graves.remainderFrom p s.epsilon s.depression_constant r h rs.length) ∧
    (c'.haltedBatches.at? b = some true ↔
      Graves.CrossedFrom p s.epsilon s.depression_constant h rs.length) := by
  have := rounds_induction hwf (Inv := fun rs t =>
      (∀ (j : Nat) (x : Round K), rs[j]? = some x → x.halting.at? b = some (h j)) →
      t.epsilon = s.epsilon ∧ t.depression_constant = s.depression_constant ∧
      t.probabilities.at? b = some (p + ∑ t ∈ Finset.range rs.length,
        Graves.weightFrom p s.epsilon s.depression_constant h t) ∧
      t.iterations.at? b =
        some (n + (Graves.stepsFrom p s.epsilon s.depression_constant h rs.length : K)) ∧
      t.residuals.at? b =
        some (Graves.remainderFrom p s.epsilon s.depression_constant r h rs.length))
    ?_ ?_ rs hrun
  · obtain ⟨hw, this⟩ := this
    obtain ⟨h1, h2, h3, h4, h5⟩ := this hh
    refine ⟨h3, h4, h5, ?_⟩
    rw [← (Graves.spec_weightFrom (d := c'.state.probabilities.dtype) he0 hopen hdep
      (h := h) (t := rs.length)).2.1]
    have hb := halted_iff_of_prob hw h3
    rw [h1] at hb
    exact hb
  · intro _
    refine ⟨rfl, rfl, by simpa using hp, ?_, ?_⟩
    · rw [hi, List.length_nil]; simp [Graves.stepsFrom]
    · rw [hr, List.length_nil, Graves.remainderFrom, if_neg]
      rw [Graves.crossedFrom_iff hdep]
      simpa [Graves.cumDemand] using hopen
  · intro rs x t U t' _ hw st hU ih hh
    have hlast : (rs ++ [x])[rs.length]? = some x := by simp
    have hpre : ∀ (j : Nat) r', rs[j]? = some r' → (rs ++ [x])[j]? = some r' := by
      intro j r' hj
      rw [List.getElem?_append_left (List.getElem?_eq_some_iff.1 hj).1]; exact hj
    obtain ⟨e1, e2, e5, e6, e7⟩ := ih (fun j r' hj => hh j r' (hpre j r' hj))
    obtain ⟨g1, g2, g3⟩ := Graves.spec_weightFrom (d := t.probabilities.dtype) he0 hopen hdep
      (h := h) (t := rs.length)
    refine ⟨st.epsilon.trans e1, st.depression.trans e2, ?_⟩
    have hcell := st.cell b _ _ _ _ e5 e7 e6 (hh _ _ hlast)
    simp only [Spec.convS_exact] at hcell
    obtain ⟨f1, f2, f3⟩ := hcell
    have hlen : (rs ++ [x]).length = rs.length + 1 := by simp
    rw [f1, f2, f3, hlen]
    have q1 : t.epsilon = s.epsilon := e1
    have q2 : t.depression_constant = s.depression_constant := e2
    refine ⟨?_, ?_, ?_⟩
    · rw [Spec.step_prob, Finset.sum_range_succ]
      simp only [q1, q2]
      rw [g1, add_assoc]
    · unfold Spec.step
      simp only [q1]
      rw [Graves.stepsFrom_succ]
      by_cases hc : Graves.CrossedFrom p s.epsilon s.depression_constant h rs.length
      · rw [if_pos (g2.2 hc), if_pos hc]
      · rw [if_neg (fun x => hc (g2.1 x)), if_neg hc, Nat.cast_add, Nat.cast_one, ← add_assoc]
        rfl
    · unfold Spec.step
      simp only [q1, q2]
      rw [Graves.remainderFrom_succ]
      by_cases hc : Graves.CrossedFrom p s.epsilon s.depression_constant h rs.length
      · rw [if_pos hc, g2.2 hc]; simp
      · have hn := Bool.eq_false_iff.2 fun x => hc (g2.1 x)
        have hx := g3 hc
        rw [if_neg hc, hn]
        rw [Graves.sum_weightFrom_of_not hc] at hx ⊢
        by_cases hc' : Graves.CrossedFrom p s.epsilon s.depression_constant h (rs.length + 1)
        · rw [if_pos hc', hx.2 hc']; rfl
        · rw [if_neg hc', Bool.eq_false_iff.2 fun x => hc' (hx.1 x)]
          simp only [Bool.false_and]
          rw [Graves.remainderFrom, if_neg hc]
          rfl

/-- C99: the accumulators of such an element: what they held plus the updates with these weights.  Once the
element is halted the weights given sum to what was missing. -/
theorem C99_accumulators {s : ACTStates K} (hwf : s.WF)
    (he0 : 0 < s.epsilon) (hdep : 0 ≤ s.depression_constant)
    (rs : List (Round K)) {c' : Controller K} (hrun : run ⟨s⟩ (roundOps rs) = .ok c')
    {name : String} {k : Nat} {i : List Nat} {a0 p : K} (u h : Nat → K)
    (hp : s.probabilities.at? (i.take s.probabilities.shape.length) = some p)
    (hopen : p ≤ 1 - s.epsilon)
    (hacc : entry? s.accumulators name k i = some a0)
    (hu : ∀ (t : Nat) (x : Round K), rs[t]? = some x → entry? x.updates name k i = some (u t))
    (hh : ∀ (t : Nat) (x : Round K), rs[t]? = some x →
      x.halting.at? (i.take s.probabilities.shape.length) = some (h t)) :
    entry? c'.accumulators name k i = some (a0 + ∑ t ∈ Finset.range rs.length,
      Graves.weightFrom p s.epsilon s.depression_constant h t * u t) ∧
    (c'.haltedBatches.at? (i.take s.probabilities.shape.length) = some true →
      ∑ t ∈ Finset.range rs.length,
        Graves.weightFrom p s.epsilon s.depression_constant h t = 1 - p) := by
  have := rounds_induction hwf (Inv := fun rs t =>
      (∀ (j : Nat) (x : Round K), rs[j]? = some x → entry? x.updates name k i = some (u j)) →
      (∀ (j : Nat) (x : Round K), rs[j]? = some x →
        x.halting.at? (i.take s.probabilities.shape.length) = some (h j)) →
      t.epsilon = s.epsilon ∧ t.depression_constant = s.depression_constant ∧
      t.probabilities.shape = s.probabilities.shape ∧
      entry? t.accumulators name k i = some (a0 + ∑ t ∈ Finset.range rs.length,
        Graves.weightFrom p s.epsilon s.depression_constant h t * u t) ∧
      t.probabilities.at? (i.take s.probabilities.shape.length) =
        some (p + ∑ t ∈ Finset.range rs.length,
          Graves.weightFrom p s.epsilon s.depression_constant h t))
    ?_ ?_ rs hrun
  · obtain ⟨hw, this⟩ := this
    obtain ⟨h1, -, -, h4, h5⟩ := this hu hh
    refine ⟨h4, fun hhalt => Graves.sum_weightFrom_of_crossed hopen ?_⟩
    rw [← (Graves.spec_weightFrom (d := c'.state.probabilities.dtype) he0 hopen hdep
      (h := h) (t := rs.length)).2.1]
    have hb := halted_iff_of_prob hw h5
    rw [h1] at hb
    exact hb.1 hhalt
  · intro _ _
    refine ⟨rfl, rfl, rfl, ?_, ?_⟩
    · simpa using hacc
    · simpa using hp
  · intro rs x t U t' _ hw st hU ih hu hh
    have hlast : (rs ++ [x])[rs.length]? = some x := by simp
    have hpre : ∀ (j : Nat) r', rs[j]? = some r' → (rs ++ [x])[j]? = some r' := by
      intro j r' hj
      rw [List.getElem?_append_left (List.getElem?_eq_some_iff.1 hj).1]; exact hj
    obtain ⟨e1, e2, e3, e4, e5⟩ := ih (fun j r' hj => hu j r' (hpre j r' hj))
      (fun j r' hj => hh j r' (hpre j r' hj))
    obtain ⟨g1, g2, -⟩ := Graves.spec_weightFrom (d := t.probabilities.dtype) he0 hopen hdep
      (h := h) (t := rs.length)
    refine ⟨st.epsilon.trans e1, st.depression.trans e2, st.pshape.trans e3, ?_, ?_⟩
    · obtain ⟨u', p', x', dA, dU, f1, f2, f3, f4⟩ := st.entry hw (n := name) (k := k) (i := i) e4
      simp only at f1 f2 f3 f4
      rw [hU _ _ _ _ (hu _ _ hlast)] at f1
      cases f1
      rw [e3] at f2 f3
      rw [e5] at f2
      cases f2
      rw [hh _ _ hlast] at f3
      cases f3
      rw [f4, Spec.accStep_eq, Spec.convS_exact, e1, e2, g1, List.length_append,
        List.length_singleton, Finset.sum_range_succ]
      congr 1
      split
      · rename_i hhalt
        have hc := g2.1 hhalt
        have : Graves.weightFrom p s.epsilon s.depression_constant h rs.length = 0 := by
          unfold Graves.weightFrom
          rw [if_neg (by simpa using hc.mono (Nat.le_succ _)), if_neg (by simpa using hc)]
        rw [this]; ring
      · ring
    · obtain ⟨r', n', x', -, -, f1, f2, -, -⟩ :=
        st.cellAt hw (b := i.take s.probabilities.shape.length) e5
      rw [hh _ _ hlast] at f1
      cases f1
      rw [f2, Spec.step_prob]
      simp only [Spec.convS_exact]
      rw [e1, e2, g1, List.length_append, List.length_singleton, Finset.sum_range_succ, add_assoc]

/-- C99: an element that is halted already, with whatever probability `p` above `1 - epsilon`.  The next
round makes the probability one and no round changes anything else of it: the missing `1 - p` is given to no
update. -/
theorem C99_halted {s : ACTStates K} (hwf : s.WF)
    (he0 : 0 < s.epsilon) (hdep : 0 ≤ s.depression_constant)
    (rs : List (Round K)) {c' : Controller K} (hrun : run ⟨s⟩ (roundOps rs) = .ok c')
    {b : List Nat} {p r n : K} (h : Nat → K) (hp : s.probabilities.at? b = some p)
    (hr : s.residuals.at? b = some r) (hi : s.iterations.at? b = some n)
    (hover : 1 - s.epsilon < p)
    (hh : ∀ (t : Nat) (x : Round K), rs[t]? = some x → x.halting.at? b = some (h t)) :
    c'.probabilities.at? b = some (if rs = [] then p else 1) ∧
    c'.iterations.at? b = some n ∧ c'.residuals.at? b = some r ∧
    c'.haltedBatches.at? b = some true ∧
    ∀ (name : String) (k : Nat) (i : List Nat) (a : K),
      i.take s.probabilities.shape.length = b → entry? s.accumulators name k i = some a →
      entry? c'.accumulators name k i = some a := by
  have := rounds_induction hwf (Inv := fun rs t =>
      (∀ (j : Nat) (x : Round K), rs[j]? = some x → x.halting.at? b = some (h j)) →
      t.epsilon = s.epsilon ∧ t.depression_constant = s.depression_constant ∧
      t.probabilities.shape = s.probabilities.shape ∧
      t.probabilities.at? b = some (if rs = [] then p else 1) ∧
      t.iterations.at? b = some n ∧ t.residuals.at? b = some r ∧
      ∀ (name : String) (k : Nat) (i : List Nat) (a : K),
        i.take s.probabilities.shape.length = b → entry? s.accumulators name k i = some a →
        entry? t.accumulators name k i = some a)
    ?_ ?_ rs hrun
  · obtain ⟨hw, this⟩ := this
    obtain ⟨h1, -, -, h3, h4, h5, h6⟩ := this hh
    refine ⟨h3, h4, h5, ?_, h6⟩
    refine (halted_iff_of_prob hw h3).2 ?_
    rw [Spec.isHalted_iff, h1]
    split <;> linarith
  · intro _
    exact ⟨rfl, rfl, rfl, by simpa using hp, hi, hr, fun _ _ _ _ _ ha => ha⟩
  · intro rs x t U t' _ hw st hU ih hh
    have hlast : (rs ++ [x])[rs.length]? = some x := by simp
    have hpre : ∀ (j : Nat) r', rs[j]? = some r' → (rs ++ [x])[j]? = some r' := by
      intro j r' hj
      rw [List.getElem?_append_left (List.getElem?_eq_some_iff.1 hj).1]; exact hj
    obtain ⟨e1, e2, e3, e5, e6, e7, e8⟩ := ih (fun j r' hj => hh j r' (hpre j r' hj))
    have hhalt : Spec.isHalted t.probabilities.dtype s.epsilon (if rs = [] then p else 1) = true := by
      rw [Spec.isHalted_iff]
      split <;> linarith
    refine ⟨st.epsilon.trans e1, st.depression.trans e2, st.pshape.trans e3, ?_⟩
    have hcell := st.cell b _ _ _ _ e5 e7 e6 (hh _ _ hlast)
    simp only [Spec.convS_exact] at hcell
    obtain ⟨f1, f2, f3⟩ := hcell
    have q1 : t.epsilon = s.epsilon := e1
    have q2 : t.depression_constant = s.depression_constant := e2
    rw [f1, f2, f3]
    refine ⟨?_, ?_, ?_, ?_⟩
    · rw [Spec.step_prob]
      simp only [q1, q2]
      rw [Spec.weight_of_crosses (Spec.crosses_of_halted hdep hhalt)]
      have hne : rs ++ [x] ≠ [] := by simp
      rw [if_neg hne, add_sub_cancel]
    · unfold Spec.step
      simp only [q1, hhalt, if_true]
    · unfold Spec.step
      simp only [q1, hhalt]
      simp
    · intro name k i a hb ha
      obtain ⟨u', p', x', dA, dU, f1, f2, f3, f4⟩ :=
        st.entry hw (n := name) (k := k) (i := i) (e8 name k i a hb ha)
      simp only at f1 f2 f3 f4
      rw [e3, hb, e5] at f2
      cases f2
      rw [f4, Spec.accStep_eq, Spec.convS_exact, e1, if_pos hhalt]

omit [IsStrictOrderedRing K] in
/-- C99, for a fresh element these are the weights of C04. -/
theorem C99_fresh (eps dep : K) (h : Nat → K) (t : Nat) :
    Graves.weightFrom 0 eps dep h t = Graves.weight eps dep h t := by
  have hc (j : Nat) : Graves.CrossedFrom 0 eps dep h j ↔ Graves.Crossed eps dep h j := by
    simp [Graves.CrossedFrom, Graves.Crossed]
  unfold Graves.weightFrom Graves.weight
  simp only [hc, zero_add]

section Example
open Fixtures

/-- One round, then the editor raises epsilon to 1/2, then two more rounds; every update is 4. -/
def raisedEpsilon : Res (Controller ℚ) := do
  let c ← run ⟨simple⟩ (roundOps [sround [3/5, 1/5] 4 4])
  let e ← Editor.editController c
  let e' ← e.setEpsilon (1/2)
  run e'.build (roundOps [sround [3/5, 1/5] 4 4, sround [3/5, 1/5] 4 4])

/-- C99, a consequence: all calls are accepted, element 0 ends with probability one, and its output is not the
average of the updates, which are all 4, but 3/5 of it. -/
theorem C99_raised_epsilon_loses_mass :
    obs raisedEpsilon (fun c => some (c.probabilities.at? [0], c.haltedBatches.at? [0],
      entry? c.accumulators "out" 0 [0, 0])) = some (some 1, some true, some (3/5 * 4)) ∧
    (3/5 * 4 : ℚ) ≠ 4 ∧
    obs raisedEpsilon (fun c => some (c.iterations.at? [0], c.residuals.at? [0])) =
      some (some 1, some 0) := by
  refine ⟨by decide +kernel, by norm_num, by decide +kernel⟩

/-- A state in the middle: probabilities 2/5 and 19/20, residuals and counters of their own. -/
def midway : ACTStates ℚ :=
  { simple with
    probabilities := vec [2/5, 19/20]
    residuals := vec [1/7, 1/20]
    iterations := vec [3, 5]
    accumulators := [("out", bare (col 10 20))] }

theorem midway_wf : midway.WF where
  floating := rfl
  res_shape := rfl
  res_dtype := rfl
  it_shape := rfl
  it_dtype := by decide
  acc_keys := by unfold Dict.WF; decide
  def_keys := by unfold Dict.WF; decide
  upd_keys := by unfold Dict.WF; decide
  def_iff := by intro n; exact Iff.rfl
  upd_iff := by intro n; exact Iff.rfl
  batched := by
    intro n t h
    obtain ⟨-, rfl⟩ := get?_one h
    exact batched_bare _ _ rfl ⟨[1], rfl⟩
  same := by
    intro n t u h1 h2
    obtain ⟨-, rfl⟩ := get?_one h1
    obtain ⟨-, rfl⟩ := get?_one h2
    refine ⟨rfl, List.Forall₂.cons ⟨col 10 20, col 0 0, rfl, rfl, rfl, rfl⟩ List.Forall₂.nil⟩

/-- Element 0 continues: weights 1/3 and the missing 4/15; its residual is kept, then replaced. -/
example : Graves.weightFrom (2/5 : ℚ) (1/10) 1 (fun _ => 1/3) 0 = 1/3 ∧
    Graves.weightFrom (2/5 : ℚ) (1/10) 1 (fun _ => 1/3) 1 = 4/15 ∧
    Graves.weightFrom (2/5 : ℚ) (1/10) 1 (fun _ => 1/3) 2 = 0 ∧
    Graves.stepsFrom (2/5 : ℚ) (1/10) 1 (fun _ => 1/3) 3 = 2 ∧
    Graves.remainderFrom (2/5 : ℚ) (1/10) 1 (1/7) (fun _ => 1/3) 1 = 1/7 ∧
    Graves.remainderFrom (2/5 : ℚ) (1/10) 1 (1/7) (fun _ => 1/3) 3 = 4/15 := by decide +kernel

example : obs (run ⟨midway⟩ (roundOps [sround [1/3, 1/3] 3 9, sround [1/3, 1/3] 6 9]))
    (fun c => some (c.probabilities.at? [0], c.iterations.at? [0],
      entry? c.accumulators "out" 0 [0, 0])) =
    some (some 1, some 5, some (10 + (1/3 * 3 + 4/15 * 6))) := by decide +kernel

/-- Element 1 is halted: only its probability changes. -/
example : obs (run ⟨midway⟩ (roundOps [sround [1/3, 1/3] 3 9, sround [1/3, 1/3] 6 9]))
    (fun c => some (c.probabilities.at? [1], c.residuals.at? [1],
      entry? c.accumulators "out" 0 [1, 0])) =
    some (some 1, some (1/20), some 20) := by decide +kernel

/-- The hypotheses of both theorems, for `midway`. -/
example : midway.WF ∧ 0 < midway.epsilon ∧ 0 ≤ midway.depression_constant ∧
    midway.probabilities.at? [0] = some (2/5) ∧ (2/5 : ℚ) ≤ 1 - midway.epsilon ∧
    midway.probabilities.at? [1] = some (19/20) ∧ 1 - midway.epsilon < (19/20 : ℚ) :=
  ⟨midway_wf, by decide +kernel, by decide +kernel, by decide +kernel, by decide +kernel,
    by decide +kernel, by decide +kernel⟩

end Example

end JaxAct
