import Verif.Lemmas.Rounds
import Verif.Lemmas.Graves
import Verif.Props.Fixtures

/-! # C04 iterate_act realises Graves' ACT weights -/

namespace JaxAct
open ACTStates
variable {K : Type} [Field K] [LinearOrder K] [IsStrictOrderedRing K]
attribute [local instance] Arith.exact

/-- C04.  Let an element start with cumulative probability 0.  After any number of rounds, in which
step `t` supplied update entry `u t` and halting probability `h t`, the accumulator entry is its
initial value plus the weighted sum of the updates with Graves' weights, and the cumulative
probability is the sum of the weights. -/
theorem C04_graves_weights {s : ACTStates K} (hwf : s.WF)
    (he0 : 0 < s.epsilon) (he1 : s.epsilon ≤ 1) (hdep : 0 ≤ s.depression_constant)
    (rs : List (Round K)) {c' : Controller K} (hrun : run ⟨s⟩ (roundOps rs) = .ok c')
    {name : String} {k : Nat} {i : List Nat} {a0 : K} (u h : Nat → K)
    (hfresh : s.probabilities.at? (i.take s.probabilities.shape.length) = some 0)
    (hacc : entry? s.accumulators name k i = some a0)
    (hu : ∀ t r, rs[t]? = some r → entry? r.updates name k i = some (u t))
    (hh : ∀ t r, rs[t]? = some r →
      r.halting.at? (i.take s.probabilities.shape.length) = some (h t)) :
    entry? c'.accumulators name k i = some (a0 + ∑ t ∈ Finset.range rs.length,
      Graves.weight s.epsilon s.depression_constant h t * u t) ∧
    c'.probabilities.at? (i.take s.probabilities.shape.length) =
      some (∑ t ∈ Finset.range rs.length, Graves.weight s.epsilon s.depression_constant h t) := by
  have := rounds_induction hwf (Inv := fun rs t =>
      (∀ j r, rs[j]? = some r → entry? r.updates name k i = some (u j)) →
      (∀ j r, rs[j]? = some r →
        r.halting.at? (i.take s.probabilities.shape.length) = some (h j)) →
      t.epsilon = s.epsilon ∧ t.depression_constant = s.depression_constant ∧
      t.probabilities.shape = s.probabilities.shape ∧
      entry? t.accumulators name k i = some (a0 + ∑ t ∈ Finset.range rs.length,
        Graves.weight s.epsilon s.depression_constant h t * u t) ∧
      t.probabilities.at? (i.take s.probabilities.shape.length) =
        some (∑ t ∈ Finset.range rs.length, Graves.weight s.epsilon s.depression_constant h t))
    ?_ ?_ rs hrun
  · obtain ⟨-, -, -, h1, h2⟩ := this.2 hu hh
    exact ⟨h1, h2⟩
  · intro _ _
    refine ⟨rfl, rfl, rfl, ?_, ?_⟩
    · simpa using hacc
    · simpa using hfresh
  · intro rs r t U t' _ hw st hU ih hu hh
    have hlast : (rs ++ [r])[rs.length]? = some r := by simp
    have hpre : ∀ (j : Nat) r', rs[j]? = some r' → (rs ++ [r])[j]? = some r' := by
      intro j r' hj
      rw [List.getElem?_append_left (List.getElem?_eq_some_iff.1 hj).1]; exact hj
    obtain ⟨e1, e2, e3, e4, e5⟩ := ih (fun j r' hj => hu j r' (hpre j r' hj))
      (fun j r' hj => hh j r' (hpre j r' hj))
    obtain ⟨g1, g2⟩ := Graves.spec_weight (d := t.probabilities.dtype) he0 (by linarith) hdep
      (h := h) (t := rs.length)
    refine ⟨st.epsilon.trans e1, st.depression.trans e2, st.pshape.trans e3, ?_, ?_⟩
    · obtain ⟨u', p, x, dA, dU, f1, f2, f3, f4⟩ := st.entry hw (n := name) (k := k) (i := i) e4
      simp only at f1 f2 f3 f4
      rw [hU _ _ _ _ (hu _ _ hlast)] at f1
      cases f1
      rw [e3] at f2 f3
      rw [e5] at f2
      cases f2
      rw [hh _ _ hlast] at f3
      cases f3
      rw [f4, Spec.accStep_eq, Spec.convS_exact, e1, e2, g1, List.length_append,
        List.length_singleton, Finset.sum_range_succ]
      congr 1
      split
      · rename_i hhalt
        have hc := g2.1 hhalt
        have : Graves.weight s.epsilon s.depression_constant h rs.length = 0 := by
          unfold Graves.weight
          rw [if_neg (by simpa using hc.mono (Nat.le_succ _)), if_neg (by simpa using hc)]
        rw [this]; ring
      · ring
    · obtain ⟨r', n', x, -, -, f1, f2, -, -⟩ := st.cellAt hw (b := i.take s.probabilities.shape.length) e5
      rw [hh _ _ hlast] at f1
      cases f1
      rw [f2, Spec.step_prob]
      simp only [Spec.convS_exact]
      rw [e1, e2, g1, List.length_append, List.length_singleton, Finset.sum_range_succ]

/-- C04 for the cumulative probability alone (no accumulator needed), and when the element is halted:
exactly when the running sum of the depressed, clipped halting probabilities has exceeded
`1 - epsilon`. -/
theorem C04_probability_and_halting {s : ACTStates K} (hwf : s.WF)
    (he0 : 0 < s.epsilon) (he1 : s.epsilon ≤ 1) (hdep : 0 ≤ s.depression_constant)
    (rs : List (Round K)) {c' : Controller K} (hrun : run ⟨s⟩ (roundOps rs) = .ok c')
    {b : List Nat} (h : Nat → K) (hfresh : s.probabilities.at? b = some 0)
    (hh : ∀ t r, rs[t]? = some r → r.halting.at? b = some (h t)) :
    c'.probabilities.at? b =
      some (∑ t ∈ Finset.range rs.length, Graves.weight s.epsilon s.depression_constant h t) ∧
    (c'.haltedBatches.at? b = some true ↔
      Graves.Crossed s.epsilon s.depression_constant h rs.length) := by
  have := rounds_induction hwf (Inv := fun rs t =>
      (∀ j r, rs[j]? = some r → r.halting.at? b = some (h j)) →
      t.epsilon = s.epsilon ∧ t.depression_constant = s.depression_constant ∧
      t.probabilities.at? b =
        some (∑ t ∈ Finset.range rs.length, Graves.weight s.epsilon s.depression_constant h t))
    ?_ ?_ rs hrun
  · obtain ⟨hw, this⟩ := this
    obtain ⟨h1, h2, h3⟩ := this hh
    refine ⟨h3, ?_⟩
    rw [← (Graves.spec_weight (d := c'.state.probabilities.dtype) he0 (by linarith) hdep
      (h := h) (t := rs.length)).2, halted_iff hw.floating, h1]
    constructor
    · rintro ⟨p, hp, hh⟩
      rw [h3] at hp
      cases hp
      exact hh
    · intro hh
      exact ⟨_, h3, hh⟩
  · intro _
    exact ⟨rfl, rfl, by simpa using hfresh⟩
  · intro rs r t U t' _ hw st hU ih hh
    have hlast : (rs ++ [r])[rs.length]? = some r := by simp
    have hpre : ∀ (j : Nat) r', rs[j]? = some r' → (rs ++ [r])[j]? = some r' := by
      intro j r' hj
      rw [List.getElem?_append_left (List.getElem?_eq_some_iff.1 hj).1]; exact hj
    obtain ⟨e1, e2, e5⟩ := ih (fun j r' hj => hh j r' (hpre j r' hj))
    obtain ⟨g1, g2⟩ := Graves.spec_weight (d := t.probabilities.dtype) he0 (by linarith) hdep
      (h := h) (t := rs.length)
    refine ⟨st.epsilon.trans e1, st.depression.trans e2, ?_⟩
    obtain ⟨r', n', x, -, -, f1, f2, -, -⟩ := st.cellAt hw (b := b) e5
    rw [hh _ _ hlast] at f1
    cases f1
    rw [f2, Spec.step_prob]
    simp only [Spec.convS_exact]
    rw [e1, e2, g1, List.length_append, List.length_singleton, Finset.sum_range_succ]

section Example
open Fixtures

/-- Two rounds on the fresh controller; for element 1 (halting probabilities 2/3, 2/3, epsilon
1/10) the weights are 2/3 and the remainder 1/3. -/
example : obs (run ⟨fresh⟩ (roundOps [round [1/2, 2/3] 4 6, round [1/4, 2/3] 8 3]))
    (fun c => some (entry? c.accumulators "tree" 1 [1, 0], c.probabilities.at? [1])) =
    some (some (1 + (2/3 * 4 + 1/3 * 8)), some 1) := by
  decide +kernel

example : Graves.weight (1/10 : ℚ) 1 (fun _ => 2/3) 0 = 2/3 ∧
    Graves.weight (1/10 : ℚ) 1 (fun _ => 2/3) 1 = 1/3 ∧
    Graves.weight (1/10 : ℚ) 1 (fun _ => 2/3) 2 = 0 := by decide +kernel

/-- The inputs the theorem talks about, for that run. -/
example : ∀ t r, [round [1/2, 2/3] 4 6, round [1/4, 2/3] 8 3][t]? = some r →
    entry? r.updates "tree" 1 [1, 0] = some ((fun t => if t = 0 then 4 else 8) t) ∧
    r.halting.at? [1] = some (2/3) := by
  intro t r h
  match t, h with
  | 0, h => cases h; decide +kernel
  | 1, h => cases h; decide +kernel

end Example

end JaxAct
