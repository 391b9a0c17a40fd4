import Verif.Props.C04
import Mathlib.Algebra.Order.BigOperators.Group.Finset
import Mathlib.Algebra.BigOperators.Ring.Finset
import Mathlib.Tactic.Linarith
import Mathlib.Tactic.Ring

/-! # C59 Accumulators are linear and monotone in the updates -/

namespace JaxAct
open ACTStates
variable {K : Type} [Field K] [LinearOrder K] [IsStrictOrderedRing K]
attribute [local instance] Arith.exact

/-- Round by round, the same halting probability for the batch element of index `i`. -/
def SameHalting (batch i : List Nat) (rs rs' : List (Round K)) : Prop :=
  rs.length = rs'.length ∧ ∀ (t : Nat) (r r' : Round K), rs[t]? = some r → rs'[t]? = some r' →
    r.halting.at? (i.take batch.length) = r'.halting.at? (i.take batch.length)

/-- Round `t` caches the entry `u t` at index `i` of leaf `k` under `name`. -/
def Feeds (rs : List (Round K)) (name : String) (k : Nat) (i : List Nat) (u : Nat → K) : Prop :=
  ∀ (t : Nat) (r : Round K), rs[t]? = some r → entry? r.updates name k i = some (u t)

omit [IsStrictOrderedRing K] in
/-- The halting probabilities the rounds supply to a batch element, as a function. -/
theorem exists_halting {s : ACTStates K} (hwf : s.WF) {rs : List (Round K)} {c : Controller K}
    (hrun : run ⟨s⟩ (roundOps rs) = .ok c) {b : List Nat} {p : K}
    (hb : s.probabilities.at? b = some p) :
    ∃ h : Nat → K, ∀ (t : Nat) (r : Round K), rs[t]? = some r → r.halting.at? b = some (h t) := by
  have key : ∀ (t : Nat) (r : Round K), rs[t]? = some r → ∃ x, r.halting.at? b = some x := by
    have := rounds_induction hwf (Inv := fun rs t =>
      t.probabilities.shape = s.probabilities.shape ∧
      ∀ (j : Nat) (r : Round K), rs[j]? = some r → ∃ x, r.halting.at? b = some x) ?_ ?_ rs hrun
    · exact this.2.2
    · exact ⟨rfl, by simp⟩
    · intro rs r t U t' _ hw st _ ih
      refine ⟨st.pshape.trans ih.1, fun j r' hj => ?_⟩
      rcases lt_or_ge j rs.length with hlt | hge
      · rw [List.getElem?_append_left hlt] at hj
        exact ih.2 j r' hj
      · rw [List.getElem?_append_right hge] at hj
        have : r' = r := by
          rcases hjj : j - rs.length with _ | m
          · rw [hjj] at hj; simpa using hj.symm
          · rw [hjj] at hj; simp at hj
        subst this
        exact Controller.at?_some_of_shape (b := r'.halting) (st.hshape.trans ih.1) hb
  refine ⟨fun t => ((rs[t]?).bind fun r => r.halting.at? b).getD 0, fun t r hr => ?_⟩
  obtain ⟨x, hx⟩ := key t r hr
  simp [hr, hx]

/-- C59.  Three runs of the same fresh controller with the same halting probabilities for a batch
element: if the update entries of the third are `x * u + y * v`, what it adds to the accumulator entry
is `x` times what the first adds plus `y` times what the second adds. -/
theorem C59_linear {s : ACTStates K} (hwf : s.WF)
    (he0 : 0 < s.epsilon) (he1 : s.epsilon ≤ 1) (hdep : 0 ≤ s.depression_constant)
    {rs1 rs2 rs3 : List (Round K)} {c1 c2 c3 : Controller K}
    (h1 : run ⟨s⟩ (roundOps rs1) = .ok c1) (h2 : run ⟨s⟩ (roundOps rs2) = .ok c2)
    (h3 : run ⟨s⟩ (roundOps rs3) = .ok c3) {name : String} {k : Nat} {i : List Nat} {a0 : K}
    (hfresh : s.probabilities.at? (i.take s.probabilities.shape.length) = some 0)
    (hacc : entry? s.accumulators name k i = some a0)
    (h12 : SameHalting s.probabilities.shape i rs1 rs2)
    (h13 : SameHalting s.probabilities.shape i rs1 rs3) {u v : Nat → K} {x y : K}
    (hu : Feeds rs1 name k i u) (hv : Feeds rs2 name k i v)
    (hw : Feeds rs3 name k i fun t => x * u t + y * v t) :
    ∃ a1 a2 a3, entry? c1.accumulators name k i = some (a0 + a1) ∧
      entry? c2.accumulators name k i = some (a0 + a2) ∧
      entry? c3.accumulators name k i = some (a0 + a3) ∧ a3 = x * a1 + y * a2 := by
  obtain ⟨h, hh⟩ := exists_halting hwf h1 hfresh
  have tr : ∀ {rs : List (Round K)}, SameHalting s.probabilities.shape i rs1 rs →
      ∀ (t : Nat) (r : Round K), rs[t]? = some r →
        r.halting.at? (i.take s.probabilities.shape.length) = some (h t) := by
    intro rs hs t r hr
    have ht : t < rs1.length := by rw [hs.1]; exact (List.getElem?_eq_some_iff.1 hr).1
    rw [← hs.2 t _ r (List.getElem?_eq_getElem ht) hr]
    exact hh t _ (List.getElem?_eq_getElem ht)
  refine ⟨_, _, _, (C04_graves_weights hwf he0 he1 hdep rs1 h1 u h hfresh hacc hu hh).1,
    (C04_graves_weights hwf he0 he1 hdep rs2 h2 v h hfresh hacc hv (tr h12)).1,
    (C04_graves_weights hwf he0 he1 hdep rs3 h3 _ h hfresh hacc hw (tr h13)).1, ?_⟩
  rw [← h12.1, ← h13.1, Finset.mul_sum, Finset.mul_sum, ← Finset.sum_add_distrib]
  exact Finset.sum_congr rfl fun t _ => by ring

/-- The weights are not negative. -/
theorem graves_weight_nonneg {eps dep : K} (he0 : 0 < eps) (hdep : 0 ≤ dep)
    (h : Nat → K) (t : Nat) : 0 ≤ Graves.weight eps dep h t := by
  unfold Graves.weight
  split
  · refine mul_nonneg hdep ?_
    unfold Graves.clip
    exact le_min zero_le_one (le_max_left _ _)
  · split
    · rename_i hc
      have : ¬ 1 - eps < Graves.cumDemand dep h t := fun hlt => hc ⟨t, le_rfl, hlt⟩
      linarith
    · exact le_rfl

/-- C59: larger updates never make an accumulator entry smaller. -/
theorem C59_monotone {s : ACTStates K} (hwf : s.WF)
    (he0 : 0 < s.epsilon) (he1 : s.epsilon ≤ 1) (hdep : 0 ≤ s.depression_constant)
    {rs1 rs2 : List (Round K)} {c1 c2 : Controller K}
    (h1 : run ⟨s⟩ (roundOps rs1) = .ok c1) (h2 : run ⟨s⟩ (roundOps rs2) = .ok c2)
    {name : String} {k : Nat} {i : List Nat} {a0 : K}
    (hfresh : s.probabilities.at? (i.take s.probabilities.shape.length) = some 0)
    (hacc : entry? s.accumulators name k i = some a0)
    (h12 : SameHalting s.probabilities.shape i rs1 rs2) {u v : Nat → K}
    (hu : Feeds rs1 name k i u) (hv : Feeds rs2 name k i v) (huv : ∀ t, u t ≤ v t) :
    ∃ a1 a2, entry? c1.accumulators name k i = some a1 ∧
      entry? c2.accumulators name k i = some a2 ∧ a1 ≤ a2 := by
  obtain ⟨h, hh⟩ := exists_halting hwf h1 hfresh
  refine ⟨_, _, (C04_graves_weights hwf he0 he1 hdep rs1 h1 u h hfresh hacc hu hh).1,
    (C04_graves_weights hwf he0 he1 hdep rs2 h2 v h hfresh hacc hv ?_).1, ?_⟩
  · intro t r hr
    have ht : t < rs1.length := by rw [h12.1]; exact (List.getElem?_eq_some_iff.1 hr).1
    rw [← h12.2 t _ r (List.getElem?_eq_getElem ht) hr]
    exact hh t _ (List.getElem?_eq_getElem ht)
  · rw [← h12.1]
    have := Finset.sum_le_sum (s := Finset.range rs1.length) fun t _ =>
      mul_le_mul_of_nonneg_left (huv t) (graves_weight_nonneg he0 hdep h t)
    linarith

section Example
open Fixtures

/-- Updates 4, 8 and 6, 3 and three times the first plus twice the second (24, 30); element 0 gets the
weights 1/2 and 1/4. -/
example :
    obs (run ⟨simple⟩ (roundOps [sround [1/2, 1] 4 0, sround [1/4, 1] 8 0]))
      (fun c => entry? c.accumulators "out" 0 [0, 0]) = some 4 ∧
    obs (run ⟨simple⟩ (roundOps [sround [1/2, 1/3] 6 9, sround [1/4, 1] 3 9]))
      (fun c => entry? c.accumulators "out" 0 [0, 0]) = some (15/4) ∧
    obs (run ⟨simple⟩ (roundOps [sround [1/2, 0] 24 7, sround [1/4, 1] 30 7]))
      (fun c => entry? c.accumulators "out" 0 [0, 0]) = some (3 * 4 + 2 * (15/4)) := by
  decide +kernel

/-- The hypotheses `SameHalting` and `Feeds` for the first two of these runs. -/
example : SameHalting simple.probabilities.shape [0, 0]
      [sround [1/2, 1] 4 0, sround [1/4, 1] 8 0] [sround [1/2, 1/3] 6 9, sround [1/4, 1] 3 9] ∧
    Feeds [sround [1/2, 1] 4 0, sround [1/4, 1] 8 0] "out" 0 [0, 0]
      (fun t => if t = 0 then 4 else 8) := by
  refine ⟨⟨rfl, fun t r r' hr hr' => ?_⟩, fun t r hr => ?_⟩
  · rcases t with _ | _ | t
    · cases hr; cases hr'; decide +kernel
    · cases hr; cases hr'; decide +kernel
    · cases hr
  · rcases t with _ | _ | t
    · cases hr; decide +kernel
    · cases hr; decide +kernel
    · cases hr

end Example
end JaxAct
