import Verif.Props.C124

/-!
# C126 The weights tell everything about halting

An accumulator that is given 1 in one round and 0 in all others shows the weight of that round.  Two elements with the
same weights cannot be told apart by anything the controller records.
-/

namespace JaxAct
open ACTStates
variable {K : Type} [Field K] [LinearOrder K] [IsStrictOrderedRing K]

namespace Graves

/-- Weights determine when the crossing is. -/
theorem crossed_of_weights {p eps eps' dep dep' : K} {h h' : Nat → K} (he' : 0 < eps') (hd' : 0 ≤ dep')
    (hp : p ≤ 1 - eps) {t : Nat}
    (hw : ∀ j < t, weightFrom p eps dep h j = weightFrom p eps' dep' h' j) (hc : CrossedFrom p eps dep h t) :
    CrossedFrom p eps' dep' h' t := by
  by_contra hn
  have h1 := sum_weightFrom_of_crossed hp hc
  rw [Finset.sum_congr rfl fun j hj => hw j (Finset.mem_range.1 hj), sum_weightFrom_of_not hn] at h1
  rw [crossedFrom_iff hd', not_lt] at hn
  linarith

/-- Two elements with the same weights in the first `n` rounds cross at the same time, take the same steps, have the
same remainder, and the same demands before the last step. -/
theorem determined {p eps eps' dep dep' r r' : K} {h h' : Nat → K} (he : 0 < eps) (he' : 0 < eps') (hd : 0 ≤ dep)
    (hd' : 0 ≤ dep') (hp : p ≤ 1 - eps) (hp' : p ≤ 1 - eps') {n : Nat}
    (hw : ∀ j < n, weightFrom p eps dep h j = weightFrom p eps' dep' h' j) :
    (∀ t ≤ n, CrossedFrom p eps dep h t ↔ CrossedFrom p eps' dep' h' t) ∧
    stepsFrom p eps dep h n = stepsFrom p eps' dep' h' n ∧
    (CrossedFrom p eps dep h n → remainderFrom p eps dep r h n = remainderFrom p eps' dep' r' h' n) ∧
    ∀ t < n, ¬ CrossedFrom p eps dep h (t + 1) → dep * clip (h t) = dep' * clip (h' t) := by
  have hc : ∀ t ≤ n, (CrossedFrom p eps dep h t ↔ CrossedFrom p eps' dep' h' t) := fun t ht =>
    ⟨crossed_of_weights he' hd' hp fun j hj => hw j (by omega),
      crossed_of_weights he hd hp' fun j hj => (hw j (by omega)).symm⟩
  have hs : stepsFrom p eps dep h n = stepsFrom p eps' dep' h' n := by
    unfold stepsFrom
    congr 1
    refine Finset.filter_congr fun j hj => ?_
    rw [hc j (Finset.mem_range.1 hj).le]
  refine ⟨hc, hs, fun hx => ?_, fun t ht hn => ?_⟩
  · have hex : ∃ m, CrossedFrom p eps dep h m := ⟨_, hx⟩
    obtain ⟨m, hfind⟩ : ∃ m, Nat.find hex = m + 1 := by
      refine Nat.exists_eq_succ_of_ne_zero fun h0 => ?_
      have hx := Nat.find_spec hex
      rw [h0, crossedFrom_iff hd] at hx
      simp only [cumDemand, Finset.range_zero, Finset.sum_empty, add_zero] at hx
      exact absurd hx (not_lt.2 hp)
    have hm : ¬ CrossedFrom p eps dep h m := Nat.find_min hex (by omega)
    have hm1 : CrossedFrom p eps dep h (m + 1) := hfind ▸ Nat.find_spec hex
    have hle : m + 1 ≤ n := hfind ▸ Nat.find_min' hex hx
    rw [(after_crossing (r := r) hm hm1 hle).2.1, (after_crossing (r := r') (mt (hc m (by omega)).2 hm)
      ((hc _ hle).1 hm1) hle).2.1, hw m (by omega)]
  · have h1 := hw t ht
    unfold weightFrom at h1
    rwa [if_pos hn, if_pos (mt (hc _ ht).2 hn)] at h1

end Graves

section Code
attribute [local instance] Arith.exact

/-- In the run of the rounds `rs` from `s` to `c` some accumulator entry of element `b` is given 1 in round `j` and 0 in
all others, and has received `v` in the end. -/
def Probe (s : ACTStates K) (rs : List (Round K)) (c : Controller K) (b : List Nat) (j : Nat) (v : K) : Prop :=
  ∃ (name : String) (k : Nat) (i : List Nat) (a : K), i.take s.probabilities.shape.length = b ∧
    entry? s.accumulators name k i = some a ∧
    (∀ t r, rs[t]? = some r → entry? r.updates name k i = some (if t = j then 1 else 0)) ∧
    entry? c.accumulators name k i = some (a + v)

/-- What a probe shows. -/
theorem probe_weight {s : ACTStates K} (hwf : s.WF) (he0 : 0 < s.epsilon) (hdep : 0 ≤ s.depression_constant)
    {rs : List (Round K)} {c : Controller K} (hrun : run ⟨s⟩ (roundOps rs) = .ok c) {b : List Nat} {p : K}
    (h : Nat → K) (hp : s.probabilities.at? b = some p) (hopen : p ≤ 1 - s.epsilon)
    (hh : ∀ t r, rs[t]? = some r → r.halting.at? b = some (h t)) {j : Nat} (hj : j < rs.length) {v : K}
    (hv : Probe s rs c b j v) : Graves.weightFrom p s.epsilon s.depression_constant h j = v := by
  obtain ⟨name, k, i, a, rfl, ha, hu, hc⟩ := hv
  have g := (C99_accumulators hwf he0 hdep rs hrun (fun t => if t = j then 1 else 0) h hp hopen ha hu hh).1
  have := add_left_cancel (Option.some.inj (g.symm.trans hc))
  simpa [hj] using this

/-- C126.  Two elements with the same cumulative probability and counter, neither of them halted, are run for the same
number of rounds; the depression constants, epsilons and halting probabilities may differ.  If probes show the same for
every round, then the two end with the same cumulative probability, halting decision and counter, with the same residual
if they are halted, and the depressed clipped halting probabilities of all rounds before the halting one are the same. -/
theorem C126_determined {s t : ACTStates K} (hs : s.WF) (ht : t.WF) (he : 0 < s.epsilon) (he' : 0 < t.epsilon)
    (hd : 0 ≤ s.depression_constant) (hd' : 0 ≤ t.depression_constant) {b b' : List Nat} {p n0 : K}
    (hb : s.probabilities.at? b = some p) (hb' : t.probabilities.at? b' = some p)
    (hopen : p ≤ 1 - s.epsilon) (hopen' : p ≤ 1 - t.epsilon)
    (hn : s.iterations.at? b = some n0) (hn' : t.iterations.at? b' = some n0)
    {rs rs' : List (Round K)} (hlen : rs.length = rs'.length) {h h' : Nat → K}
    (hh : ∀ j r, rs[j]? = some r → r.halting.at? b = some (h j))
    (hh' : ∀ j r, rs'[j]? = some r → r.halting.at? b' = some (h' j))
    {c d : Controller K} (h1 : run ⟨s⟩ (roundOps rs) = .ok c) (h2 : run ⟨t⟩ (roundOps rs') = .ok d)
    (hprobe : ∀ j < rs.length, ∃ v, Probe s rs c b j v ∧ Probe t rs' d b' j v) :
    c.probabilities.at? b = d.probabilities.at? b' ∧ c.iterations.at? b = d.iterations.at? b' ∧
    (c.haltedBatches.at? b = some true ↔ d.haltedBatches.at? b' = some true) ∧
    (c.haltedBatches.at? b = some true → c.residuals.at? b = d.residuals.at? b') ∧
    ∀ (j : Nat) (cj : Controller K), j < rs.length → run ⟨s⟩ (roundOps (rs.take (j + 1))) = .ok cj →
      cj.haltedBatches.at? b = some false →
      s.depression_constant * Graves.clip (h j) = t.depression_constant * Graves.clip (h' j) := by
  obtain ⟨r, hr⟩ := Controller.at?_some_of_shape (b := s.residuals) hs.res_shape hb
  obtain ⟨r', hr'⟩ := Controller.at?_some_of_shape (b := t.residuals) ht.res_shape hb'
  obtain ⟨g1, g2, g3, g4⟩ := C99_continue hs he hd rs h1 h hb hr hn hopen hh
  obtain ⟨k1, k2, k3, k4⟩ := C99_continue ht he' hd' rs' h2 h' hb' hr' hn' hopen' hh'
  rw [← hlen] at k1 k2 k3 k4
  have hw : ∀ j < rs.length, Graves.weightFrom p s.epsilon s.depression_constant h j =
      Graves.weightFrom p t.epsilon t.depression_constant h' j := by
    intro j hj
    obtain ⟨v, v1, v2⟩ := hprobe j hj
    rw [probe_weight hs he hd h1 h hb hopen hh hj v1, probe_weight ht he' hd' h2 h' hb' hopen' hh' (hlen ▸ hj) v2]
  obtain ⟨x1, x2, x3, x4⟩ := Graves.determined (r := r) (r' := r') he he' hd hd' hopen hopen' hw
  refine ⟨?_, by rw [g2, k2, x2], by rw [g4, k4]; exact x1 _ le_rfl, fun hx => by rw [g3, k3, x3 (g4.1 hx)], ?_⟩
  · rw [g1, k1, Finset.sum_congr rfl fun j hj => hw j (Finset.mem_range.1 hj)]
  · intro j cj hj hrunj hhalt
    refine x4 j hj fun hx => ?_
    have q := (C99_continue hs he hd (rs.take (j + 1)) hrunj h hb hr hn hopen fun t x htx => by
      rw [List.getElem?_take] at htx
      split at htx
      · exact hh t x htx
      · cases htx).2.2.2
    rw [List.length_take, Nat.min_eq_left hj] at q
    rw [q.2 hx] at hhalt
    cases hhalt

section Example
open Fixtures

/-- Two runs of two rounds, with halting probabilities 1/2, 2/3 and 1/2, 3/4 for element 0.  The probes, one for each
round, show 1/2 in both runs; so the theorem says that the residuals and counters are the same.  The halting
probabilities of the halting round are not, and cannot be seen. -/
theorem C126_example : ∃ c d, run ⟨fresh⟩ (roundOps [round [1/2, 1/3] 1 0, round [2/3, 1/3] 0 1]) = .ok c ∧
    run ⟨fresh⟩ (roundOps [round [1/2, 1/5] 1 0, round [3/4, 1/5] 0 1]) = .ok d ∧
    c.haltedBatches.at? [0] = some true ∧ d.haltedBatches.at? [0] = some true ∧
    c.residuals.at? [0] = some (1/2) ∧ c.residuals.at? [0] = d.residuals.at? [0] ∧
    c.iterations.at? [0] = d.iterations.at? [0] ∧ c.probabilities.at? [0] = d.probabilities.at? [0] := by
  have o1 : obs (run ⟨fresh⟩ (roundOps [round [1/2, 1/3] 1 0, round [2/3, 1/3] 0 1])) (fun c => some
      (c.haltedBatches.at? [0], c.residuals.at? [0], entry? c.accumulators "out" 0 [0, 0],
        entry? c.accumulators "tree" 1 [0, 0])) =
      some (some true, some (1/2), some (0 + 1/2), some (1 + 1/2)) := by decide +kernel
  have o2 : obs (run ⟨fresh⟩ (roundOps [round [1/2, 1/5] 1 0, round [3/4, 1/5] 0 1])) (fun c => some
      (entry? c.accumulators "out" 0 [0, 0], entry? c.accumulators "tree" 1 [0, 0])) =
      some (some (0 + 1/2), some (1 + 1/2)) := by decide +kernel
  cases hc : run ⟨fresh⟩ (roundOps [round [1/2, 1/3] 1 0, round [2/3, 1/3] 0 1]) with
  | error e => rw [hc] at o1; cases o1
  | ok c =>
    cases hd : run ⟨fresh⟩ (roundOps [round [1/2, 1/5] 1 0, round [3/4, 1/5] 0 1]) with
    | error e => rw [hd] at o2; cases o2
    | ok d =>
      rw [hc] at o1
      rw [hd] at o2
      have o1 := Option.some.inj o1
      have o2 := Option.some.inj o2
      simp only [Prod.mk.injEq] at o1 o2
      have pick : ∀ {β : Type} {f : Round ℚ → Option β} {v : Nat → β} {r r' : Round ℚ}, f r = some (v 0) →
          f r' = some (v 1) → ∀ j q, [r, r'][j]? = some q → f q = some (v j) := by
        intro β f v r r' h0 h1 j q hq
        match j with
        | 0 => cases hq; exact h0
        | 1 => cases hq; exact h1
        | j + 2 => simp at hq
      obtain ⟨h1, h2, h3, h4, -⟩ := C126_determined fresh_wf fresh_wf (by decide +kernel) (by decide +kernel)
        (by decide +kernel) (by decide +kernel) (b := [0]) (b' := [0]) (p := 0) (n0 := 0) (by decide +kernel)
        (by decide +kernel) (by decide +kernel) (by decide +kernel) (by decide +kernel) (by decide +kernel)
        (rs := [round [1/2, 1/3] 1 0, round [2/3, 1/3] 0 1]) (rs' := [round [1/2, 1/5] 1 0, round [3/4, 1/5] 0 1])
        rfl (h := fun j => if j = 0 then 1/2 else 2/3) (h' := fun j => if j = 0 then 1/2 else 3/4)
        (pick (f := fun r => r.halting.at? [0]) (by decide +kernel) (by decide +kernel))
        (pick (f := fun r => r.halting.at? [0]) (by decide +kernel) (by decide +kernel)) hc hd (by
          intro j hj
          match j with
          | 0 =>
            refine ⟨1/2, ⟨"out", 0, [0, 0], 0, rfl, by decide +kernel, ?_, o1.2.2.1⟩,
              ⟨"out", 0, [0, 0], 0, rfl, by decide +kernel, ?_, o2.1⟩⟩ <;>
            exact pick (f := fun r => entry? r.updates "out" 0 [0, 0]) (v := fun t => if t = 0 then 1 else 0)
              (by decide +kernel) (by decide +kernel)
          | 1 =>
            refine ⟨1/2, ⟨"tree", 1, [0, 0], 1, rfl, by decide +kernel, ?_, o1.2.2.2⟩,
              ⟨"tree", 1, [0, 0], 1, rfl, by decide +kernel, ?_, o2.2⟩⟩ <;>
            exact pick (f := fun r => entry? r.updates "tree" 1 [0, 0]) (v := fun t => if t = 1 then 1 else 0)
              (by decide +kernel) (by decide +kernel)
          | j + 2 => simp at hj)
      exact ⟨c, d, rfl, rfl, o1.1, h3.1 o1.1, o1.2.1, h4 o1.1, h2, h1⟩

end Example

end Code
end JaxAct
