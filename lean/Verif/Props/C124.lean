import Verif.Props.C118
import Verif.Props.C123
import Verif.Props.C61
import Verif.Props.C99
import Verif.Props.Fixtures

/-!
# C124 Exactly which weightings of the updates can be learned

Every halted element has been given a mean of its updates with weights that satisfy four conditions, and any weights
that satisfy them are obtained from suitable halting probabilities.
-/

namespace JaxAct
open PyTree ACTStates
variable {K : Type} [Field K] [LinearOrder K] [IsStrictOrderedRing K]

namespace Graves

/-- Weights `w` of `n + 1` updates, for an element with cumulative probability `p`: not negative, no more than the
depression constant except for the last, which is at least epsilon and less than the depression constant plus epsilon,
and what is missing to one in total. -/
structure Admissible (p eps dep : K) (n : Nat) (w : Nat → K) : Prop where
  nonneg : ∀ t < n, 0 ≤ w t
  le_dep : ∀ t < n, w t ≤ dep
  eps_le_last : eps ≤ w n
  last_lt : w n < dep + eps
  total : ∑ t ∈ Finset.range (n + 1), w t = 1 - p

/-- The weights of an element that crosses in step `n` are admissible. -/
theorem admissible_of_crossing {p eps dep : K} (hd : 0 ≤ dep) (hp : p ≤ 1 - eps) {h : Nat → K} {n : Nat}
    (hn : ¬ CrossedFrom p eps dep h n) (hc : CrossedFrom p eps dep h (n + 1)) :
    Admissible p eps dep n (weightFrom p eps dep h) := by
  have hlast : weightFrom p eps dep h n = 1 - (p + cumDemand dep h n) := by
    unfold weightFrom
    rw [if_neg (not_not.2 hc), if_pos hn]
  have early : ∀ t < n, weightFrom p eps dep h t = dep * clip (h t) := by
    intro t ht
    unfold weightFrom
    rw [if_pos fun hx => hn (hx.mono ht)]
  have hle : p + cumDemand dep h n ≤ 1 - eps := by
    rw [crossedFrom_iff hd, not_lt] at hn; exact hn
  have hlt : 1 - eps < p + cumDemand dep h (n + 1) := (crossedFrom_iff hd).1 hc
  rw [cumDemand_succ] at hlt
  refine ⟨fun t ht => ?_, fun t ht => ?_, by rw [hlast]; linarith, ?_, sum_weightFrom_of_crossed hp hc⟩
  · rw [early t ht]; exact mul_nonneg hd (clip_nonneg _)
  · rw [early t ht]
    calc dep * clip (h t) ≤ dep * 1 := mul_le_mul_of_nonneg_left (clip_le_one _) hd
      _ = dep := mul_one _
  · have : dep * clip (h n) ≤ dep * 1 := mul_le_mul_of_nonneg_left (clip_le_one _) hd
    rw [hlast]; linarith

/-- The halting probabilities that lead to given weights. -/
def halting (dep : K) (n : Nat) (w : Nat → K) (t : Nat) : K := if t < n then w t / dep else 1

theorem halting_unit {p eps dep : K} {n : Nat} {w : Nat → K} (hw : Admissible p eps dep n w) (hd : 0 ≤ dep) (t : Nat) :
    0 ≤ halting dep n w t ∧ halting dep n w t ≤ 1 := by
  unfold halting
  split
  · next ht => exact ⟨div_nonneg (hw.nonneg t ht) hd, div_le_one_of_le₀ (hw.le_dep t ht) hd⟩
  · exact ⟨zero_le_one, le_rfl⟩

/-- Admissible weights are the weights of these halting probabilities, and the element crosses in step `n`. -/
theorem weightFrom_halting {p eps dep : K} {n : Nat} {w : Nat → K} (hw : Admissible p eps dep n w) (hd : 0 ≤ dep) :
    ¬ CrossedFrom p eps dep (halting dep n w) n ∧ CrossedFrom p eps dep (halting dep n w) (n + 1) ∧
    ∀ t ≤ n, weightFrom p eps dep (halting dep n w) t = w t := by
  have hd0 : 0 < dep := by linarith [hw.eps_le_last, hw.last_lt]
  have clip_id : ∀ {x : K}, 0 ≤ x → x ≤ 1 → clip x = x := by
    intro x h0 h1
    unfold clip
    rw [max_eq_right h0, min_eq_right h1]
  have early : ∀ t < n, dep * clip (halting dep n w t) = w t := by
    intro t ht
    rw [clip_id (halting_unit hw hd t).1 (halting_unit hw hd t).2]
    unfold halting
    rw [if_pos ht, mul_div_cancel₀ _ hd0.ne']
  have hcum : cumDemand dep (halting dep n w) n = ∑ t ∈ Finset.range n, w t :=
    Finset.sum_congr rfl fun t ht => early t (Finset.mem_range.1 ht)
  have htot := hw.total
  rw [Finset.sum_range_succ, ← hcum] at htot
  have hn : ¬ CrossedFrom p eps dep (halting dep n w) n := by
    rw [crossedFrom_iff hd, not_lt]; linarith [hw.eps_le_last]
  have hone : dep * clip (halting dep n w n) = dep := by
    unfold halting
    rw [if_neg (lt_irrefl n), clip_id zero_le_one le_rfl, mul_one]
  have hc : CrossedFrom p eps dep (halting dep n w) (n + 1) := by
    rw [crossedFrom_iff hd, cumDemand_succ, hone]; linarith [hw.last_lt]
  refine ⟨hn, hc, fun t ht => ?_⟩
  unfold weightFrom
  rcases ht.eq_or_lt with rfl | ht
  · rw [if_neg (not_not.2 hc), if_pos hn]; linarith
  · rw [if_pos fun hx => hn (hx.mono ht), early t ht]

omit [IsStrictOrderedRing K] in
/-- What there is after `m` rounds when the crossing is in step `n`. -/
theorem after_crossing {p eps dep r : K} {h : Nat → K} {n m : Nat} (hn : ¬ CrossedFrom p eps dep h n)
    (hc : CrossedFrom p eps dep h (n + 1)) (hm : n + 1 ≤ m) :
    stepsFrom p eps dep h m = n + 1 ∧ remainderFrom p eps dep r h m = weightFrom p eps dep h n ∧
    ∀ u : Nat → K, ∑ t ∈ Finset.range m, weightFrom p eps dep h t * u t =
      ∑ t ∈ Finset.range (n + 1), weightFrom p eps dep h t * u t := by
  have hs : stepsFrom p eps dep h m = n + 1 := by
    unfold stepsFrom
    rw [← Finset.card_range (n + 1)]
    congr 1
    ext j
    rw [Finset.mem_filter, Finset.mem_range, Finset.mem_range]
    constructor
    · rintro ⟨-, hj⟩
      by_contra hx
      exact hj (hc.mono (by omega))
    · intro hj
      exact ⟨by omega, fun hx => hn (hx.mono (by omega))⟩
  refine ⟨hs, ?_, fun u => ?_⟩
  · unfold remainderFrom
    rw [if_pos (hc.mono hm), hs, Nat.add_sub_cancel]
    unfold weightFrom
    rw [if_neg (not_not.2 hc), if_pos hn]
  · refine (Finset.sum_subset (fun t ht => Finset.mem_range.2 ((Finset.mem_range.1 ht).trans_le hm)) ?_).symm
    intro t _ ht
    rw [Finset.mem_range] at ht
    unfold weightFrom
    rw [if_neg (not_not.2 (hc.mono (by omega))), if_neg (not_not.2 (hc.mono (by omega))), zero_mul]

end Graves

section AnyArith
variable {α : Type} [Arith α]

/-- What `execute_act` returns is what some number of rounds gives. -/
theorem executed_rounds (make : PyTree (Leaf α) → α → Res (Made α)) (rounds : PyTree (Leaf α) → Round α)
    (next : PyTree (Leaf α) → PyTree (Leaf α)) (s0 : PyTree (Leaf α)) (dep : α) (max : Int) (check : Bool)
    {c0 : Controller α} (hmake : make s0 dep = .ok (.ctrl c0)) (hwf : c0.state.WF) (hd : c0.state.DictsWF)
    (hops : ∀ t, ∀ nu ∈ (rounds (loopStates next s0 t)).updates, nu.2.WF) {c : Controller α} {s : PyTree (Leaf α)}
    (hr : (callLayer make (fun s => (rounds s).ops) next).ExecuteAct s0 dep max check (.ok (c, s))) :
    ∃ (k : Nat) (d : Controller α), k ≤ max.toNat ∧
      run c0 (roundOps ((List.range k).map fun j => rounds (loopStates next s0 j))) = .ok d ∧
      c.probabilities = d.probabilities ∧ c.residuals = d.residuals ∧ c.iterations = d.iterations ∧
      c.haltedBatches = d.haltedBatches ∧
      ∀ name l i, entry? c.accumulators name l i = entry? d.accumulators name l i := by
  have hops' : ∀ t, ∀ op ∈ (rounds (loopStates next s0 t)).ops, op.DictsWF := by
    intro t op ho
    unfold Round.ops at ho
    rcases List.mem_append.1 ho with ho | ho
    · obtain ⟨nu, hm, rfl⟩ := List.mem_map.1 ho
      exact hops t nu hm
    · rw [List.mem_singleton.1 ho]; trivial
  obtain ⟨k, a1, -, -, wd, ⟨d, a3, a4⟩, -, -⟩ := C61_loop_is_history make (fun s => (rounds s).ops) next
    s0 dep max check hmake hwf hd hops' hr
  have hrs : loopCalls (fun s => (rounds s).ops) next s0 k =
      roundOps ((List.range k).map fun j => rounds (loopStates next s0 j)) := by
    simp only [loopCalls, roundOps, List.flatMap_map]
  have opsWF : ∀ op ∈ loopCalls (fun s => (rounds s).ops) next s0 k, op.DictsWF := by
    intro op ho
    obtain ⟨j, -, hj⟩ := List.mem_flatMap.1 ho
    exact hops' j op hj
  have wd' := run_dictsWF (s := c0.state) hwf hd opsWF a3
  rw [hrs] at a3
  refine ⟨k, d, a1, a3, a4.probabilities, a4.residuals, a4.iterations, ?_,
    entry?_same wd.accumulators wd'.accumulators a4.accumulators⟩
  unfold Controller.haltedBatches Controller.haltThreshold
  rw [show c.probabilities = d.probabilities from a4.probabilities, a4.epsilon]

end AnyArith

section Code
attribute [local instance] Arith.exact

/-- C124, nothing else is possible: an element that was not halted and is halted after some rounds has taken some number
`n + 1` of iterations, its residual is the last of weights that are admissible, and every accumulator entry has received
the updates of these iterations with these weights. -/
theorem C124_only_admissible {s : ACTStates K} (hwf : s.WF) (he0 : 0 < s.epsilon) (hdep : 0 ≤ s.depression_constant)
    {rs : List (Round K)} {c : Controller K} (hrun : run ⟨s⟩ (roundOps rs) = .ok c) {b : List Nat} {p n0 : K}
    (hp : s.probabilities.at? b = some p) (hopen : p ≤ 1 - s.epsilon) (hn0 : s.iterations.at? b = some n0)
    (hh : ∀ r ∈ rs, ∃ x, r.halting.at? b = some x) (hhalt : c.haltedBatches.at? b = some true) :
    ∃ (n : Nat) (w : Nat → K), n < rs.length ∧ Graves.Admissible p s.epsilon s.depression_constant n w ∧
      c.iterations.at? b = some (n0 + (n + 1)) ∧ c.residuals.at? b = some (w n) ∧
      ∀ (name : String) (k : Nat) (i : List Nat) (a : K) (u : Nat → K), i.take s.probabilities.shape.length = b →
        entry? s.accumulators name k i = some a →
        (∀ t r, rs[t]? = some r → entry? r.updates name k i = some (u t)) →
        entry? c.accumulators name k i = some (a + ∑ t ∈ Finset.range (n + 1), w t * u t) := by
  let h : Nat → K := fun t => ((rs[t]?).bind fun r => r.halting.at? b).getD 0
  have hh' : ∀ (t : Nat) (x : Round K), rs[t]? = some x → x.halting.at? b = some (h t) := by
    intro t x hx
    obtain ⟨y, hy⟩ := hh x (List.mem_of_getElem? hx)
    simp only [h, hx, Option.bind_some, hy, Option.getD_some]
  obtain ⟨r0, hr0⟩ := Controller.at?_some_of_shape (b := s.residuals) hwf.res_shape hp
  obtain ⟨-, g2, g3, g4⟩ := C99_continue hwf he0 hdep rs hrun h hp hr0 hn0 hopen hh'
  have hc := g4.1 hhalt
  have hex : ∃ m, Graves.CrossedFrom p s.epsilon s.depression_constant h m := ⟨_, hc⟩
  obtain ⟨n, hfind⟩ : ∃ n, Nat.find hex = n + 1 := by
    refine Nat.exists_eq_succ_of_ne_zero fun h0 => ?_
    have hx := Nat.find_spec hex
    rw [h0, Graves.crossedFrom_iff hdep] at hx
    simp only [Graves.cumDemand, Finset.range_zero, Finset.sum_empty, add_zero] at hx
    exact absurd hx (not_lt.2 hopen)
  have hn : ¬ Graves.CrossedFrom p s.epsilon s.depression_constant h n := Nat.find_min hex (by omega)
  have hn1 : Graves.CrossedFrom p s.epsilon s.depression_constant h (n + 1) := hfind ▸ Nat.find_spec hex
  have hlen : n + 1 ≤ rs.length := hfind ▸ Nat.find_min' hex hc
  obtain ⟨e1, e2, e3⟩ := Graves.after_crossing (r := r0) hn hn1 hlen
  refine ⟨n, _, hlen, Graves.admissible_of_crossing hdep hopen hn hn1, ?_, by rw [g3, e2], ?_⟩
  · rw [g2, e1]; push_cast; rfl
  · rintro name k i a u rfl ha hu
    rw [(C99_accumulators hwf he0 hdep rs hrun u h hp hopen ha hu hh').1, e3 u]

/-- C124, everything admissible is possible: for admissible weights there are halting probabilities, from 0 to 1, such
that any `n + 1` rounds with them leave the element halted, with these weights of whatever updates there are. -/
theorem C124_every_admissible {s : ACTStates K} (hwf : s.WF) (he0 : 0 < s.epsilon) (hdep : 0 ≤ s.depression_constant)
    {b : List Nat} {p n0 : K} (hp : s.probabilities.at? b = some p) (hopen : p ≤ 1 - s.epsilon)
    (hn0 : s.iterations.at? b = some n0) {n : Nat} {w : Nat → K}
    (hw : Graves.Admissible p s.epsilon s.depression_constant n w) :
    ∃ h : Nat → K, (∀ t, 0 ≤ h t ∧ h t ≤ 1) ∧ ∀ (rs : List (Round K)) (c : Controller K), rs.length = n + 1 →
      run ⟨s⟩ (roundOps rs) = .ok c → (∀ t r, rs[t]? = some r → r.halting.at? b = some (h t)) →
      c.haltedBatches.at? b = some true ∧ c.iterations.at? b = some (n0 + (n + 1)) ∧
      c.residuals.at? b = some (w n) ∧
      ∀ (name : String) (k : Nat) (i : List Nat) (a : K) (u : Nat → K), i.take s.probabilities.shape.length = b →
        entry? s.accumulators name k i = some a →
        (∀ t r, rs[t]? = some r → entry? r.updates name k i = some (u t)) →
        entry? c.accumulators name k i = some (a + ∑ t ∈ Finset.range (n + 1), w t * u t) := by
  obtain ⟨hn, hn1, hwt⟩ := Graves.weightFrom_halting hw hdep
  refine ⟨Graves.halting s.depression_constant n w, Graves.halting_unit hw hdep, ?_⟩
  intro rs c hlen hrun hh
  obtain ⟨r0, hr0⟩ := Controller.at?_some_of_shape (b := s.residuals) hwf.res_shape hp
  obtain ⟨-, g2, g3, g4⟩ := C99_continue hwf he0 hdep rs hrun _ hp hr0 hn0 hopen hh
  obtain ⟨e1, e2, -⟩ := Graves.after_crossing (r := r0) hn hn1 le_rfl
  rw [hlen] at g2 g3 g4
  refine ⟨g4.2 hn1, ?_, by rw [g3, e2, hwt n le_rfl], ?_⟩
  · rw [g2, e1]; push_cast; rfl
  · rintro name k i a u rfl ha hu
    rw [(C99_accumulators hwf he0 hdep rs hrun u _ hp hopen ha hu hh).1, hlen]
    congr 2
    refine Finset.sum_congr rfl fun t ht => ?_
    rw [hwt t (Nat.le_of_lt_succ (Finset.mem_range.1 ht))]

/-- C124 for `execute_act`: what it returns for an element that was not halted at the start and is at the end is a mean
of the updates with admissible weights. -/
theorem C124_execute_act (make : PyTree (Leaf K) → K → Res (Made K)) (rounds : PyTree (Leaf K) → Round K)
    (next : PyTree (Leaf K) → PyTree (Leaf K)) (s0 : PyTree (Leaf K)) (dep : K) (max : Int) (check : Bool)
    {c0 : Controller K} (hmake : make s0 dep = .ok (.ctrl c0)) (hwf : c0.state.WF) (hd : c0.state.DictsWF)
    (hops : ∀ t, ∀ nu ∈ (rounds (loopStates next s0 t)).updates, nu.2.WF)
    (he0 : 0 < c0.state.epsilon) (hdep : 0 ≤ c0.state.depression_constant)
    {c : Controller K} {s : PyTree (Leaf K)}
    (hr : (callLayer make (fun s => (rounds s).ops) next).ExecuteAct s0 dep max check (.ok (c, s)))
    {b : List Nat} {p n0 : K} (hp : c0.probabilities.at? b = some p) (hopen : p ≤ 1 - c0.state.epsilon)
    (hn0 : c0.iterations.at? b = some n0)
    (hh : ∀ t, ∃ x, (rounds (loopStates next s0 t)).halting.at? b = some x)
    (hhalt : c.haltedBatches.at? b = some true) :
    ∃ (n : Nat) (w : Nat → K), n < max.toNat ∧
      Graves.Admissible p c0.state.epsilon c0.state.depression_constant n w ∧
      c.iterations.at? b = some (n0 + (n + 1)) ∧ c.residuals.at? b = some (w n) ∧
      ∀ (name : String) (l : Nat) (i : List Nat) (a : K) (u : Nat → K), i.take c0.probabilities.shape.length = b →
        entry? c0.accumulators name l i = some a →
        (∀ t : Nat, entry? (rounds (loopStates next s0 t)).updates name l i = some (u t)) →
        entry? c.accumulators name l i = some (a + ∑ t ∈ Finset.range (n + 1), w t * u t) := by
  obtain ⟨k, d, hk, hrun, -, e2, e3, e4, e5⟩ := executed_rounds make rounds next s0 dep max check hmake hwf hd hops hr
  rw [e4] at hhalt
  obtain ⟨n, w, h1, h2, h3, h4, h5⟩ := C124_only_admissible (s := c0.state) hwf he0 hdep hrun hp hopen hn0
    (fun r hr => by obtain ⟨t, -, rfl⟩ := List.mem_map.1 hr; exact hh t) hhalt
  rw [List.length_map, List.length_range] at h1
  refine ⟨n, w, h1.trans_le hk, h2, by rw [e3]; exact h3, by rw [e2]; exact h4, ?_⟩
  intro name l i a u hi ha hu
  rw [e5]
  refine h5 name l i a u hi ha fun t q hq => ?_
  rw [List.getElem?_map, Option.map_eq_some_iff] at hq
  obtain ⟨j, hj, rfl⟩ := hq
  obtain ⟨hlt, rfl⟩ := List.getElem?_eq_some_iff.1 hj
  rw [List.getElem_range]
  exact hu t

section Example
open Fixtures

/-- Weights 1/10, 1/2, 2/5 for three updates. -/
def someWeights (t : Nat) : ℚ := [1/10, 1/2, 2/5].getD t 0

theorem someWeights_admissible : Graves.Admissible 0 simple.epsilon simple.depression_constant 2 someWeights where
  nonneg := by decide +kernel
  le_dep := by decide +kernel
  eps_le_last := by decide +kernel
  last_lt := by decide +kernel
  total := by decide +kernel

/-- The theorem gives halting probabilities for these weights.  Here is a run with halting probabilities 1/10, 1/2, 1;
whatever the theorem gives, the result is that of the weights, and the converse applies to it. -/
theorem C124_example : (∃ h : Nat → ℚ, (∀ t, 0 ≤ h t ∧ h t ≤ 1) ∧ ∀ (rs : List (Round ℚ)) (c : Controller ℚ),
      rs.length = 3 → run ⟨simple⟩ (roundOps rs) = .ok c →
      (∀ t r, rs[t]? = some r → r.halting.at? [0] = some (h t)) → c.residuals.at? [0] = some (2/5)) ∧
    ∃ c n w, run ⟨simple⟩ (roundOps [sround [1/10, 1/2] 4 6, sround [1/2, 1/5] 14 8, sround [1, 1] 2 3]) = .ok c ∧
      Graves.Admissible 0 (1/10) 1 n w ∧ c.iterations.at? [0] = some ((n : ℚ) + 1) ∧
      c.residuals.at? [0] = some (w n) ∧ w n = 2/5 ∧ n = 2 := by
  refine ⟨?_, ?_⟩
  · obtain ⟨h, h1, h2⟩ := C124_every_admissible simple_wf (by decide +kernel) (by decide +kernel) (b := [0]) (p := 0)
      (n0 := 0) (by decide +kernel) (by decide +kernel) (by decide +kernel) someWeights_admissible
    exact ⟨h, h1, fun rs c hl hr hh => (h2 rs c hl hr hh).2.2.1⟩
  · have o : obs (run ⟨simple⟩ (roundOps [sround [1/10, 1/2] 4 6, sround [1/2, 1/5] 14 8, sround [1, 1] 2 3]))
        (fun c => some (c.haltedBatches.at? [0], c.iterations.at? [0], c.residuals.at? [0])) =
        some (some true, some 3, some (2/5)) := by decide +kernel
    cases hc : run ⟨simple⟩ (roundOps [sround [1/10, 1/2] 4 6, sround [1/2, 1/5] 14 8, sround [1, 1] 2 3]) with
    | error e => rw [hc] at o; cases o
    | ok c =>
      rw [hc] at o
      have o := Option.some.inj o
      simp only [Prod.mk.injEq] at o
      obtain ⟨o1, o2, o3⟩ := o
      have hh : ∀ r ∈ [sround [1/10, 1/2] 4 6, sround [1/2, 1/5] 14 8, sround [1, 1] 2 3],
          ∃ x, r.halting.at? [0] = some x := by
        intro r hr
        simp only [List.mem_cons, List.not_mem_nil, or_false] at hr
        rcases hr with rfl | rfl | rfl
        · exact ⟨1/10, by decide +kernel⟩
        · exact ⟨1/2, by decide +kernel⟩
        · exact ⟨1, by decide +kernel⟩
      obtain ⟨n, w, -, h2, h3, h4, -⟩ := C124_only_admissible simple_wf (by decide +kernel) (by decide +kernel) hc
        (b := [0]) (p := 0) (n0 := 0) (by decide +kernel) (by decide +kernel) (by decide +kernel) hh o1
      rw [zero_add] at h3
      refine ⟨c, n, w, rfl, h2, h3, h4, Option.some.inj (h4.symm.trans o3), ?_⟩
      have h5 := Option.some.inj (h3.symm.trans o2)
      exact_mod_cast (by linarith : (n : ℚ) = 2)

/-- The climbing layer: element 1 is halted after four iterations with residual 1/4. -/
theorem C124_example_execute_act : ∃ c s n w, climbLayer.ExecuteAct (bare (col 1 1)) 1 9 true (.ok (c, s)) ∧
    Graves.Admissible 0 (1/10) 1 n w ∧ n = 3 ∧ w n = 1/4 ∧
    entry? c.accumulators "out" 0 [1, 0] = some (0 + ∑ t ∈ Finset.range (n + 1), w t * (1 + (t : ℚ) / 4)) := by
  have h1 : (whileFuel isActNotComplete
      (fun x => (climbLayer.adapter true x).map Carry.rebuild) 12
      (Carry.rebuild ⟨⟨simple⟩, bare (col 1 1), ⟨0, 9⟩⟩)).map
        (fun z => (z.controller.haltedBatches.at? [1], z.controller.iterations.at? [1],
          z.controller.residuals.at? [1])) = some (some true, some 4, some (1/4)) := by decide +kernel
  obtain ⟨z, hz, hobs⟩ := Option.map_eq_some_iff.1 h1
  simp only [Prod.mk.injEq] at hobs
  obtain ⟨o1, o2, o3⟩ := hobs
  have r := execute_of_fuel climb_executes rfl hz
  obtain ⟨n, w, -, f2, f3, f4, f5⟩ := C124_execute_act _ climbRound grow (bare (col 1 1)) 1 9 true
    (c0 := ⟨simple⟩) rfl simple_wf simple_dictsWF climb_updates (by decide +kernel) (by decide +kernel) r
    (b := [1]) (p := 0) (n0 := 0) (by decide +kernel) (by decide +kernel) (by decide +kernel)
    (fun t => ⟨_, (climb_halting t).2⟩) o1
  have f6 := f5 "out" 0 [1, 0] 0 (fun t => 1 + (t : ℚ) / 4) rfl (by decide +kernel)
    (fun t => by obtain ⟨u, h1, -, h2⟩ := climb_states t; rw [h1]; exact h2)
  have f7 := Option.some.inj (f3.symm.trans o2)
  rw [zero_add] at f7
  exact ⟨_, _, n, w, r, f2, by exact_mod_cast (by linarith : (n : ℚ) = 3), Option.some.inj (f4.symm.trans o3), f6⟩

end Example

end Code
end JaxAct
