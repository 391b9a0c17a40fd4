import Verif.Basic.Round
import Verif.Props.C99
import Verif.Props.C118
import Verif.Props.Fixtures

/-!
# C122 The order of the rounds before the halting one is irrelevant

As long as an element runs it is given the sum of its weighted updates; only the round that halts it is special.
-/

namespace JaxAct
open ACTStates Fixtures
section exact
variable {K : Type} [Field K] [LinearOrder K] [IsStrictOrderedRing K]
attribute [local instance] Arith.exact

omit [LinearOrder K] [IsStrictOrderedRing K] in
/-- A sum over the positions of a list. -/
theorem sum_positions {β : Type} (l : List β) (f : Option β → K) :
    ∑ t ∈ Finset.range l.length, f l[t]? = (l.map fun x => f (some x)).sum := by
  induction l with
  | nil => rfl
  | cons x l ih =>
    rw [List.length_cons, Finset.sum_range_succ', List.map_cons, List.sum_cons, ← ih, add_comm]
    rfl

/-- C122.  An element that is not halted is run by the same rounds in two orders.  If it is not halted at the end of
the one, it is not at the end of the other, and the two controllers hold the same for it: cumulative probability,
residual, counter and every accumulator entry that all rounds have an update for. -/
theorem C122_before_halting {s : ACTStates K} (hwf : s.WF) (he0 : 0 < s.epsilon)
    (hdep : 0 ≤ s.depression_constant) {rs rs' : List (Round K)} (hperm : rs.Perm rs') {c c' : Controller K}
    (hrun : run ⟨s⟩ (roundOps rs) = .ok c) (hrun' : run ⟨s⟩ (roundOps rs') = .ok c') {b : List Nat}
    (hb : (Controller.haltedBatches ⟨s⟩).at? b = some false)
    (hh : ∀ r ∈ rs, ∃ x, r.halting.at? b = some x) (hopen : c.haltedBatches.at? b = some false) :
    c'.haltedBatches.at? b = some false ∧ c'.probabilities.at? b = c.probabilities.at? b ∧
    c'.residuals.at? b = c.residuals.at? b ∧ c'.iterations.at? b = c.iterations.at? b ∧
    ∀ (name : String) (k : Nat) (i : List Nat), i.take s.probabilities.shape.length = b →
      (∃ a, entry? s.accumulators name k i = some a) →
      (∀ r ∈ rs, ∃ x, entry? r.updates name k i = some x) →
      ∃ v, entry? c.accumulators name k i = some v ∧ entry? c'.accumulators name k i = some v := by
  obtain ⟨p, hp, hph⟩ := (halted_iff hwf.floating).1 hb
  have hpo : p ≤ 1 - s.epsilon := by simpa using Spec.isHalted_false_iff.1 hph
  obtain ⟨r0, hr0⟩ := Controller.at?_some_of_shape (b := s.residuals) hwf.res_shape hp
  obtain ⟨n0, hn0⟩ := Controller.at?_some_of_shape (b := s.iterations) hwf.it_shape hp
  let hv : Option (Round K) → K := fun o => (o.bind fun r => r.halting.at? b).getD 0
  let H : List (Round K) → Nat → K := fun l t => hv l[t]?
  have hH : ∀ l : List (Round K), (∀ r ∈ l, ∃ x, r.halting.at? b = some x) → ∀ (t : Nat) (x : Round K),
      l[t]? = some x → x.halting.at? b = some (H l t) := by
    intro l hl t x hx
    obtain ⟨y, hy⟩ := hl x (List.mem_of_getElem? hx)
    simp only [H, hv, hx, Option.bind_some, hy, Option.getD_some]
  have hh' : ∀ r ∈ rs', ∃ x, r.halting.at? b = some x := fun r hr => hh r (hperm.mem_iff.2 hr)
  have cum : ∀ l : List (Round K), Graves.cumDemand s.depression_constant (H l) l.length =
      (l.map fun x => s.depression_constant * Graves.clip (hv (some x))).sum := fun l =>
    sum_positions l fun o => s.depression_constant * Graves.clip (hv o)
  have same : Graves.cumDemand s.depression_constant (H rs') rs'.length =
      Graves.cumDemand s.depression_constant (H rs) rs.length := by
    rw [cum, cum]
    exact (hperm.map _).sum_eq.symm
  obtain ⟨g1, g2, g3, g4⟩ := C99_continue hwf he0 hdep rs hrun (H rs) hp hr0 hn0 hpo (hH rs hh)
  obtain ⟨k1, k2, k3, k4⟩ := C99_continue hwf he0 hdep rs' hrun' (H rs') hp hr0 hn0 hpo (hH rs' hh')
  have hn : ¬ Graves.CrossedFrom p s.epsilon s.depression_constant (H rs) rs.length := fun hx => by
    rw [g4.2 hx] at hopen; cases hopen
  have hn' : ¬ Graves.CrossedFrom p s.epsilon s.depression_constant (H rs') rs'.length := by
    rw [Graves.crossedFrom_iff hdep, same, ← Graves.crossedFrom_iff hdep]; exact hn
  have wc' : c'.state.WF := run_wf hwf hrun'
  refine ⟨?_, ?_, ?_, ?_, ?_⟩
  · cases hx : c'.haltedBatches.at? b with
    | none =>
      obtain ⟨q, hq⟩ : ∃ q, c'.state.probabilities.at? b = some q := ⟨_, k1⟩
      have := (halted_iff (s := c'.state) wc'.floating).2 ⟨q, hq, rfl⟩
      rw [show (Controller.haltedBatches ⟨c'.state⟩).at? b = c'.haltedBatches.at? b from rfl, hx] at this
      cases this
    | some y =>
      cases y with
      | true => exact absurd (k4.1 hx) hn'
      | false => rfl
  · rw [g1, k1, Graves.sum_weightFrom_of_not hn, Graves.sum_weightFrom_of_not hn', same]
  · rw [g3, k3]
    unfold Graves.remainderFrom
    rw [if_neg hn, if_neg hn']
  · rw [g2, k2, Graves.stepsFrom_of_not hn, Graves.stepsFrom_of_not hn', hperm.length_eq]
  · rintro name k i rfl ⟨a, ha⟩ hu
    let uv : Option (Round K) → K := fun o => (o.bind fun r => entry? r.updates name k i).getD 0
    have hU : ∀ l : List (Round K), (∀ r ∈ l, ∃ x, entry? r.updates name k i = some x) → ∀ (t : Nat) (x : Round K),
        l[t]? = some x → entry? x.updates name k i = some (uv l[t]?) := by
      intro l hl t x hx
      obtain ⟨y, hy⟩ := hl x (List.mem_of_getElem? hx)
      simp only [uv, hx, Option.bind_some, hy, Option.getD_some]
    have sums : ∀ l : List (Round K),
        ¬ Graves.CrossedFrom p s.epsilon s.depression_constant (H l) l.length →
        ∑ t ∈ Finset.range l.length, Graves.weightFrom p s.epsilon s.depression_constant (H l) t * uv l[t]? =
        (l.map fun x => s.depression_constant * Graves.clip (hv (some x)) * uv (some x)).sum := by
      intro l hl
      rw [← sum_positions l fun o => s.depression_constant * Graves.clip (hv o) * uv o]
      refine Finset.sum_congr rfl fun t ht => ?_
      have ht := Finset.mem_range.1 ht
      unfold Graves.weightFrom
      rw [if_pos fun hc => hl (hc.mono (by omega))]
    have e1 := (C99_accumulators hwf he0 hdep rs hrun (fun t => uv rs[t]?) (H rs) hp hpo ha (hU rs hu)
      (hH rs hh)).1
    have e2 := (C99_accumulators hwf he0 hdep rs' hrun' (fun t => uv rs'[t]?) (H rs') hp hpo ha
      (hU rs' fun r hr => hu r (hperm.mem_iff.2 hr)) (hH rs' hh')).1
    refine ⟨_, e1, ?_⟩
    rw [e2, sums rs hn, sums rs' hn', (hperm.map _).sum_eq]

/-- C122, and what comes afterwards is the same: the rounds `rs`, after which the element still runs, may be put in
another order, whatever rounds `post` follow and whether they halt the element or not. -/
theorem C122_then {s : ACTStates K} (hwf : s.WF) (he0 : 0 < s.epsilon)
    (hdep : 0 ≤ s.depression_constant) {rs rs' post : List (Round K)} (hperm : rs.Perm rs')
    {c d d' : Controller K} (hrun : run ⟨s⟩ (roundOps rs) = .ok c)
    (hd : run ⟨s⟩ (roundOps (rs ++ post)) = .ok d) (hd' : run ⟨s⟩ (roundOps (rs' ++ post)) = .ok d') {b : List Nat}
    (hb : (Controller.haltedBatches ⟨s⟩).at? b = some false)
    (hh : ∀ r ∈ rs ++ post, ∃ x, r.halting.at? b = some x) (hopen : c.haltedBatches.at? b = some false) :
    (d'.haltedBatches.at? b = some true ↔ d.haltedBatches.at? b = some true) ∧
    d'.probabilities.at? b = d.probabilities.at? b ∧
    d'.residuals.at? b = d.residuals.at? b ∧ d'.iterations.at? b = d.iterations.at? b ∧
    ∀ (name : String) (k : Nat) (i : List Nat), i.take s.probabilities.shape.length = b →
      (∃ a, entry? s.accumulators name k i = some a) →
      (∀ r ∈ rs ++ post, ∃ x, entry? r.updates name k i = some x) →
      entry? d'.accumulators name k i = entry? d.accumulators name k i := by
  have split : ∀ l : List (Round K), roundOps (l ++ post) = roundOps l ++ roundOps post := fun l => by
    simp [roundOps]
  rw [split, run_append, hrun] at hd
  rw [split, run_append, bind_ok] at hd'
  obtain ⟨c', hrun', hd'⟩ := hd'
  have hd : run c (roundOps post) = .ok d := hd
  obtain ⟨-, m1, m2, m3, m4⟩ := C122_before_halting hwf he0 hdep hperm hrun hrun' hb
    (fun r hr => hh r (List.mem_append_left _ hr)) hopen
  have wc : c.state.WF := run_wf hwf hrun
  have wc' : c'.state.WF := run_wf hwf hrun'
  obtain ⟨e1, e2⟩ := run_keeps_constants hwf hrun
  obtain ⟨e1', e2'⟩ := run_keeps_constants hwf hrun'
  have sh : c.state.probabilities.shape = s.probabilities.shape := (C14_types_invariant hwf _ hrun).2.2.1
  have sh' : c'.state.probabilities.shape = s.probabilities.shape := (C14_types_invariant hwf _ hrun').2.2.1
  obtain ⟨p, hp, hph⟩ := (halted_iff (s := c.state) wc.floating).1 hopen
  have hpo : p ≤ 1 - s.epsilon := by
    rw [← e1]; simpa using Spec.isHalted_false_iff.1 hph
  obtain ⟨r0, hr0⟩ := Controller.at?_some_of_shape (b := c.state.residuals) wc.res_shape hp
  obtain ⟨n0, hn0⟩ := Controller.at?_some_of_shape (b := c.state.iterations) wc.it_shape hp
  let H : Nat → K := fun t => ((post[t]?).bind fun r => r.halting.at? b).getD 0
  have hH : ∀ (t : Nat) (x : Round K), post[t]? = some x → x.halting.at? b = some (H t) := by
    intro t x hx
    obtain ⟨y, hy⟩ := hh x (List.mem_append_right _ (List.mem_of_getElem? hx))
    simp only [H, hx, Option.bind_some, hy, Option.getD_some]
  have hp' : c'.state.probabilities.at? b = some p := m1.trans hp
  have hr0' : c'.state.residuals.at? b = some r0 := m2.trans hr0
  have hn0' : c'.state.iterations.at? b = some n0 := m3.trans hn0
  have g := C99_continue (s := c.state) wc (by rw [e1]; exact he0) (by rw [e2]; exact hdep) post hd H hp hr0 hn0
    (by rw [e1]; exact hpo) hH
  have g' := C99_continue (s := c'.state) wc' (by rw [e1']; exact he0) (by rw [e2']; exact hdep) post hd' H hp' hr0'
    hn0' (by rw [e1']; exact hpo) hH
  rw [e1, e2] at g
  rw [e1', e2'] at g'
  refine ⟨g'.2.2.2.trans g.2.2.2.symm, g'.1.trans g.1.symm, g'.2.2.1.trans g.2.2.1.symm, g'.2.1.trans g.2.1.symm, ?_⟩
  rintro name k i rfl ⟨a, ha⟩ hu
  obtain ⟨a1, ha1, ha1'⟩ := m4 name k i rfl ⟨a, ha⟩ fun r hr => hu r (List.mem_append_left _ hr)
  let U : Nat → K := fun t => ((post[t]?).bind fun r => entry? r.updates name k i).getD 0
  have hU : ∀ (t : Nat) (x : Round K), post[t]? = some x → entry? x.updates name k i = some (U t) := by
    intro t x hx
    obtain ⟨y, hy⟩ := hu x (List.mem_append_right _ (List.mem_of_getElem? hx))
    simp only [U, hx, Option.bind_some, hy, Option.getD_some]
  have f := (C99_accumulators (s := c.state) wc (by rw [e1]; exact he0) (by rw [e2]; exact hdep) post hd U H
    (by rw [sh]; exact hp) (by rw [e1]; exact hpo) ha1 hU (by rw [sh]; exact hH)).1
  have f' := (C99_accumulators (s := c'.state) wc' (by rw [e1']; exact he0) (by rw [e2']; exact hdep) post hd' U H
    (by rw [sh']; exact hp') (by rw [e1']; exact hpo) ha1' hU (by rw [sh']; exact hH)).1
  rw [e1, e2] at f
  rw [e1', e2'] at f'
  exact f'.trans f.symm

/-- Two rounds before the halting one in both orders: the two theorems apply and the element receives the same. -/
theorem C122_example : ∃ c d d',
    run ⟨simple⟩ (roundOps [sround [1/10, 1/2] 4 6, sround [1/2, 1/5] 14 8]) = .ok c ∧
    run ⟨simple⟩ (roundOps [sround [1/10, 1/2] 4 6, sround [1/2, 1/5] 14 8, sround [1, 1] 2 3]) = .ok d ∧
    run ⟨simple⟩ (roundOps [sround [1/2, 1/5] 14 8, sround [1/10, 1/2] 4 6, sround [1, 1] 2 3]) = .ok d' ∧
    c.haltedBatches.at? [0] = some false ∧ d.haltedBatches.at? [0] = some true ∧
    d'.haltedBatches.at? [0] = some true ∧ d'.residuals.at? [0] = d.residuals.at? [0] ∧
    entry? d.accumulators "out" 0 [0, 0] = some (41/5) ∧
    entry? d'.accumulators "out" 0 [0, 0] = entry? d.accumulators "out" 0 [0, 0] := by
  have o1 : obs (run ⟨simple⟩ (roundOps [sround [1/10, 1/2] 4 6, sround [1/2, 1/5] 14 8]))
      (fun c => c.haltedBatches.at? [0]) = some false := by decide +kernel
  have o2 : obs (run ⟨simple⟩ (roundOps [sround [1/10, 1/2] 4 6, sround [1/2, 1/5] 14 8, sround [1, 1] 2 3]))
      (fun c => entry? c.accumulators "out" 0 [0, 0]) = some (41/5) := by decide +kernel
  have o2' : obs (run ⟨simple⟩ (roundOps [sround [1/10, 1/2] 4 6, sround [1/2, 1/5] 14 8, sround [1, 1] 2 3]))
      (fun c => c.haltedBatches.at? [0]) = some true := by decide +kernel
  have o3 : obs (run ⟨simple⟩ (roundOps [sround [1/2, 1/5] 14 8, sround [1/10, 1/2] 4 6, sround [1, 1] 2 3]))
      (fun _ => some true) = some true := by decide +kernel
  cases hc : run ⟨simple⟩ (roundOps [sround [1/10, 1/2] 4 6, sround [1/2, 1/5] 14 8]) with
  | error e => rw [hc] at o1; cases o1
  | ok c =>
    cases hd : run ⟨simple⟩ (roundOps [sround [1/10, 1/2] 4 6, sround [1/2, 1/5] 14 8, sround [1, 1] 2 3]) with
    | error e => rw [hd] at o2; cases o2
    | ok d =>
      cases hd' : run ⟨simple⟩ (roundOps [sround [1/2, 1/5] 14 8, sround [1/10, 1/2] 4 6, sround [1, 1] 2 3]) with
      | error e => rw [hd'] at o3; cases o3
      | ok d' =>
        rw [hc] at o1
        rw [hd] at o2 o2'
        have o1 : c.haltedBatches.at? [0] = some false := o1
        have o2' : d.haltedBatches.at? [0] = some true := o2'
        have hh : ∀ r ∈ [sround [1/10, 1/2] 4 6, sround [1/2, 1/5] 14 8] ++ [sround [1, 1] 2 3],
            ∃ x, r.halting.at? [0] = some x := by
          intro r hr
          simp only [List.cons_append, List.nil_append, List.mem_cons, List.not_mem_nil, or_false] at hr
          rcases hr with rfl | rfl | rfl
          · exact ⟨1/10, by decide +kernel⟩
          · exact ⟨1/2, by decide +kernel⟩
          · exact ⟨1, by decide +kernel⟩
        have hu : ∀ r ∈ [sround [1/10, 1/2] 4 6, sround [1/2, 1/5] 14 8] ++ [sround [1, 1] 2 3],
            ∃ x, entry? r.updates "out" 0 [0, 0] = some x := by
          intro r hr
          simp only [List.cons_append, List.nil_append, List.mem_cons, List.not_mem_nil, or_false] at hr
          rcases hr with rfl | rfl | rfl
          · exact ⟨4, by decide +kernel⟩
          · exact ⟨14, by decide +kernel⟩
          · exact ⟨2, by decide +kernel⟩
        obtain ⟨g1, -, g3, -, g5⟩ := C122_then simple_wf (by norm_num [simple, fresh]) (by norm_num [simple, fresh])
          (rs := [sround [1/10, 1/2] 4 6, sround [1/2, 1/5] 14 8])
          (rs' := [sround [1/2, 1/5] 14 8, sround [1/10, 1/2] 4 6]) (post := [sround [1, 1] 2 3])
          (List.Perm.swap _ _ _) hc hd hd' (b := [0]) (by decide +kernel) hh o1
        exact ⟨c, d, d', rfl, rfl, rfl, o1, o2', g1.2 o2', g3, o2,
          g5 "out" 0 [0, 0] rfl ⟨0, by decide +kernel⟩ hu⟩

/-- The halting round itself may not be exchanged: the order then decides what the element receives, and how many
rounds it takes part in. -/
theorem C122_halting_round : ∃ rs rs' : List (Round ℚ), rs.Perm rs' ∧ ∃ c c',
    run ⟨simple⟩ (roundOps rs) = .ok c ∧ run ⟨simple⟩ (roundOps rs') = .ok c' ∧
    c.haltedBatches.at? [0] = some true ∧
    entry? c.accumulators "out" 0 [0, 0] = some (11/5) ∧ entry? c'.accumulators "out" 0 [0, 0] = some 2 ∧
    c.iterations.at? [0] = some 2 ∧ c'.iterations.at? [0] = some 1 := by
  refine ⟨[sround [1/10, 1/2] 4 6, sround [1, 1] 2 3], [sround [1, 1] 2 3, sround [1/10, 1/2] 4 6],
    List.Perm.swap _ _ _, ?_⟩
  have o1 : obs (run ⟨simple⟩ (roundOps [sround [1/10, 1/2] 4 6, sround [1, 1] 2 3])) (fun c => some
      (c.haltedBatches.at? [0], entry? c.accumulators "out" 0 [0, 0], c.iterations.at? [0])) =
      some (some true, some (11/5), some 2) := by decide +kernel
  have o2 : obs (run ⟨simple⟩ (roundOps [sround [1, 1] 2 3, sround [1/10, 1/2] 4 6])) (fun c => some
      (entry? c.accumulators "out" 0 [0, 0], c.iterations.at? [0])) = some (some 2, some 1) := by decide +kernel
  cases hc : run ⟨simple⟩ (roundOps [sround [1/10, 1/2] 4 6, sround [1, 1] 2 3]) with
  | error e => rw [hc] at o1; cases o1
  | ok c =>
    cases hc' : run ⟨simple⟩ (roundOps [sround [1, 1] 2 3, sround [1/10, 1/2] 4 6]) with
    | error e => rw [hc'] at o2; cases o2
    | ok c' =>
      rw [hc] at o1
      rw [hc'] at o2
      have o1 := Option.some.inj o1
      have o2 := Option.some.inj o2
      simp only [Prod.mk.injEq] at o1 o2
      exact ⟨c, c', rfl, rfl, o1.1, o1.2.1, o2.1, o1.2.2, o2.2⟩

end exact

section rounding
attribute [local instance] ieee

/-- With rounding the order matters: `2^24 + 1 + 1` is `2^24` in this order and `2^24 + 2` in the other.  The numbers
are those of float32, and no element is halted. -/
theorem C122_rounded : ∃ rs rs' : List (Round ℚ), rs.Perm rs' ∧ ∃ c c',
    run ⟨simple⟩ (roundOps rs) = .ok c ∧ run ⟨simple⟩ (roundOps rs') = .ok c' ∧
    c.haltedBatches.at? [0] = some false ∧ c'.haltedBatches.at? [0] = some false ∧
    entry? c.accumulators "out" 0 [0, 0] = some 16777216 ∧
    entry? c'.accumulators "out" 0 [0, 0] = some 16777218 := by
  refine ⟨[sround [1/4, 1/4] 67108864 6, sround [1/4, 1/4] 4 6, sround [1/4, 1/4] 4 6],
    [sround [1/4, 1/4] 4 6, sround [1/4, 1/4] 4 6, sround [1/4, 1/4] 67108864 6],
    List.perm_append_comm (l₁ := [_]) (l₂ := [_, _]), ?_⟩
  have o1 : obs (run ⟨simple⟩ (roundOps [sround [1/4, 1/4] 67108864 6, sround [1/4, 1/4] 4 6,
      sround [1/4, 1/4] 4 6])) (fun c => some (c.haltedBatches.at? [0], entry? c.accumulators "out" 0 [0, 0])) =
      some (some false, some 16777216) := by decide +kernel
  have o2 : obs (run ⟨simple⟩ (roundOps [sround [1/4, 1/4] 4 6, sround [1/4, 1/4] 4 6,
      sround [1/4, 1/4] 67108864 6])) (fun c => some (c.haltedBatches.at? [0],
      entry? c.accumulators "out" 0 [0, 0])) = some (some false, some 16777218) := by decide +kernel
  cases hc : run ⟨simple⟩ (roundOps [sround [1/4, 1/4] 67108864 6, sround [1/4, 1/4] 4 6,
      sround [1/4, 1/4] 4 6]) with
  | error e => rw [hc] at o1; cases o1
  | ok c =>
    cases hc' : run ⟨simple⟩ (roundOps [sround [1/4, 1/4] 4 6, sround [1/4, 1/4] 4 6,
        sround [1/4, 1/4] 67108864 6]) with
    | error e => rw [hc'] at o2; cases o2
    | ok c' =>
      rw [hc] at o1
      rw [hc'] at o2
      have o1 := Option.some.inj o1
      have o2 := Option.some.inj o2
      simp only [Prod.mk.injEq] at o1 o2
      exact ⟨c, c', rfl, rfl, o1.1, o2.1, o1.2, o2.2⟩

end rounding

end JaxAct
