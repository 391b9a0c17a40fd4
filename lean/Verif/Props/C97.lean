import Verif.Props.C61
import Verif.Props.C68
import Mathlib.Data.Rat.Floor

/-!
# C97 How depression sets the number of iterations

`docs/brainstorms and speculation/ACT with long sequence duration.rst` on scheduled probability depression:
halting probabilities around 0.5 take two steps, "the average time until that adds up to one" with a
depression constant of 0.1 "will be around 20 iterations".
-/

namespace JaxAct
variable {K : Type} [Field K] [LinearOrder K] [IsStrictOrderedRing K]
attribute [local instance] Arith.exact
open ACTStates

namespace Graves

omit [IsStrictOrderedRing K] in
private theorem clip_of_mem {x : K} (h0 : 0 ≤ x) (h1 : x ≤ 1) : clip x = x := by
  rw [clip, max_eq_right h0, min_eq_right h1]

omit [IsStrictOrderedRing K] in
private theorem cumDemand_const {dep p : K} (h0 : 0 ≤ p) (h1 : p ≤ 1) {h : Nat → K} {t : Nat}
    (hh : ∀ j < t, h j = p) : cumDemand dep h t = t * (dep * p) := by
  unfold cumDemand
  rw [Finset.sum_congr rfl fun j hj => by rw [hh j (Finset.mem_range.1 hj), clip_of_mem h0 h1],
    Finset.sum_const, Finset.card_range, nsmul_eq_mul]

private theorem cumDemand_bounds {dep lo hi : K} (hd : 0 ≤ dep) (h0 : 0 ≤ lo) (h1 : hi ≤ 1)
    {h : Nat → K} {t n : Nat} (hn : n ≤ t) (hh : ∀ j < t, lo ≤ h j ∧ h j ≤ hi) :
    n * (dep * lo) ≤ cumDemand dep h n ∧ cumDemand dep h n ≤ n * (dep * hi) := by
  have hc : ∀ j ∈ Finset.range n, dep * lo ≤ dep * clip (h j) ∧ dep * clip (h j) ≤ dep * hi := by
    intro j hj
    obtain ⟨a, b⟩ := hh j (lt_of_lt_of_le (Finset.mem_range.1 hj) hn)
    rw [clip_of_mem (h0.trans a) (b.trans h1)]
    exact ⟨mul_le_mul_of_nonneg_left a hd, mul_le_mul_of_nonneg_left b hd⟩
  constructor
  · have := Finset.card_nsmul_le_sum (Finset.range n) (fun j => dep * clip (h j)) _
      fun j hj => (hc j hj).1
    rwa [Finset.card_range, nsmul_eq_mul] at this
  · have := Finset.sum_le_card_nsmul (Finset.range n) (fun j => dep * clip (h j)) _
      fun j hj => (hc j hj).2
    rwa [Finset.card_range, nsmul_eq_mul] at this

private theorem crossed_const [FloorSemiring K] {eps dep p : K} (he : eps ≤ 1) (hd : 0 < dep)
    (h0 : 0 < p) (h1 : p ≤ 1) {h : Nat → K} {t : Nat} (hh : ∀ j < t, h j = p) :
    Crossed eps dep h t ↔ ⌊(1 - eps) / (dep * p)⌋₊ + 1 ≤ t := by
  have hq : 0 < dep * p := mul_pos hd h0
  rw [crossed_iff hd.le, cumDemand_const h0.le h1 hh, ← div_lt_iff₀ hq, Nat.succ_le_iff,
    Nat.floor_lt (div_nonneg (by linarith) hq.le)]

private theorem steps_const [FloorSemiring K] {eps dep p : K} (he : eps ≤ 1) (hd : 0 < dep)
    (h0 : 0 < p) (h1 : p ≤ 1) {h : Nat → K} {t : Nat} (hh : ∀ j < t, h j = p) :
    steps eps dep h t = min t (⌊(1 - eps) / (dep * p)⌋₊ + 1) := by
  by_cases hc : Crossed eps dep h t
  · have ht := (crossed_const he hd h0 h1 hh).1 hc
    rw [min_eq_right ht]
    refine steps_unique (by linarith) hc ?_ ?_
    · rw [crossed_const he hd h0 h1 fun j hj => hh j (by omega)]; omega
    · rw [crossed_const he hd h0 h1 fun j hj => hh j (by omega)]
  · rw [steps_of_not hc]
    rw [crossed_const he hd h0 h1 hh] at hc
    omega

end Graves

/-- C97, bounds.  If the halting probabilities of an element lie between `lo` and `hi`, then the number `n`
of iterations it takes to halt satisfies `(1 - epsilon) / (depression * hi) < n` and
`n - 1 ≤ (1 - epsilon) / (depression * lo)`. -/
theorem C97_iterations_between {s : ACTStates K} (hwf : s.WF) (he0 : 0 < s.epsilon)
    (he1 : s.epsilon ≤ 1) (hdep : 0 ≤ s.depression_constant) (rs : List (Round K))
    {c : Controller K} (hrun : run ⟨s⟩ (roundOps rs) = .ok c) {b : List Nat}
    (hp : s.probabilities.at? b = some 0) (hr : s.residuals.at? b = some 0)
    (hi0 : s.iterations.at? b = some 0) {lo hi : K} (hlo : 0 ≤ lo) (hhi : hi ≤ 1)
    (hh : ∀ (t : Nat) (r : Round K), rs[t]? = some r → ∃ x, r.halting.at? b = some x ∧ lo ≤ x ∧ x ≤ hi)
    (hhalt : c.haltedBatches.at? b = some true) :
    ∃ n : Nat, 1 ≤ n ∧ n ≤ rs.length ∧ c.iterations.at? b = some (n : K) ∧
      1 - s.epsilon < n * (s.depression_constant * hi) ∧
      (n - 1 : K) * (s.depression_constant * lo) ≤ 1 - s.epsilon := by
  have hx : ∀ t : Nat, ∃ x, ∀ r : Round K, rs[t]? = some r → r.halting.at? b = some x ∧ lo ≤ x ∧ x ≤ hi := by
    intro t
    cases hr : rs[t]? with
    | none => exact ⟨0, fun r h => by cases h⟩
    | some r =>
      obtain ⟨x, h1, h2⟩ := hh t r hr
      exact ⟨x, fun r' h => by cases h; exact ⟨h1, h2⟩⟩
  choose h hh using hx
  have hh1 : ∀ (t : Nat) (r : Round K), rs[t]? = some r → r.halting.at? b = some (h t) := fun t r e => (hh t r e).1
  have hh2 : ∀ j < rs.length, lo ≤ h j ∧ h j ≤ hi := fun j hj =>
    (hh j _ (List.getElem?_eq_getElem hj)).2
  have hcr := (C04_probability_and_halting hwf he0 he1 hdep rs hrun h hp hh1).2.1 hhalt
  obtain ⟨a1, a2, a3, a4⟩ := Graves.steps_of_crossed (by linarith) hcr
  refine ⟨_, a1, a2, (C68_counter_and_residual hwf he0 he1 hdep rs hrun h hp hr hi0 hh1).1, ?_, ?_⟩
  · rw [Graves.crossed_iff hdep] at a4
    exact a4.trans_le (Graves.cumDemand_bounds hdep hlo hhi a2 hh2).2
  · rw [Graves.crossed_iff hdep, not_lt] at a3
    have := (Graves.cumDemand_bounds hdep hlo hhi (by omega : _ - 1 ≤ rs.length) hh2).1.trans a3
    rwa [Nat.cast_sub a1, Nat.cast_one] at this

/-- C97, constant halting probability.  An element whose halting probability is `p` in every iteration halts
in iteration number `N = floor((1 - epsilon) / (depression * p)) + 1` and not before; every update but the
last has weight `depression * p`, the last one what is missing to one. -/
theorem C97_constant [FloorSemiring K] {s : ACTStates K} (hwf : s.WF) (he0 : 0 < s.epsilon)
    (he1 : s.epsilon ≤ 1) (hdep : 0 < s.depression_constant) (rs : List (Round K))
    {c : Controller K} (hrun : run ⟨s⟩ (roundOps rs) = .ok c) {b : List Nat}
    (hp : s.probabilities.at? b = some 0) (hr : s.residuals.at? b = some 0)
    (hi0 : s.iterations.at? b = some 0) {p : K} (hp0 : 0 < p) (hp1 : p ≤ 1)
    (hh : ∀ (t : Nat) (r : Round K), rs[t]? = some r → r.halting.at? b = some p) :
    let N := ⌊(1 - s.epsilon) / (s.depression_constant * p)⌋₊ + 1
    c.iterations.at? b = some ((min rs.length N : Nat) : K) ∧
    (c.haltedBatches.at? b = some true ↔ N ≤ rs.length) ∧
    (N ≤ rs.length → c.residuals.at? b = some (1 - (N - 1 : Nat) * (s.depression_constant * p)) ∧
      ∀ (name : String) (k : Nat) (i : List Nat) (a0 : K) (u : Nat → K),
      i.take s.probabilities.shape.length = b → entry? s.accumulators name k i = some a0 →
      (∀ (t : Nat) (r : Round K), rs[t]? = some r → entry? r.updates name k i = some (u t)) →
      entry? c.accumulators name k i = some (a0 +
        (s.depression_constant * p * ∑ t ∈ Finset.range (N - 1), u t +
          (1 - (N - 1 : Nat) * (s.depression_constant * p)) * u (N - 1)))) := by
  intro N
  have hh' : ∀ (t : Nat) (r : Round K), rs[t]? = some r → r.halting.at? b = some ((fun _ => p) t) := hh
  obtain ⟨g1, g2⟩ := C68_counter_and_residual hwf he0 he1 hdep.le rs hrun _ hp hr hi0 hh'
  have hst := Graves.steps_const he1 hdep hp0 hp1 (h := fun _ => p) (t := rs.length)
    (eps := s.epsilon) fun _ _ => rfl
  have hcr := Graves.crossed_const he1 hdep hp0 hp1 (h := fun _ => p) (t := rs.length)
    (eps := s.epsilon) fun _ _ => rfl
  have hN : N = ⌊(1 - s.epsilon) / (s.depression_constant * p)⌋₊ + 1 := rfl
  rw [← hN] at hst hcr
  refine ⟨by rw [g1, hst], (C04_probability_and_halting hwf he0 he1 hdep.le rs hrun _ hp hh').2.trans
    hcr, fun hle => ?_⟩
  have hc := hcr.2 hle
  rw [min_eq_right hle] at hst
  have hrem : Graves.remainder s.epsilon s.depression_constant (fun _ => p) rs.length =
      1 - (N - 1 : Nat) * (s.depression_constant * p) := by
    rw [Graves.remainder, if_pos hc, hst, Graves.cumDemand_const hp0.le hp1 fun _ _ => rfl]
  refine ⟨by rw [g2, hrem], fun name k i a0 u hb ha hu => ?_⟩
  subst hb
  rw [(C04_graves_weights hwf he0 he1 hdep.le rs hrun u _ hp ha hu hh').1,
    Graves.sum_of_crossed (by linarith) hc, hrem, hst, Finset.mul_sum]
  simp only [Graves.clip_of_mem hp0.le hp1]

/-- C97 for `execute_act`: a layer with halting probability `p` everywhere runs
`floor((1 - epsilon) / (depression * p)) + 1` iterations, or `max_iterations` if that is less. -/
theorem C97_execute_act [FloorSemiring K] (make : PyTree (Leaf K) → K → Res (Made K))
    (rounds : PyTree (Leaf K) → Round K) (next : PyTree (Leaf K) → PyTree (Leaf K))
    (s0 : PyTree (Leaf K)) (dep : K) (max : Int) (check : Bool) {c0 : Controller K}
    (hmake : make s0 dep = .ok (.ctrl c0)) (hwf : c0.state.WF) (hd : c0.state.DictsWF)
    (hops : ∀ t, ∀ nu ∈ (rounds (loopStates next s0 t)).updates, nu.2.WF)
    (he0 : 0 < c0.state.epsilon) (he1 : c0.state.epsilon ≤ 1)
    (hdep : 0 < c0.state.depression_constant)
    (hfresh : ∀ b x, c0.probabilities.at? b = some x → x = 0)
    (hne : ∃ b x, c0.probabilities.at? b = some x) {c : Controller K}
    {s : PyTree (Leaf K)} (hr : (callLayer make (fun s => (rounds s).ops) next).ExecuteAct s0 dep max
      check (.ok (c, s))) {p : K} (hp0 : 0 < p) (hp1 : p ≤ 1)
    (hh : ∀ t b x, c0.probabilities.at? b = some x →
      (rounds (loopStates next s0 t)).halting.at? b = some p) :
    let k := min max.toNat (⌊(1 - c0.state.epsilon) / (c0.state.depression_constant * p)⌋₊ + 1)
    s = loopStates next s0 k ∧ ∃ c', run c0 (loopCalls (fun s => (rounds s).ops) next s0 k) = .ok c' ∧
      c.state.Same c'.state := by
  intro k'
  obtain ⟨k, hk, hs, hrun, hrest⟩ := C61_execute_act_is_graves make rounds next s0 dep max check hmake hwf
    hd hops he0 he1 hdep.le hfresh hr fun _ _ => p
  obtain ⟨-, -, hstop, hgo⟩ := hrest fun t _ b x hb => hh t b x hb
  have hcr := fun t => Graves.crossed_const he1 hdep hp0 hp1 (h := fun _ => p) (t := t)
    (eps := c0.state.epsilon) fun _ _ => rfl
  have hN : k' = min max.toNat
    (⌊(1 - c0.state.epsilon) / (c0.state.depression_constant * p)⌋₊ + 1) := rfl
  generalize ⌊(1 - c0.state.epsilon) / (c0.state.depression_constant * p)⌋₊ + 1 = N at *
  have h1 : k ≤ N := by
    by_contra hlt
    obtain ⟨b, x, -, hn⟩ := hgo N (by omega)
    exact hn ((hcr N).2 le_rfl)
  have h2 : k = k' := by
    rcases hstop with hall | hmax
    · obtain ⟨b, x, hb⟩ := hne
      have := (hcr k).1 (hall b x hb)
      omega
    · omega
  rw [← h2]
  exact ⟨hs, hrun⟩

section Example
open Fixtures

/-- The numbers of the text, with epsilon 1/100: two steps without depression, twenty with 1/10. -/
example : ⌊(1 - 1/100 : ℚ) / (1 * (1/2))⌋₊ + 1 = 2 ∧ ⌊(1 - 1/100 : ℚ) / (1/10 * (1/2))⌋₊ + 1 = 20 := by
  decide +kernel

/-- A run: epsilon 1/10, halting probability 2/5, so three iterations; the fourth changes nothing. -/
example : obs (run ⟨fresh⟩ (roundOps [round [2/5, 1] 4 6, round [2/5, 1] 8 3, round [2/5, 1] 1 1,
      round [2/5, 1] 7 7])) (fun c => some (c.iterations.at? [0], c.residuals.at? [0],
        c.haltedBatches.at? [0])) = some (some 3, some (1/5), some true) ∧
    ⌊(1 - 1/10 : ℚ) / (1 * (2/5))⌋₊ + 1 = 3 := by
  decide +kernel

end Example

end JaxAct
