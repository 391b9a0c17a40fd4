import Verif.Props.C61
import Verif.Props.C83

/-!
# C121 Results are stable up to epsilon

C69 says how a result responds to the halting probabilities while the number of steps stays the same.  At the points
where it changes the result jumps.  Here the size of every change is bounded, jumps included.
-/

namespace JaxAct
open PyTree ACTStates
variable {K : Type} [Field K] [LinearOrder K] [IsStrictOrderedRing K]
attribute [local instance] Arith.exact

namespace Graves

/-- What has been spent of a probability of one after `t` steps, when nothing is rounded up at the threshold. -/
def spent (dep : K) (h : Nat → K) (t : Nat) : K := min (cumDemand dep h t) 1

theorem spent_step (p q d e : K) :
    |(min (p + d) 1 - p) - (min (q + e) 1 - q)| + |min (p + d) 1 - min (q + e) 1| ≤
      2 * |d - e| + |p - q| := by
  have g1 := le_abs_self (d - e)
  have g2 := neg_le_abs (d - e)
  have g3 := le_abs_self (p - q)
  have g4 := neg_le_abs (p - q)
  rcases le_total (p + d) 1 with h1 | h1 <;> rcases le_total (q + e) 1 with h2 | h2 <;>
    simp only [min_eq_left h1, min_eq_right h1, min_eq_left h2, min_eq_right h2]
  · rcases abs_cases (p + d - p - (q + e - q)) with ⟨e1, -⟩ | ⟨e1, -⟩ <;>
    rcases abs_cases (p + d - (q + e)) with ⟨e2, -⟩ | ⟨e2, -⟩ <;>
    linarith
  · rcases abs_cases (p + d - p - (1 - q)) with ⟨e1, -⟩ | ⟨e1, -⟩ <;>
    rcases abs_cases (p + d - 1) with ⟨e2, -⟩ | ⟨e2, -⟩ <;>
    linarith
  · rcases abs_cases (1 - p - (q + e - q)) with ⟨e1, -⟩ | ⟨e1, -⟩ <;>
    rcases abs_cases (1 - (q + e)) with ⟨e2, -⟩ | ⟨e2, -⟩ <;>
    linarith
  · rcases abs_cases (1 - p - (1 - q)) with ⟨e1, -⟩ | ⟨e1, -⟩ <;>
    simp only [sub_self, abs_zero] <;> linarith

theorem spent_succ {dep : K} (hd : 0 ≤ dep) (h : Nat → K) (t : Nat) :
    spent dep h (t + 1) = min (spent dep h t + dep * clip (h t)) 1 := by
  have := mul_nonneg hd (clip_nonneg (h t))
  unfold spent
  rw [cumDemand_succ]
  rcases le_total (cumDemand dep h t) 1 with h1 | h1
  · rw [min_eq_left h1]
  · rw [min_eq_right h1, min_eq_right (by linarith), min_eq_right (by linarith)]

theorem spent_distance {dep dep' : K} (hd : 0 ≤ dep) (hd' : 0 ≤ dep') (h h' : Nat → K) (n : Nat) :
    ∑ t ∈ Finset.range n, |(spent dep h (t + 1) - spent dep h t) - (spent dep' h' (t + 1) - spent dep' h' t)| +
      |spent dep h n - spent dep' h' n| ≤
      2 * ∑ t ∈ Finset.range n, |dep * clip (h t) - dep' * clip (h' t)| := by
  induction n with
  | zero => simp [spent, cumDemand]
  | succ n ih =>
    rw [Finset.sum_range_succ, Finset.sum_range_succ, mul_add]
    have := spent_step (spent dep h n) (spent dep' h' n) (dep * clip (h n)) (dep' * clip (h' n))
    rw [← spent_succ hd, ← spent_succ hd'] at this
    linarith

/-- Rounding up at the threshold moves at most epsilon, away from later steps and to the last one. -/
theorem weight_spent {eps dep : K} (he0 : 0 ≤ eps) (he1 : eps ≤ 1) (hd : 0 ≤ dep) (h : Nat → K) (n : Nat) :
    ∑ t ∈ Finset.range n, |weight eps dep h t - (spent dep h (t + 1) - spent dep h t)| ≤
      if Crossed eps dep h n then 2 * eps - (1 - spent dep h n) else 0 := by
  have low : ∀ {t}, ¬ Crossed eps dep h t → spent dep h t = cumDemand dep h t := by
    intro t hn
    rw [crossed_iff hd, not_lt] at hn
    exact min_eq_left (by linarith)
  have high : ∀ {t}, Crossed eps dep h t → 1 - eps ≤ spent dep h t := by
    intro t hc
    rw [crossed_iff hd] at hc
    exact le_min hc.le (by linarith)
  have mono : ∀ t, spent dep h t ≤ spent dep h (t + 1) := fun t =>
    min_le_min (cumDemand_mono hd h (Nat.le_succ t)) le_rfl
  have one : ∀ t, spent dep h t ≤ 1 := fun t => min_le_right _ _
  induction n with
  | zero => rw [if_neg (not_crossed_zero (by linarith))]; simp
  | succ n ih =>
    rw [Finset.sum_range_succ]
    by_cases hc : Crossed eps dep h n
    · have hc' := hc.mono (Nat.le_succ n)
      rw [if_pos hc] at ih
      rw [if_pos hc', weight_of_crossed hc, zero_sub, abs_neg, abs_of_nonneg (by linarith [mono n])]
      linarith
    · rw [if_neg hc] at ih
      by_cases hc' : Crossed eps dep h (n + 1)
      · rw [if_pos hc']
        have hw : weight eps dep h n = 1 - cumDemand dep h n := by
          unfold weight
          rw [if_neg (by simpa using hc'), if_pos hc]
        rw [hw, low hc, show 1 - cumDemand dep h n - (spent dep h (n + 1) - cumDemand dep h n) =
          1 - spent dep h (n + 1) by ring, abs_of_nonneg (by linarith [one (n + 1)])]
        linarith [high hc']
      · rw [if_neg hc', weight_of_not hc', low hc, low hc', cumDemand_succ]
        simpa using ih

/-- The total distance of two systems of weights. -/
theorem weight_distance {eps eps' dep dep' : K} (he0 : 0 ≤ eps) (he1 : eps ≤ 1) (he0' : 0 ≤ eps')
    (he1' : eps' ≤ 1) (hd : 0 ≤ dep) (hd' : 0 ≤ dep') (h h' : Nat → K) (n : Nat) :
    ∑ t ∈ Finset.range n, |weight eps dep h t - weight eps' dep' h' t| ≤
      2 * ∑ t ∈ Finset.range n, |dep * clip (h t) - dep' * clip (h' t)| + 2 * eps + 2 * eps' := by
  have top : ∀ {e d : K} {g : Nat → K}, 0 ≤ e →
      (if Crossed e d g n then 2 * e - (1 - spent d g n) else 0) ≤ 2 * e := by
    intro e d g h0
    split
    · linarith [min_le_right (cumDemand d g n) 1, show spent d g n = min (cumDemand d g n) 1 from rfl]
    · linarith
  have a := (weight_spent he0 he1 hd h n).trans (top he0)
  have b := (weight_spent he0' he1' hd' h' n).trans (top he0')
  have c := spent_distance hd hd' h h' n
  have c0 := abs_nonneg (spent dep h n - spent dep' h' n)
  have tri : ∑ t ∈ Finset.range n, |weight eps dep h t - weight eps' dep' h' t| ≤
      ∑ t ∈ Finset.range n, |weight eps dep h t - (spent dep h (t + 1) - spent dep h t)| +
      ∑ t ∈ Finset.range n, |(spent dep h (t + 1) - spent dep h t) - (spent dep' h' (t + 1) - spent dep' h' t)| +
      ∑ t ∈ Finset.range n, |weight eps' dep' h' t - (spent dep' h' (t + 1) - spent dep' h' t)| := by
    rw [← Finset.sum_add_distrib, ← Finset.sum_add_distrib]
    refine Finset.sum_le_sum fun t _ => ?_
    rw [abs_sub_comm (weight eps' dep' h' t)]
    exact (abs_sub_le _ (spent dep h (t + 1) - spent dep h t) _).trans (by
      rw [add_assoc]
      exact add_le_add le_rfl (abs_sub_le _ _ _))
  linarith

/-- Two weighted sums of updates. -/
theorem sum_distance {eps eps' dep dep' : K} (he0 : 0 ≤ eps) (he1 : eps ≤ 1) (he0' : 0 ≤ eps')
    (he1' : eps' ≤ 1) (hd : 0 ≤ dep) (hd' : 0 ≤ dep') (h h' u u' : Nat → K) (n : Nat) {M η : K} (hη : 0 ≤ η)
    (hu : ∀ j < n, |u j| ≤ M) (huu : ∀ j < n, |u j - u' j| ≤ η) (hM : 0 ≤ M) :
    |∑ t ∈ Finset.range n, weight eps dep h t * u t - ∑ t ∈ Finset.range n, weight eps' dep' h' t * u' t| ≤
      M * (2 * ∑ t ∈ Finset.range n, |dep * clip (h t) - dep' * clip (h' t)| + 2 * eps + 2 * eps') + η := by
  have hw : ∑ t ∈ Finset.range n, weight eps' dep' h' t ≤ 1 := by
    by_cases hc : Crossed eps' dep' h' n
    · exact (sum_weight_of_crossed (by linarith) hc).le
    · rw [sum_weight_of_not hc]
      rw [crossed_iff hd', not_lt] at hc
      linarith
  have split : ∑ t ∈ Finset.range n, weight eps dep h t * u t -
      ∑ t ∈ Finset.range n, weight eps' dep' h' t * u' t =
      ∑ t ∈ Finset.range n, ((weight eps dep h t - weight eps' dep' h' t) * u t +
        weight eps' dep' h' t * (u t - u' t)) := by
    rw [← Finset.sum_sub_distrib]
    exact Finset.sum_congr rfl fun t _ => by ring
  rw [split]
  calc |∑ t ∈ Finset.range n, ((weight eps dep h t - weight eps' dep' h' t) * u t +
        weight eps' dep' h' t * (u t - u' t))|
      ≤ ∑ t ∈ Finset.range n, (M * |weight eps dep h t - weight eps' dep' h' t| +
          weight eps' dep' h' t * η) := by
        refine (Finset.abs_sum_le_sum_abs _ _).trans (Finset.sum_le_sum fun t ht => ?_)
        have ht := Finset.mem_range.1 ht
        have w0 : 0 ≤ weight eps' dep' h' t := weight_nonneg hd' he0'
        refine (abs_add_le _ _).trans (add_le_add ?_ ?_)
        · rw [abs_mul, mul_comm]
          exact mul_le_mul_of_nonneg_right (hu t ht) (abs_nonneg _)
        · rw [abs_mul, abs_of_nonneg w0]
          exact mul_le_mul_of_nonneg_left (huu t ht) w0
    _ = M * ∑ t ∈ Finset.range n, |weight eps dep h t - weight eps' dep' h' t| +
          (∑ t ∈ Finset.range n, weight eps' dep' h' t) * η := by
        rw [Finset.sum_add_distrib, Finset.mul_sum, Finset.sum_mul]
    _ ≤ _ := add_le_add
        (mul_le_mul_of_nonneg_left (weight_distance he0 he1 he0' he1' hd hd' h h' n) hM)
        (by nlinarith)

/-- With the first halting probability exactly at the threshold, any increase moves all of the remaining weight
`eps` from the second update to the first. -/
theorem jump {eps δ : K} (he0 : 0 < eps) (he1 : eps ≤ 1) (hδ : 0 < δ) (hδ' : δ ≤ eps) {h h' : Nat → K}
    (h0 : h 0 = 1 - eps) (h1 : h 1 = 1) (h0' : h' 0 = 1 - eps + δ) (u : Nat → K) :
    ∑ t ∈ Finset.range 2, weight eps 1 h t * u t = (1 - eps) * u 0 + eps * u 1 ∧
    ∑ t ∈ Finset.range 2, weight eps 1 h' t * u t = u 0 := by
  have c0 : ∀ {x : K}, 0 ≤ x → x ≤ 1 → clip x = x := fun a b => by unfold clip; rw [max_eq_right a, min_eq_right b]
  have d1 : cumDemand 1 h 1 = 1 - eps := by
    rw [cumDemand, Finset.sum_range_one, h0, c0 (by linarith) (by linarith), one_mul]
  have d1' : cumDemand 1 h' 1 = 1 - eps + δ := by
    rw [cumDemand, Finset.sum_range_one, h0', c0 (by linarith) (by linarith), one_mul]
  have d2 : cumDemand 1 h 2 = 1 - eps + 1 := by
    rw [cumDemand_succ, d1, h1, c0 zero_le_one le_rfl, one_mul]
  have n1 : ¬ Crossed eps 1 h 1 := by rw [crossed_iff zero_le_one, d1]; exact lt_irrefl _
  have y2 : Crossed eps 1 h 2 := by rw [crossed_iff zero_le_one, d2]; linarith
  have y1 : Crossed eps 1 h' 1 := by rw [crossed_iff zero_le_one, d1']; linarith
  have w0 : weight eps 1 h 0 = 1 - eps := by
    rw [weight_of_not n1, h0, c0 (by linarith) (by linarith), one_mul]
  have w1 : weight eps 1 h 1 = eps := by
    unfold weight
    rw [if_neg (by simpa using y2), if_pos n1, d1]; ring
  have w0' : weight eps 1 h' 0 = 1 := by
    unfold weight
    rw [if_neg (by simpa using y1), if_pos (not_crossed_zero (by linarith))]
    simp [cumDemand]
  have w1' : weight eps 1 h' 1 = 0 := weight_of_crossed y1
  constructor
  · rw [Finset.sum_range_succ, Finset.sum_range_one, w0, w1]
  · rw [Finset.sum_range_succ, Finset.sum_range_one, w0', w1']; ring

end Graves

/-- C121.  Two fresh elements of two controllers are run for the same number of rounds.  The two may differ in
everything: initial value, update entries, halting probabilities, depression constant and epsilon.  The accumulator
entries differ by no more than: the difference of the initial values, the largest difference of the updates, and `M`
times twice the total difference of the demands and the two epsilons, where `M` bounds the updates. -/
theorem C121_stability {s t : ACTStates K} (hs : s.WF) (ht : t.WF)
    (he0 : 0 < s.epsilon) (he1 : s.epsilon ≤ 1) (he0' : 0 < t.epsilon) (he1' : t.epsilon ≤ 1)
    (hd : 0 ≤ s.depression_constant) (hd' : 0 ≤ t.depression_constant)
    {name name' : String} {k k' : Nat} {i i' : List Nat} {a0 a0' : K}
    (hb : s.probabilities.at? (i.take s.probabilities.shape.length) = some 0)
    (hb' : t.probabilities.at? (i'.take t.probabilities.shape.length) = some 0)
    (ha : entry? s.accumulators name k i = some a0) (ha' : entry? t.accumulators name' k' i' = some a0')
    {rs rs' : List (Round K)} (hlen : rs.length = rs'.length) (u u' h h' : Nat → K)
    (hu : ∀ j r, rs[j]? = some r → entry? r.updates name k i = some (u j))
    (hu' : ∀ j r, rs'[j]? = some r → entry? r.updates name' k' i' = some (u' j))
    (hh : ∀ j r, rs[j]? = some r →
      r.halting.at? (i.take s.probabilities.shape.length) = some (h j))
    (hh' : ∀ j r, rs'[j]? = some r →
      r.halting.at? (i'.take t.probabilities.shape.length) = some (h' j))
    {c d : Controller K} (h1 : run ⟨s⟩ (roundOps rs) = .ok c) (h2 : run ⟨t⟩ (roundOps rs') = .ok d)
    {M η : K} (hM : 0 ≤ M) (hη : 0 ≤ η) (huM : ∀ j < rs.length, |u j| ≤ M)
    (huη : ∀ j < rs.length, |u j - u' j| ≤ η) :
    ∃ a a', entry? c.accumulators name k i = some a ∧ entry? d.accumulators name' k' i' = some a' ∧
      |a - a'| ≤ |a0 - a0'| + (M * (2 * ∑ j ∈ Finset.range rs.length,
        |s.depression_constant * Graves.clip (h j) - t.depression_constant * Graves.clip (h' j)| +
          2 * s.epsilon + 2 * t.epsilon) + η) := by
  have g := (C04_graves_weights hs he0 he1 hd rs h1 u h hb ha hu hh).1
  have g' := (C04_graves_weights ht he0' he1' hd' rs' h2 u' h' hb' ha' hu' hh').1
  rw [← hlen] at g'
  refine ⟨_, _, g, g', ?_⟩
  rw [add_sub_add_comm]
  exact (abs_add_le _ _).trans (add_le_add le_rfl
    (Graves.sum_distance he0.le he1 he0'.le he1' hd hd' h h' u u' _ hη huM huη hM))

/-- C121, one controller and the same updates: changing the halting probabilities changes an accumulator entry by at
most the bound `M` of the updates times twice the depressed total change plus four epsilon. -/
theorem C121_halting_probabilities {s : ACTStates K} (hs : s.WF)
    (he0 : 0 < s.epsilon) (he1 : s.epsilon ≤ 1) (hd : 0 ≤ s.depression_constant)
    {name : String} {k : Nat} {i : List Nat} {a0 : K}
    (hb : s.probabilities.at? (i.take s.probabilities.shape.length) = some 0)
    (ha : entry? s.accumulators name k i = some a0)
    {rs rs' : List (Round K)} (hlen : rs.length = rs'.length) (u h h' : Nat → K)
    (hu : ∀ j r, rs[j]? = some r → entry? r.updates name k i = some (u j))
    (hu' : ∀ j r, rs'[j]? = some r → entry? r.updates name k i = some (u j))
    (hh : ∀ j r, rs[j]? = some r →
      r.halting.at? (i.take s.probabilities.shape.length) = some (h j))
    (hh' : ∀ j r, rs'[j]? = some r →
      r.halting.at? (i.take s.probabilities.shape.length) = some (h' j))
    {c d : Controller K} (h1 : run ⟨s⟩ (roundOps rs) = .ok c) (h2 : run ⟨s⟩ (roundOps rs') = .ok d)
    {M : K} (hM : 0 ≤ M) (huM : ∀ j < rs.length, |u j| ≤ M) :
    ∃ a a', entry? c.accumulators name k i = some a ∧ entry? d.accumulators name k i = some a' ∧
      |a - a'| ≤ M * (2 * s.depression_constant * ∑ j ∈ Finset.range rs.length, |h j - h' j| +
        4 * s.epsilon) := by
  obtain ⟨a, a', g, g', hle⟩ := C121_stability hs hs he0 he1 he0 he1 hd hd hb hb ha ha hlen u u h h' hu hu' hh hh'
    h1 h2 hM le_rfl huM (fun j _ => by simp)
  refine ⟨a, a', g, g', hle.trans ?_⟩
  rw [sub_self, abs_zero, zero_add, add_zero]
  refine mul_le_mul_of_nonneg_left ?_ hM
  have : ∑ j ∈ Finset.range rs.length,
      |s.depression_constant * Graves.clip (h j) - s.depression_constant * Graves.clip (h' j)| ≤
      s.depression_constant * ∑ j ∈ Finset.range rs.length, |h j - h' j| := by
    rw [Finset.mul_sum]
    refine Finset.sum_le_sum fun j _ => ?_
    rw [← mul_sub, abs_mul, abs_of_nonneg hd]
    exact mul_le_mul_of_nonneg_left (Graves.clip_lipschitz _ _) hd
  linarith

/-- C121, the jump is there and no smaller bound than one with epsilon is possible: for every `δ` from 0 to epsilon,
however small, raising the first halting probability from `1 - epsilon` by `δ` changes the result of two rounds by
epsilon times the difference of the two updates. -/
theorem C121_jump {s : ACTStates K} (hs : s.WF) (he0 : 0 < s.epsilon) (he1 : s.epsilon ≤ 1)
    (hd : s.depression_constant = 1) {name : String} {k : Nat} {i : List Nat} {a0 x y δ : K}
    (hδ : 0 < δ) (hδ' : δ ≤ s.epsilon)
    (hb : s.probabilities.at? (i.take s.probabilities.shape.length) = some 0)
    (ha : entry? s.accumulators name k i = some a0) {r1 r1' r2 : Round K}
    (hx : entry? r1.updates name k i = some x) (hx' : entry? r1'.updates name k i = some x)
    (hy : entry? r2.updates name k i = some y)
    (h1 : r1.halting.at? (i.take s.probabilities.shape.length) = some (1 - s.epsilon))
    (h1' : r1'.halting.at? (i.take s.probabilities.shape.length) = some (1 - s.epsilon + δ))
    (h2 : r2.halting.at? (i.take s.probabilities.shape.length) = some 1)
    {c d : Controller K} (hc : run ⟨s⟩ (roundOps [r1, r2]) = .ok c)
    (hc' : run ⟨s⟩ (roundOps [r1', r2]) = .ok d) :
    ∃ a a', entry? c.accumulators name k i = some a ∧ entry? d.accumulators name k i = some a' ∧
      a - a' = s.epsilon * (y - x) := by
  have pick : ∀ {β : Type} {f : Round K → Option β} {r : Round K} {v w : β}, f r = some v → f r2 = some w →
      ∀ t q, [r, r2][t]? = some q → f q = some (if t = 0 then v else w) := by
    intro β f r v w hv hw t q hq
    match t with
    | 0 => cases hq; exact hv
    | 1 => cases hq; exact hw
    | t + 2 => simp at hq
  have g := (C04_graves_weights hs he0 he1 (by rw [hd]; exact zero_le_one) _ hc _ _ hb ha
    (pick (f := fun r => entry? r.updates name k i) hx hy)
    (pick (f := fun r => r.halting.at? (i.take s.probabilities.shape.length)) h1 h2)).1
  have g' := (C04_graves_weights hs he0 he1 (by rw [hd]; exact zero_le_one) _ hc' _ _ hb ha
    (pick (f := fun r => entry? r.updates name k i) hx' hy)
    (pick (f := fun r => r.halting.at? (i.take s.probabilities.shape.length)) h1' h2)).1
  obtain ⟨j1, j2⟩ := Graves.jump he0 he1 hδ hδ'
    (h := fun t => if t = 0 then 1 - s.epsilon else 1) (h' := fun t => if t = 0 then 1 - s.epsilon + δ else 1)
    (by simp) (by simp) (by simp) (fun t => if t = 0 then x else y)
  refine ⟨_, _, g, g', ?_⟩
  rw [hd]
  change a0 + ∑ t ∈ Finset.range 2, _ - (a0 + ∑ t ∈ Finset.range 2, _) = _
  rw [j1, j2]
  simp only [if_true, one_ne_zero, if_false]
  ring

/-- C121 for `execute_act`.  Two layers with the same `max_iterations`, which may differ in everything else, start
from fresh controllers.  The results for an element of the one and an element of the other are as close as
`C121_stability` says, the sum being over the iterations of the loop that ran longer. -/
theorem C121_execute_act (make make' : PyTree (Leaf K) → K → Res (Made K))
    (rounds rounds' : PyTree (Leaf K) → Round K) (next next' : PyTree (Leaf K) → PyTree (Leaf K))
    (s0 s0' : PyTree (Leaf K)) (dep dep' : K) (max : Int) (check check' : Bool) {c0 c0' : Controller K}
    (hmake : make s0 dep = .ok (.ctrl c0)) (hmake' : make' s0' dep' = .ok (.ctrl c0'))
    (hwf : c0.state.WF) (hwf' : c0'.state.WF) (hdw : c0.state.DictsWF) (hdw' : c0'.state.DictsWF)
    (hops : ∀ t, ∀ nu ∈ (rounds (loopStates next s0 t)).updates, nu.2.WF)
    (hops' : ∀ t, ∀ nu ∈ (rounds' (loopStates next' s0' t)).updates, nu.2.WF)
    (he0 : 0 < c0.state.epsilon) (he1 : c0.state.epsilon ≤ 1)
    (he0' : 0 < c0'.state.epsilon) (he1' : c0'.state.epsilon ≤ 1)
    (hd : 0 ≤ c0.state.depression_constant) (hd' : 0 ≤ c0'.state.depression_constant)
    (hfresh : ∀ b p, c0.probabilities.at? b = some p → p = 0)
    (hfresh' : ∀ b p, c0'.probabilities.at? b = some p → p = 0)
    {c c' : Controller K} {s s' : PyTree (Leaf K)}
    (hr : (callLayer make (fun s => (rounds s).ops) next).ExecuteAct s0 dep max check (.ok (c, s)))
    (hr' : (callLayer make' (fun s => (rounds' s).ops) next').ExecuteAct s0' dep' max check' (.ok (c', s')))
    (h h' : List Nat → Nat → K)
    (hh : ∀ t b p, c0.probabilities.at? b = some p →
      (rounds (loopStates next s0 t)).halting.at? b = some (h b t))
    (hh' : ∀ t b p, c0'.probabilities.at? b = some p →
      (rounds' (loopStates next' s0' t)).halting.at? b = some (h' b t))
    {name name' : String} {l l' : Nat} {i i' : List Nat} {a0 a0' : K} (u u' : Nat → K)
    {b b' : List Nat} (hb : i.take c0.probabilities.shape.length = b)
    (hb' : i'.take c0'.probabilities.shape.length = b') (hbb : (c0.probabilities.at? b).isSome)
    (hbb' : (c0'.probabilities.at? b').isSome)
    (ha : entry? c0.accumulators name l i = some a0) (ha' : entry? c0'.accumulators name' l' i' = some a0')
    (hu : ∀ t, entry? (rounds (loopStates next s0 t)).updates name l i = some (u t))
    (hu' : ∀ t, entry? (rounds' (loopStates next' s0' t)).updates name' l' i' = some (u' t))
    {M η : K} (hM : 0 ≤ M) (hη : 0 ≤ η) (huM : ∀ j, |u j| ≤ M) (huη : ∀ j, |u j - u' j| ≤ η) :
    ∃ (n : Nat) (a a' : K), n ≤ max.toNat ∧ entry? c.accumulators name l i = some a ∧
      entry? c'.accumulators name' l' i' = some a' ∧
      |a - a'| ≤ |a0 - a0'| + (M * (2 * ∑ j ∈ Finset.range n,
        |c0.state.depression_constant * Graves.clip (h b j) -
          c0'.state.depression_constant * Graves.clip (h' b' j)| +
          2 * c0.state.epsilon + 2 * c0'.state.epsilon) + η) := by
  subst hb hb'
  obtain ⟨k, k1, -, -, k2⟩ := C61_execute_act_is_graves make rounds next s0 dep max check hmake hwf hdw hops he0 he1
    hd hfresh hr h
  obtain ⟨k', k1', -, -, k2'⟩ := C61_execute_act_is_graves make' rounds' next' s0' dep' max check' hmake' hwf' hdw'
    hops' he0' he1' hd' hfresh' hr' h'
  obtain ⟨-, g, stop, -⟩ := k2 fun t _ => hh t
  obtain ⟨-, g', stop', -⟩ := k2' fun t _ => hh' t
  have g := g name l i a0 u ha fun t _ => hu t
  have g' := g' name' l' i' a0' u' ha' fun t _ => hu' t
  -- both sums up to the larger number of iterations
  have pad : ∀ {eps dc : K} {f v : Nat → K} {k n : Nat}, k ≤ n → (k < n → Graves.Crossed eps dc f k) →
      ∑ t ∈ Finset.range k, Graves.weight eps dc f t * v t = ∑ t ∈ Finset.range n, Graves.weight eps dc f t * v t := by
    intro eps dc f v k n hkn hx
    refine Finset.sum_subset (fun t ht => Finset.mem_range.2 ((Finset.mem_range.1 ht).trans_le hkn)) ?_
    intro t htn htk
    rw [Finset.mem_range] at htn htk
    have hkt : k ≤ t := not_lt.1 htk
    rw [Graves.weight_of_crossed ((hx (hkt.trans_lt htn)).mono hkt), zero_mul]
  obtain ⟨p, hp⟩ := Option.isSome_iff_exists.1 hbb
  obtain ⟨p', hp'⟩ := Option.isSome_iff_exists.1 hbb'
  rw [pad (le_max_left k k') fun hlt => by
    rcases stop with stop | stop
    · exact stop _ _ hp
    · have := lt_max_iff.1 hlt; omega] at g
  rw [pad (le_max_right k k') fun hlt => by
    rcases stop' with stop' | stop'
    · exact stop' _ _ hp'
    · have := lt_max_iff.1 hlt; omega] at g'
  refine ⟨_, _, _, Nat.max_le.2 ⟨k1, k1'⟩, g, g', ?_⟩
  rw [add_sub_add_comm]
  exact (abs_add_le _ _).trans (add_le_add le_rfl
    (Graves.sum_distance he0.le he1 he0'.le he1' hd hd' _ _ u u' _ hη (fun j _ => huM j) (fun j _ => huη j) hM))

section Example
open Fixtures

/-- Two concrete runs, epsilon 1/10.  The first halting probability of element 0 is exactly at the threshold in the one
and 1/1000 above it in the other; the updates are 4 and 14.  The results are 5 and 4. -/
theorem C121_example : ∃ c d a a', run ⟨simple⟩ (roundOps [sround [9/10, 1/2] 4 6, sround [1, 1/2] 14 6]) = .ok c ∧
    run ⟨simple⟩ (roundOps [sround [901/1000, 1/2] 4 6, sround [1, 1/2] 14 6]) = .ok d ∧
    entry? c.accumulators "out" 0 [0, 0] = some a ∧ entry? d.accumulators "out" 0 [0, 0] = some a' ∧
    a - a' = 1/10 * (14 - 4) ∧ |a - a'| ≤ 14 * (2 * 1 * (1/1000) + 4 * (1/10)) := by
  have o1 : obs (run ⟨simple⟩ (roundOps [sround [9/10, 1/2] 4 6, sround [1, 1/2] 14 6]))
      (fun c => entry? c.accumulators "out" 0 [0, 0]) = some 5 := by decide +kernel
  have o2 : obs (run ⟨simple⟩ (roundOps [sround [901/1000, 1/2] 4 6, sround [1, 1/2] 14 6]))
      (fun c => entry? c.accumulators "out" 0 [0, 0]) = some 4 := by decide +kernel
  cases hc : run ⟨simple⟩ (roundOps [sround [9/10, 1/2] 4 6, sround [1, 1/2] 14 6]) with
  | error e => rw [hc] at o1; cases o1
  | ok c =>
    cases hc' : run ⟨simple⟩ (roundOps [sround [901/1000, 1/2] 4 6, sround [1, 1/2] 14 6]) with
    | error e => rw [hc'] at o2; cases o2
    | ok d =>
      rw [hc] at o1
      rw [hc'] at o2
      have o1 : entry? c.accumulators "out" 0 [0, 0] = some 5 := o1
      have o2 : entry? d.accumulators "out" 0 [0, 0] = some 4 := o2
      obtain ⟨a, a', h1, h2, h3⟩ := C121_jump simple_wf (by norm_num [simple, fresh]) (by norm_num [simple, fresh])
        rfl (name := "out") (k := 0) (i := [0, 0]) (a0 := 0) (x := 4) (y := 14) (δ := 1/1000) (by norm_num)
        (by norm_num [simple, fresh]) (by decide +kernel) (by decide +kernel) (by decide +kernel) (by decide +kernel)
        (by decide +kernel) (by decide +kernel) (by decide +kernel) (by decide +kernel) hc hc'
      obtain ⟨b, b', g1, g2, g3⟩ := C121_halting_probabilities simple_wf (by norm_num [simple, fresh])
        (by norm_num [simple, fresh]) (by norm_num [simple, fresh]) (name := "out") (k := 0) (i := [0, 0]) (a0 := 0)
        (by decide +kernel) (by decide +kernel) (rs := [sround [9/10, 1/2] 4 6, sround [1, 1/2] 14 6])
        (rs' := [sround [901/1000, 1/2] 4 6, sround [1, 1/2] 14 6]) rfl (fun t => if t = 0 then 4 else 14)
        (fun t => if t = 0 then 9/10 else 1) (fun t => if t = 0 then 901/1000 else 1)
        (by
          intro t r hr
          match t with
          | 0 => cases hr; decide +kernel
          | 1 => cases hr; decide +kernel
          | t + 2 => simp at hr)
        (by
          intro t r hr
          match t with
          | 0 => cases hr; decide +kernel
          | 1 => cases hr; decide +kernel
          | t + 2 => simp at hr)
        (by
          intro t r hr
          match t with
          | 0 => cases hr; decide +kernel
          | 1 => cases hr; decide +kernel
          | t + 2 => simp at hr)
        (by
          intro t r hr
          match t with
          | 0 => cases hr; decide +kernel
          | 1 => cases hr; decide +kernel
          | t + 2 => simp at hr)
        hc hc' (M := 14) (by norm_num) (fun j _ => by split <;> norm_num)
      refine ⟨c, d, a, a', rfl, rfl, h1, h2, h3, ?_⟩
      cases Option.some.inj (h1.symm.trans g1)
      cases Option.some.inj (h2.symm.trans g2)
      refine g3.trans (le_of_eq ?_)
      change (14 : ℚ) * (2 * 1 * ∑ j ∈ Finset.range 2, _ + 4 * (1/10)) = _
      rw [Finset.sum_range_succ, Finset.sum_range_one]
      norm_num [abs_of_nonpos]

theorem demo_at (x y : ℚ) (t : Nat) : loopStates id (bare (vec [x, y])) t = bare (vec [x, y]) := by
  induction t with
  | zero => rfl
  | succ t ih => show (id (loopStates id _ t)).canon = _; rw [ih]; rfl

/-- The example layer on a batch with halting probabilities `1/2, 2/3` and on one with `3/5, 2/3`: the theorem applies
to the two calls. -/
theorem C121_example_execute_act : ∃ c s c' s' n a a',
    demoLayer.ExecuteAct (bare (vec [1/2, 2/3])) 1 9 true (.ok (c, s)) ∧
    demoLayer.ExecuteAct (bare (vec [3/5, 2/3])) 1 9 true (.ok (c', s')) ∧ n ≤ 9 ∧
    entry? c.accumulators "out" 0 [0, 0] = some a ∧ entry? c'.accumulators "out" 0 [0, 0] = some a' ∧
    |a - a'| ≤ 4 * (2 * ∑ _j ∈ Finset.range n, |(1/2 : ℚ) - 3/5| + 4 * (1/10)) := by
  obtain ⟨c, s, r1⟩ := demo_executes 9 true
  obtain ⟨c', s', r2⟩ : ∃ c s, demoLayer.ExecuteAct (bare (vec [3/5, 2/3])) 1 9 true (.ok (c, s)) := by
    have hok : succeeds (run ⟨simple⟩ (demoRound (bare (vec [3/5, 2/3]))).ops) = true := by decide +kernel
    cases hr : run ⟨simple⟩ (demoRound (bare (vec [3/5, 2/3]))).ops with
    | error e => rw [hr] at hok; cases hok
    | ok c1 =>
      refine C50_execute_act_succeeds _ demoRound id true ⟨simple⟩ c1 _ 1 9 rfl simple_wf rfl
        (by simp [simple]) simple_idle (vec_tensors _) ?_ hr
      refine ⟨fun s hs => ?_, fun s hs => hs⟩
      obtain ⟨l, rfl⟩ := hs.leaf_iff.1 ⟨_, rfl⟩
      have h2 := hs.2
      simp only [bare, treeLeaves, PyTree.canon, leaves, List.map_cons, List.map_nil, List.cons.injEq,
        and_true] at h2
      obtain ⟨t, rfl, h3, h4⟩ := Leaf.type_some.1 h2.symm
      exact .cons (.cache _ (.refl _)) (.cons (.iterate ⟨h3.symm, h4.symm⟩) .nil)
  have upd : ∀ x y t, ∀ nu ∈ (demoRound (loopStates id (bare (vec [x, y])) t)).updates, nu.2.WF := by
    intro x y t nu hnu
    rw [demo_at] at hnu
    cases List.mem_singleton.1 hnu
    trivial
  have zero : ∀ b p, simple.probabilities.at? b = some p → p = 0 := by
    intro b p hb
    rcases vec_two hb with ⟨-, rfl⟩ | ⟨-, rfl⟩ <;> rfl
  have halt : ∀ (x y : ℚ) (t : Nat) b p, simple.probabilities.at? b = some p →
      (demoRound (loopStates id (bare (vec [x, y])) t)).halting.at? b = some (if b = [0] then x else y) := by
    intro x y t b p hb
    rw [demo_at]
    rcases vec_two hb with ⟨rfl, -⟩ | ⟨rfl, -⟩
    · simp [demoRound, bare, vec, Arr.at?, InB]
    · simp [demoRound, bare, vec, Arr.at?, InB]
  obtain ⟨n, a, a', h1, h2, h3, h4⟩ := C121_execute_act _ _ demoRound demoRound id id (bare (vec [1/2, 2/3]))
    (bare (vec [3/5, 2/3])) 1 1 9 true true (c0 := ⟨simple⟩) (c0' := ⟨simple⟩) rfl rfl simple_wf simple_wf
    simple_dictsWF simple_dictsWF (upd _ _) (upd _ _) (by decide +kernel) (by decide +kernel) (by decide +kernel)
    (by decide +kernel) (by decide +kernel) (by decide +kernel) zero zero r1 r2
    (fun b _ => if b = [0] then 1/2 else 2/3) (fun b _ => if b = [0] then 3/5 else 2/3)
    (halt _ _) (halt _ _) (name := "out") (name' := "out") (l := 0) (l' := 0) (i := [0, 0]) (i' := [0, 0])
    (a0 := 0) (a0' := 0) (fun _ => 4) (fun _ => 4) (b := [0]) (b' := [0]) rfl rfl (by decide +kernel)
    (by decide +kernel) (by decide +kernel) (by decide +kernel) (fun t => by rw [demo_at]; decide +kernel)
    (fun t => by rw [demo_at]; decide +kernel) (M := 4) (η := 0) (by norm_num) le_rfl (fun _ => by norm_num)
    (fun _ => by norm_num)
  refine ⟨c, s, c', s', n, a, a', r1, r2, h1, h2, h3, h4.trans (le_of_eq ?_)⟩
  have e1 : simple.depression_constant = 1 := rfl
  have e2 : simple.epsilon = 1/10 := rfl
  have c1 : Graves.clip (1/2 : ℚ) = 1/2 := by decide +kernel
  have c2 : Graves.clip (3/5 : ℚ) = 3/5 := by decide +kernel
  simp only [e1, e2, c1, c2, if_true, one_mul]
  rw [sub_zero, abs_zero]
  ring

end Example
end JaxAct
