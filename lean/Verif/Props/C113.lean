import Verif.Props.C04
import Mathlib.Analysis.Convex.Jensen
import Mathlib.Analysis.Convex.StdSimplex

/-!
# C113 Convex constraints survive, and Jensen's inequality holds

What a halted element has accumulated is a convex combination of the updates it was given while it was running.
-/

namespace JaxAct
open ACTStates
variable {K : Type} [Field K] [LinearOrder K] [IsStrictOrderedRing K]
attribute [local instance] Arith.exact

omit [IsStrictOrderedRing K] in
theorem Graves.weight_crossed {eps dep : K} {h : Nat → K} {t : Nat} (hc : Crossed eps dep h t) :
    weight eps dep h t = 0 := by
  have hc' : Crossed eps dep h (t + 1) := by
    obtain ⟨j, hj, hlt⟩ := hc
    exact ⟨j, by omega, hlt⟩
  unfold weight
  rw [if_neg (not_not.2 hc'), if_neg (not_not.2 hc)]

/-- The weights of a run that ends with an element halted, as a convex combination of the iterations in which it was
running. -/
theorem running_combination {ι : Type} {s : ACTStates K} (hwf : s.WF) (he0 : 0 < s.epsilon) (he1 : s.epsilon ≤ 1)
    (hdep : 0 ≤ s.depression_constant) (rs : List (Round K)) {c : Controller K}
    (hrun : run ⟨s⟩ (roundOps rs) = .ok c) {b : List Nat} {name : ι → String} {leaf : ι → Nat} {idx : ι → List Nat}
    (hidx : ∀ j, (idx j).take s.probabilities.shape.length = b) (hfresh : s.probabilities.at? b = some 0)
    (hacc : ∀ j, entry? s.accumulators (name j) (leaf j) (idx j) = some 0) (u : Nat → ι → K) (h : Nat → K)
    (hu : ∀ t r, rs[t]? = some r → ∀ j, entry? r.updates (name j) (leaf j) (idx j) = some (u t j))
    (hh : ∀ t r, rs[t]? = some r → r.halting.at? b = some (h t)) (hhalt : c.haltedBatches.at? b = some true) :
    ∃ (T : Finset Nat) (w : Nat → K),
      (∀ t ∈ T, t < rs.length ∧ ¬ Graves.Crossed s.epsilon s.depression_constant h t) ∧ (∀ t ∈ T, 0 ≤ w t) ∧
      ∑ t ∈ T, w t = 1 ∧
      ∀ j, entry? c.accumulators (name j) (leaf j) (idx j) = some (∑ t ∈ T, w t * u t j) := by
  have hx := (C04_probability_and_halting hwf he0 he1 hdep rs hrun h hfresh hh).2.1 hhalt
  have hs := Graves.sum_weight_of_crossed (by linarith) hx
  have hf : ∀ f : Nat → K, ∑ t ∈ (Finset.range rs.length).filter fun t => ¬ Graves.Crossed s.epsilon
      s.depression_constant h t, Graves.weight s.epsilon s.depression_constant h t * f t =
      ∑ t ∈ Finset.range rs.length, Graves.weight s.epsilon s.depression_constant h t * f t := by
    intro f
    refine Finset.sum_subset (Finset.filter_subset _ _) fun t ht hn => ?_
    have : Graves.Crossed s.epsilon s.depression_constant h t := by
      by_contra hc
      exact hn (Finset.mem_filter.2 ⟨ht, hc⟩)
    rw [Graves.weight_crossed this, zero_mul]
  refine ⟨(Finset.range rs.length).filter fun t => ¬ Graves.Crossed s.epsilon s.depression_constant h t,
    Graves.weight s.epsilon s.depression_constant h,
    fun t ht => ⟨Finset.mem_range.1 (Finset.mem_filter.1 ht).1, (Finset.mem_filter.1 ht).2⟩,
    fun t _ => Graves.weight_nonneg hdep he0.le, ?_, fun j => ?_⟩
  · have := hf fun _ => 1
    simp only [mul_one] at this
    rw [this, hs]
  · obtain ⟨g, -⟩ := C04_graves_weights hwf he0 he1 hdep rs hrun (fun t => u t j) h
      (by rw [hidx]; exact hfresh) (hacc j) (fun t r hr => hu t r hr j)
      (fun t r hr => by rw [hidx]; exact hh t r hr)
    rw [g, zero_add, hf]

/-- C113.  Some entries of the accumulators of a batch element start at zero, the element with cumulative probability
zero.  If the updates for these entries satisfy a convex constraint `S` in every iteration in which the element is
running, then so does what is accumulated, once the element is halted. -/
theorem C113_convex {ι : Type} {S : Set (ι → K)} (hS : Convex K S) {s : ACTStates K} (hwf : s.WF)
    (he0 : 0 < s.epsilon) (he1 : s.epsilon ≤ 1) (hdep : 0 ≤ s.depression_constant) (rs : List (Round K))
    {c : Controller K} (hrun : run ⟨s⟩ (roundOps rs) = .ok c) {b : List Nat} {name : ι → String} {leaf : ι → Nat}
    {idx : ι → List Nat} (hidx : ∀ j, (idx j).take s.probabilities.shape.length = b)
    (hfresh : s.probabilities.at? b = some 0)
    (hacc : ∀ j, entry? s.accumulators (name j) (leaf j) (idx j) = some 0) (u : Nat → ι → K) (h : Nat → K)
    (hu : ∀ t r, rs[t]? = some r → ∀ j, entry? r.updates (name j) (leaf j) (idx j) = some (u t j))
    (hh : ∀ t r, rs[t]? = some r → r.halting.at? b = some (h t))
    (hmem : ∀ t < rs.length, ¬ Graves.Crossed s.epsilon s.depression_constant h t → u t ∈ S)
    (hhalt : c.haltedBatches.at? b = some true) :
    ∃ x ∈ S, ∀ j, entry? c.accumulators (name j) (leaf j) (idx j) = some (x j) := by
  obtain ⟨T, w, h1, h2, h3, h4⟩ := running_combination hwf he0 he1 hdep rs hrun hidx hfresh hacc u h hu hh hhalt
  refine ⟨∑ t ∈ T, w t • u t, hS.sum_mem h2 h3 fun t ht => hmem t (h1 t ht).1 (h1 t ht).2, fun j => ?_⟩
  rw [h4, Finset.sum_apply]
  rfl

/-- C113, distributions: updates that are probability distributions over `ι` accumulate to one. -/
theorem C113_distribution {ι : Type} [Fintype ι] {s : ACTStates K} (hwf : s.WF)
    (he0 : 0 < s.epsilon) (he1 : s.epsilon ≤ 1) (hdep : 0 ≤ s.depression_constant) (rs : List (Round K))
    {c : Controller K} (hrun : run ⟨s⟩ (roundOps rs) = .ok c) {b : List Nat} {name : ι → String} {leaf : ι → Nat}
    {idx : ι → List Nat} (hidx : ∀ j, (idx j).take s.probabilities.shape.length = b)
    (hfresh : s.probabilities.at? b = some 0)
    (hacc : ∀ j, entry? s.accumulators (name j) (leaf j) (idx j) = some 0) (u : Nat → ι → K) (h : Nat → K)
    (hu : ∀ t r, rs[t]? = some r → ∀ j, entry? r.updates (name j) (leaf j) (idx j) = some (u t j))
    (hh : ∀ t r, rs[t]? = some r → r.halting.at? b = some (h t))
    (hpos : ∀ t < rs.length, ∀ j, 0 ≤ u t j) (hsum : ∀ t < rs.length, ∑ j, u t j = 1)
    (hhalt : c.haltedBatches.at? b = some true) :
    ∃ x : ι → K, (∀ j, 0 ≤ x j) ∧ ∑ j, x j = 1 ∧
      ∀ j, entry? c.accumulators (name j) (leaf j) (idx j) = some (x j) := by
  obtain ⟨x, ⟨h1, h2⟩, h3⟩ := C113_convex (convex_stdSimplex K ι) hwf he0 he1 hdep rs hrun hidx hfresh hacc u h hu hh
    (fun t ht _ => ⟨hpos t ht, hsum t ht⟩) hhalt
  exact ⟨x, h1, h2, h3⟩

/-- C113, Jensen's inequality.  A further entry accumulates a convex function `f` of the updates for the others, a loss
for example.  Once the element is halted, `f` of what is accumulated is at most what that entry has accumulated. -/
theorem C113_jensen {ι : Type} {S : Set (ι → K)} {f : (ι → K) → K} (hf : ConvexOn K S f) {s : ACTStates K} (hwf : s.WF)
    (he0 : 0 < s.epsilon) (he1 : s.epsilon ≤ 1) (hdep : 0 ≤ s.depression_constant) (rs : List (Round K))
    {c : Controller K} (hrun : run ⟨s⟩ (roundOps rs) = .ok c) {b : List Nat} {name : ι → String} {leaf : ι → Nat}
    {idx : ι → List Nat} (hidx : ∀ j, (idx j).take s.probabilities.shape.length = b) {lname : String} {lleaf : Nat}
    {lidx : List Nat} (hlidx : lidx.take s.probabilities.shape.length = b) (hfresh : s.probabilities.at? b = some 0)
    (hacc : ∀ j, entry? s.accumulators (name j) (leaf j) (idx j) = some 0)
    (hlacc : entry? s.accumulators lname lleaf lidx = some 0) (u : Nat → ι → K) (h : Nat → K)
    (hu : ∀ t r, rs[t]? = some r → ∀ j, entry? r.updates (name j) (leaf j) (idx j) = some (u t j))
    (hlu : ∀ t r, rs[t]? = some r → entry? r.updates lname lleaf lidx = some (f (u t)))
    (hh : ∀ t r, rs[t]? = some r → r.halting.at? b = some (h t))
    (hmem : ∀ t < rs.length, ¬ Graves.Crossed s.epsilon s.depression_constant h t → u t ∈ S)
    (hhalt : c.haltedBatches.at? b = some true) :
    ∃ x ∈ S, (∀ j, entry? c.accumulators (name j) (leaf j) (idx j) = some (x j)) ∧
      ∃ l, entry? c.accumulators lname lleaf lidx = some l ∧ f x ≤ l := by
  obtain ⟨T, w, h1, h2, h3, h4⟩ := running_combination (ι := Option ι) hwf he0 he1 hdep rs hrun (b := b)
    (name := fun o => o.elim lname name) (leaf := fun o => o.elim lleaf leaf) (idx := fun o => o.elim lidx idx)
    (fun o => by cases o with | none => exact hlidx | some j => exact hidx j) hfresh
    (fun o => by cases o with | none => exact hlacc | some j => exact hacc j)
    (fun t o => o.elim (f (u t)) (u t)) h
    (fun t r hr o => by cases o with | none => exact hlu t r hr | some j => exact hu t r hr j) hh hhalt
  have hm : ∀ t ∈ T, u t ∈ S := fun t ht => hmem t (h1 t ht).1 (h1 t ht).2
  refine ⟨∑ t ∈ T, w t • u t, hf.1.sum_mem h2 h3 hm, fun j => ?_, _, h4 none, hf.map_sum_le h2 h3 hm⟩
  have := h4 (some j)
  rw [Finset.sum_apply]
  exact this

section Example
open Fixtures

/-- A round for `fresh` in which element 0 is given `x` for `out` and `y` for the first leaf of `tree`. -/
def twoEntries (h x y : ℚ) : Round ℚ :=
  ⟨[("out", bare (col x 0)), ("tree", pair (vec [y, 0]) (col 0 0))], vec [h, 1]⟩

theorem two_get {f : Nat → Round ℚ} {n t : Nat} {r : Round ℚ} (h : ((List.range n).map f)[t]? = some r) : r = f t := by
  simp only [List.getElem?_map, Option.map_eq_some_iff] at h
  obtain ⟨a, ha, rfl⟩ := h
  obtain ⟨hlt, e⟩ := List.getElem?_eq_some_iff.1 ha
  rw [List.getElem_range] at e
  subst e
  rfl

theorem square_convex : ConvexOn ℚ Set.univ fun x : Unit → ℚ => x () * x () := by
  refine ⟨convex_univ, fun x _ y _ a b ha hb hab => ?_⟩
  simp only [Pi.add_apply, Pi.smul_apply, smul_eq_mul]
  have e : b = 1 - a := by linarith
  subst e
  nlinarith [mul_nonneg (mul_nonneg ha hb) (mul_self_nonneg (x () - y ()))]

/-- Three iterations with updates 0, 2 and 4, and their squares for the other entry: the theorem applies, and the
numbers are `8/5` and `24/5`. -/
theorem C113_example :
    (∃ c, run ⟨fresh⟩ (roundOps ((List.range 3).map fun t : Nat => twoEntries (2/5) (2 * t) (2 * t * (2 * t)))) = .ok c ∧
      ∃ x l, entry? c.accumulators "out" 0 [0, 0] = some x ∧ entry? c.accumulators "tree" 0 [0] = some l ∧ x * x ≤ l) ∧
    obs (run ⟨fresh⟩ (roundOps ((List.range 3).map fun t : Nat => twoEntries (2/5) (2 * t) (2 * t * (2 * t))))) (fun c =>
      some (c.haltedBatches.at? [0], entry? c.accumulators "out" 0 [0, 0], entry? c.accumulators "tree" 0 [0])) =
      some (some true, some (8/5), some (24/5)) := by
  have ho : obs (run ⟨fresh⟩ (roundOps ((List.range 3).map fun t : Nat => twoEntries (2/5) (2 * t) (2 * t * (2 * t)))))
      (fun c => some (c.haltedBatches.at? [0], entry? c.accumulators "out" 0 [0, 0],
        entry? c.accumulators "tree" 0 [0])) = some (some true, some (8/5), some (24/5)) := by decide +kernel
  refine ⟨?_, ho⟩
  cases e : run ⟨fresh⟩ (roundOps ((List.range 3).map fun t : Nat => twoEntries (2/5) (2 * t) (2 * t * (2 * t)))) with
  | error e' => rw [e] at ho; cases ho
  | ok c =>
    rw [e] at ho
    have ho' : some (c.haltedBatches.at? [0], entry? c.accumulators "out" 0 [0, 0],
        entry? c.accumulators "tree" 0 [0]) = some (some true, some (8/5), some (24/5)) := ho
    simp only [Option.some.injEq, Prod.mk.injEq] at ho'
    obtain ⟨x, -, h1, l, h2, h3⟩ := C113_jensen square_convex fresh_wf (by norm_num [fresh]) (by norm_num [fresh])
      (by norm_num [fresh]) _ e (b := [0]) (name := fun _ => "out") (leaf := fun _ => 0) (idx := fun _ => [0, 0])
      (fun _ => rfl) (lname := "tree") (lleaf := 0) (lidx := [0]) rfl (by decide +kernel)
      (fun _ => by decide +kernel) (by decide +kernel) (fun t _ => 2 * t) (fun _ => 2/5)
      (fun t r hr j => by obtain rfl := two_get hr; rfl) (fun t r hr => by obtain rfl := two_get hr; rfl)
      (fun t r hr => by obtain rfl := two_get hr; rfl) (fun _ _ _ => trivial) ho'.1
    exact ⟨c, rfl, x (), l, h1 (), h2, h3⟩

/-- Three distributions over two classes: the theorem applies. -/
theorem C113_example_distribution :
    (∃ c, run ⟨fresh⟩ (roundOps ((List.range 3).map fun t : Nat => twoEntries (2/5) (1 / (t + 1)) (1 - 1 / (t + 1)))) = .ok c ∧
      ∃ x y, entry? c.accumulators "out" 0 [0, 0] = some x ∧ entry? c.accumulators "tree" 0 [0] = some y ∧
        0 ≤ x ∧ 0 ≤ y ∧ x + y = 1) := by
  have ho : obs (run ⟨fresh⟩ (roundOps ((List.range 3).map fun t : Nat => twoEntries (2/5) (1 / (t + 1)) (1 - 1 / (t + 1)))))
      (fun c => some (c.haltedBatches.at? [0])) = some (some true) := by decide +kernel
  cases e : run ⟨fresh⟩ (roundOps ((List.range 3).map fun t : Nat => twoEntries (2/5) (1 / (t + 1)) (1 - 1 / (t + 1)))) with
  | error e' => rw [e] at ho; cases ho
  | ok c =>
    rw [e] at ho
    have ho' : some (c.haltedBatches.at? [0]) = some (some true) := ho
    obtain ⟨x, h1, h2, h3⟩ := C113_distribution fresh_wf (by norm_num [fresh]) (by norm_num [fresh])
      (by norm_num [fresh]) _ e (b := [0]) (ι := Bool) (name := fun j => if j then "tree" else "out")
      (leaf := fun _ => 0) (idx := fun j => if j then [0] else [0, 0])
      (fun j => by cases j <;> rfl) (by decide +kernel) (fun j => by cases j <;> decide +kernel)
      (fun t j => if j then 1 - 1 / (t + 1) else 1 / (t + 1)) (fun _ => 2/5)
      (fun t r hr j => by obtain rfl := two_get hr; cases j <;> rfl)
      (fun t r hr => by obtain rfl := two_get hr; rfl) (fun t _ j => by
        have : (1 : ℚ) / (t + 1) ≤ 1 := by
          rw [div_le_one (by positivity)]; linarith [(Nat.cast_nonneg t : (0 : ℚ) ≤ t)]
        cases j with
        | false => simp only [Bool.false_eq_true, if_false]; positivity
        | true => simp only [if_true]; linarith)
      (fun t _ => by simp) (Option.some.inj ho')
    rw [Fintype.sum_bool] at h2
    exact ⟨c, rfl, x false, x true, h3 false, h3 true, h1 false, h1 true, by linarith⟩

end Example

end JaxAct
