import Verif.Props.C02
import Mathlib.Algebra.Order.Floor.Semiring
import Mathlib.Algebra.Order.Archimedean.Basic

/-! # C17 Halting is reached -/

namespace JaxAct
variable {K : Type} [Field K] [LinearOrder K] [IsStrictOrderedRing K]
attribute [local instance] Arith.exact

/-- Number of `iterate_act` calls in a history. -/
def countIterates {α : Type} : List (Op α) → Nat
  | [] => 0
  | .iterate _ :: ops => countIterates ops + 1
  | _ :: ops => countIterates ops

/-- Every halting tensor passed at `b` in the history is at least `c`. -/
def HaltingAtLeast (c : K) (ops : List (Op K)) : Prop :=
  ∀ h, Op.iterate h ∈ ops → ∀ b x, h.at? b = some x → c ≤ x

/-- The potential argument: each iteration adds at least `q` until the element is halted. -/
theorem potential {c : K} (hc1 : c ≤ 1) : ∀ (ops : List (Op K)) {s : ACTStates K}
    {c' : Controller K}, s.WF → 0 < s.epsilon → 0 ≤ s.depression_constant →
    (∀ op ∈ ops, op.NotReset) → HaltingAtLeast c ops → run ⟨s⟩ ops = .ok c' →
    ∀ b p, s.probabilities.at? b = some p →
      c'.haltedBatches.at? b = some true ∨
      ∃ p', c'.probabilities.at? b = some p' ∧
        p + countIterates ops * (s.depression_constant * c) ≤ p'
  | [], s, c', hwf, _, _, _, _, hrun, b, p, hp => by
    cases hrun
    exact .inr ⟨p, hp, by simp [countIterates]⟩
  | .cache n t :: ops, s, c', hwf, he, hd, hn, hh, hrun, b, p, hp => by
    simp only [run, bind_ok, Op.call] at hrun
    obtain ⟨⟨s1⟩, h1, h2⟩ := hrun
    have st := Controller.cacheUpdate_ok_iff.1 h1
    have hwf1 := Controller.CacheStep.wf hwf st
    obtain ⟨-, rfl⟩ := st
    exact potential hc1 ops hwf1 he hd (fun op ho => hn op (by simp [ho]))
      (fun h hm => hh h (by simp [hm])) h2 b p hp
  | .iterate h :: ops, s, c', hwf, he, hd, hn, hh, hrun, b, p, hp => by
    simp only [run, bind_ok, Op.call] at hrun
    obtain ⟨⟨s1⟩, h1, h2⟩ := hrun
    have st := Controller.iterateAct_ok hwf h1
    have hwf1 := Controller.IterStep.wf hwf st
    obtain ⟨r, n, x, -, -, hx, hc, -, -⟩ := st.cellAt hwf hp
    simp only at st hwf1 hc
    have hn' : ∀ op ∈ ops, op.NotReset := fun op ho => hn op (by simp [ho])
    have he1 : 0 < s1.epsilon := by rw [st.epsilon]; exact he
    have hd1 : 0 ≤ s1.depression_constant := by rw [st.depression]; exact hd
    by_cases hcr : Spec.crosses s.probabilities.dtype s.epsilon s.depression_constant p
        (convS h.dtype s.probabilities.dtype x) = true
    · left
      refine C02_halted_stays_halted hwf1 he1 hd1 ?_ ops hn' h2
      rw [halted_iff hwf1.floating]
      refine ⟨_, hc, ?_⟩
      rw [st.pdtype, st.epsilon, Spec.halted_step_iff he]
      exact hcr
    · have ih := potential hc1 ops hwf1 he1 hd1 hn' (fun h hm => hh h (by simp [hm])) h2 b _ hc
      rcases ih with ih | ⟨p', hp', hle⟩
      · exact .inl ih
      · refine .inr ⟨p', hp', le_trans ?_ hle⟩
        rw [Spec.step_prob, Spec.weight_of_not (Bool.eq_false_iff.2 hcr), st.depression]
        have hcx : c ≤ x := hh h (by simp) b x hx
        have hcl : c ≤ Spec.clamp (convS h.dtype s.probabilities.dtype x) := by
          rw [Spec.convS_exact, Spec.clamp_eq]
          exact le_inf hc1 (le_trans hcx le_sup_right)
        have := mul_le_mul_of_nonneg_left hcl hd
        simp only [countIterates, Nat.cast_add, Nat.cast_one]
        linarith
  | .reset :: ops, s, c', _, _, _, hn, _, _, _, _, _ => absurd (hn .reset (by simp)) (by simp [Op.NotReset])

/-- C17, sharp form: `N` iterations with halting probabilities at least `c` halt every element that
started at `p` with `p + N * (depression * c) > 1 - epsilon`. -/
theorem C17_halting_reached_sharp {s : ACTStates K} (hwf : s.WF) (he : 0 < s.epsilon)
    (hd : 0 ≤ s.depression_constant) {c : K} (hc1 : c ≤ 1) {ops : List (Op K)}
    (hn : ∀ op ∈ ops, op.NotReset) (hh : HaltingAtLeast c ops) {c' : Controller K}
    (hrun : run ⟨s⟩ ops = .ok c') {b : List Nat} {p : K} (hp : s.probabilities.at? b = some p)
    (hN : 1 - s.epsilon < p + countIterates ops * (s.depression_constant * c)) :
    c'.haltedBatches.at? b = some true := by
  rcases potential hc1 ops hwf he hd hn hh hrun b p hp with h | ⟨p', hp', hle⟩
  · exact h
  · have hwf' := run_wf hwf hrun
    have heps : c'.state.epsilon = s.epsilon := by
      refine (run_induction (Inv := fun t => t.epsilon = s.epsilon) ?_ ?_ ?_ ops hwf rfl hrun).2
      · rintro t n x t' - ⟨-, rfl⟩ h; exact h
      · rintro t h t' - st h'; exact st.epsilon.trans h'
      · rintro t t' - st h'; exact st.epsilon.trans h'
    refine (halted_iff (s := c'.state) hwf'.floating).2 ⟨p', hp', ?_⟩
    rw [Spec.isHalted_iff, heps]
    exact lt_of_lt_of_le hN hle

/-- C17.  If every halting probability is at least `c`, `q = depression * c > 0` and `epsilon > 0`,
then after `floor(1/q) + 1` (or more) iterations every batch element is halted, so
`is_completely_halted` is true. -/
theorem C17_halting_reached [FloorSemiring K] {s : ACTStates K} (hwf : s.WF) (he : 0 < s.epsilon)
    (hd : 0 ≤ s.depression_constant)
    (hp : ∀ b p, s.probabilities.at? b = some p → 0 ≤ p) {c q : K} (hc1 : c ≤ 1)
    (hq : q = s.depression_constant * c) (hq0 : 0 < q) {ops : List (Op K)}
    (hn : ∀ op ∈ ops, op.NotReset) (hh : HaltingAtLeast c ops)
    (hN : ⌊1 / q⌋₊ + 1 ≤ countIterates ops) {c' : Controller K} (hrun : run ⟨s⟩ ops = .ok c') :
    c'.isCompletelyHalted = true := by
  unfold Controller.isCompletelyHalted
  rw [Arr.all_iff]
  intro b x hx
  have hwf' := run_wf hwf hrun
  obtain ⟨p', hp', -⟩ := (halted_iff (s := c'.state) hwf'.floating).1 hx
  have hsh : c'.state.probabilities.shape = s.probabilities.shape := by
    refine (run_induction (Inv := fun t => t.probabilities.shape = s.probabilities.shape)
      ?_ ?_ ?_ ops hwf rfl hrun).2
    · rintro t n x t' - ⟨-, rfl⟩ h; exact h
    · rintro t h t' - st h'; exact st.pshape.trans h'
    · rintro t t' - st h'; exact st.pshape.trans h'
  obtain ⟨p, hpb⟩ := at?_of_shape_eq hsh hp'
  have h1 : (1 : K) < countIterates ops * q := by
    have h2 : 1 / q < (⌊1 / q⌋₊ : K) + 1 := Nat.lt_floor_add_one _
    have h3 : ((⌊1 / q⌋₊ : K) + 1) ≤ countIterates ops := by exact_mod_cast hN
    rw [div_lt_iff₀ hq0] at h2
    exact lt_of_lt_of_le h2 (mul_le_mul_of_nonneg_right h3 hq0.le)
  have := C17_halting_reached_sharp hwf he hd hc1 hn hh hrun hpb
    (by rw [← hq]; have := hp b p hpb; linarith)
  rw [hx] at this
  cases this
  rfl

/-- With `epsilon = 0` (which the editor's `set_epsilon` accepts) halting is never reached, whatever
the halting probabilities: the hypothesis `0 < epsilon` of C17 is needed. -/
theorem C17_epsilon_zero_never_halts {s : ACTStates K} (hwf : s.WF) (he : s.epsilon = 0)
    (hd : 0 ≤ s.depression_constant)
    (hp : ∀ b p, s.probabilities.at? b = some p → 0 ≤ p ∧ p ≤ 1) (ops : List (Op K))
    {c' : Controller K} (hrun : run ⟨s⟩ ops = .ok c') (b : List Nat) :
    c'.haltedBatches.at? b ≠ some true := by
  intro hb
  have hwf' := run_wf hwf hrun
  obtain ⟨p', hp', hh⟩ := (halted_iff (s := c'.state) hwf'.floating).1 hb
  have h1 := C01_probabilities_in_unit_interval hwf he.ge hd hp ops hrun b p' hp'
  have heps : c'.state.epsilon = 0 := by
    refine (run_induction (Inv := fun t => t.epsilon = 0) ?_ ?_ ?_ ops hwf he hrun).2
    · rintro t n x t' - ⟨-, rfl⟩ h; exact h
    · rintro t h t' - st h'; exact st.epsilon.trans h'
    · rintro t t' - st h'; exact st.epsilon.trans h'
  rw [Spec.isHalted_iff, heps] at hh
  linarith [h1.2]

section Example
open Fixtures

/-- `q = 1/3`: floor(3) + 1 = 4 iterations; the run exists and its halting values are at least 1/3. -/
example :
    let ops := roundOps [round [1/3, 1/2] 1 2, round [1/3, 1/2] 1 2, round [1/3, 1/2] 1 2,
      round [1/3, 1] 1 2]
    countIterates ops = 4 ∧ succeeds (run ⟨fresh⟩ ops) = true ∧
    obs (run ⟨fresh⟩ ops) (fun c => some c.isCompletelyHalted) = some true ∧
    obs (run ⟨fresh⟩ (roundOps [round [1/3, 1/2] 1 2, round [1/3, 1/2] 1 2]))
      (fun c => some c.isCompletelyHalted) = some false := by decide +kernel

example : HaltingAtLeast (1/3 : ℚ) (roundOps [round [1/3, 1/2] 1 2, round [1, 1/2] 1 2]) := by
  intro h hm b x hx
  simp only [roundOps, Round.ops, Fixtures.round, List.flatMap_cons, List.flatMap_nil, List.map_cons,
    List.map_nil, List.cons_append, List.nil_append, List.append_nil, List.mem_cons,
    reduceCtorEq, false_or, Op.iterate.injEq, List.not_mem_nil, or_false] at hm
  have key : ∀ y z : ℚ, 1/3 ≤ y → 1/3 ≤ z → (vec [y, z]).at? b = some x → 1/3 ≤ x := by
    intro y z h1 h2 hx
    obtain ⟨hi, rfl⟩ := Arr.at?_eq_some.1 hx
    obtain ⟨k, j, rfl, hk, hj⟩ := inB_cons.1 hi
    simp only [List.length_cons, List.length_nil] at hk
    match k, hk with
    | 0, _ => exact h1
    | 1, _ => exact h2
  rcases hm with rfl | rfl
  · exact key _ _ (by norm_num) (by norm_num) hx
  · exact key _ _ (by norm_num) (by norm_num) hx

end Example
end JaxAct
