import Verif.Props.C19
import Verif.Props.C13
import Verif.Props.C26

/-!
# C18 Halting is reachable in every supported dtype

False of the code: the threshold `1 - epsilon` is converted to the dtype of the probabilities, and if
it rounds to one nothing is ever above it.
-/

namespace JaxAct
open Fmt ACTStates

section Theorems
variable {F : DType → Fmt} [A : Arith ℚ]

/-- C18, negative.  If the threshold rounds to one, no history ever halts an element. -/
theorem C18_threshold_one_never_halts (hA : A = Arith.rounded F) (hF64 : (F .f64).Valid)
    {s : ACTStates ℚ} (hwf : s.WF) (hF : (F s.probabilities.dtype).Valid)
    (he : 0 ≤ s.epsilon) (hdep : 0 ≤ s.depression_constant)
    (hp : ∀ b p, s.probabilities.at? b = some p →
      (F s.probabilities.dtype).rnd p = p ∧ 0 ≤ p ∧ p ≤ 1)
    (hthr : (F s.probabilities.dtype).rnd ((F .f64).rnd (1 - s.epsilon)) = 1)
    (ops : List (Op ℚ)) {c' : Controller ℚ} (hrun : run ⟨s⟩ ops = .ok c') (b : List Nat) :
    c'.haltedBatches.at? b ≠ some true := by
  intro hb
  have hwf' := run_wf hwf hrun
  obtain ⟨p', hp', hh⟩ := (halted_iff (s := c'.state) hwf'.floating).1 hb
  have h1 := C19_probabilities_in_unit_interval hA hF64 hwf hF he hdep hp ops hrun b p' hp'
  have heps : c'.state.epsilon = s.epsilon ∧
      c'.state.probabilities.dtype = s.probabilities.dtype := by
    refine (run_induction (Inv := fun t => t.epsilon = s.epsilon ∧
      t.probabilities.dtype = s.probabilities.dtype) ?_ ?_ ?_ ops hwf ⟨rfl, rfl⟩ hrun).2
    · rintro t n x t' - ⟨-, rfl⟩ h; exact h
    · rintro t h t' - st h'; exact ⟨st.epsilon.trans h'.1, st.pdtype.trans h'.2⟩
    · rintro t t' - st h'; exact ⟨st.epsilon.trans h'.1, st.pdtype.trans h'.2⟩
  rw [heps.1, heps.2, Spec.isHalted_rounded hA, Spec.threshold_rounded hA hwf.floating, hthr] at hh
  linarith [h1.2]

omit A in
/-- Exactly when the threshold rounds to one: `1 - epsilon`, in double precision, is within half a
unit in the last place of one. -/
theorem C18_threshold_one_iff {f f64 : Fmt} (hf : f.Valid) (hf64 : f64.Valid) {eps : ℚ}
    (he : 0 ≤ eps) : f.rnd (f64.rnd (1 - eps)) = 1 ↔
      1 - (2 : ℚ) ^ (-(f.prec : ℤ)) / 2 ≤ f64.rnd (1 - eps) :=
  rnd_eq_one_iff hf (rnd_le_of_rep hf64.1 (rnd_one hf64) (by linarith))

/-- C18, positive.  Partial: the threshold must not round to one (C18 claims it for every accepted
`epsilon`).  Then, without depression, from every idle controller whose accumulators can be iterated
at all, one complete iteration with halting probabilities one halts every element that has a number
of the format between 0 and 1 as its cumulative probability. -/
theorem C18_reachable_partial (hA : A = Arith.rounded F)
    {s : ACTStates ℚ} (hwf : s.WF) (hF : (F s.probabilities.dtype).Valid)
    (hdep : s.depression_constant = 1)
    (hidle : ∀ n u, s.updates.get? n = some u → u = .none)
    (habs : ∀ n t, s.accumulators.get? n = some t → ∀ a, Leaf.tensor a ∈ t.treeLeaves →
      DType.promote a.dtype (DType.promote s.probabilities.dtype a.dtype) = a.dtype)
    (hthr : (F s.probabilities.dtype).rnd ((F .f64).rnd (1 - s.epsilon)) < 1) :
    ∃ ops c', run ⟨s⟩ ops = .ok c' ∧
      ∀ b p, s.probabilities.at? b = some p →
        (F s.probabilities.dtype).rnd p = p → 0 ≤ p → p ≤ 1 →
        c'.haltedBatches.at? b = some true := by
  have hwfl : s.probabilities.dtype.withFloat = s.probabilities.dtype := by
    unfold DType.withFloat; rw [if_pos hwf.floating]
  obtain ⟨r, hr, c', hrun⟩ := exists_round hwf hidle habs
    (h := ⟨s.probabilities.dtype, ⟨s.probabilities.shape, fun _ _ => 1⟩⟩) rfl hwfl
  refine ⟨r.ops, c', hrun, fun b p hp hrep h0 h1 => ?_⟩
  obtain ⟨U, hwfU, st, -⟩ := round_ok hwf hrun
  rw [hr] at st
  have hwf' := Controller.IterStep.wf hwfU st
  obtain ⟨rr, n, x, -, -, hx, hc, -, -⟩ := st.cellAt hwfU hp
  rw [halted_iff (s := c'.state) hwf'.floating]
  refine ⟨_, hc, ?_⟩
  have hx1 : x = 1 := by
    have := Arr.at?_eq_some.1 hx
    obtain ⟨hi, rfl⟩ := this
    rfl
  subst hx1
  have e1 : convS s.probabilities.dtype s.probabilities.dtype (1 : ℚ) = 1 := by
    unfold convS; exact if_pos rfl
  have hcr : Spec.crosses s.probabilities.dtype s.epsilon s.depression_constant p 1 = true := by
    rw [Spec.crosses_rounded hA hwf.floating, Spec.threshold_rounded hA hwf.floating,
      Spec.demand_rounded hA hwf.floating, hdep]
    refine lt_of_lt_of_le hthr (le_rnd_of_rep hF.1 (rnd_one hF) ?_)
    norm_num [rnd_one hF]
    exact h0
  have hone : (Spec.step s.probabilities.dtype s.iterations.dtype s.epsilon s.depression_constant
      ⟨p, rr, n⟩ 1).prob = 1 := by
    rw [Spec.step_rounded hA hwf.floating]
    simp only [hcr, if_true]
    exact rnd_add_remainder hF hrep h0 h1
  have hp1 : s.probabilities.at? b = some p := hp
  simp only [e1, hone]
  rw [st.pdtype, st.epsilon, Spec.isHalted_rounded hA, Spec.threshold_rounded hA hwf.floating]
  exact hthr

/-- C18, exact condition.  For an element at a number of the format between 0 and 1, without
depression: some history halts it exactly if the threshold does not round to one. -/
theorem C18_reachable_iff (hA : A = Arith.rounded F) (hF64 : (F .f64).Valid)
    {s : ACTStates ℚ} (hwf : s.WF) (hF : (F s.probabilities.dtype).Valid) (he : 0 ≤ s.epsilon)
    (hdep : s.depression_constant = 1)
    (hidle : ∀ n u, s.updates.get? n = some u → u = .none)
    (habs : ∀ n t, s.accumulators.get? n = some t → ∀ a, Leaf.tensor a ∈ t.treeLeaves →
      DType.promote a.dtype (DType.promote s.probabilities.dtype a.dtype) = a.dtype)
    (hp : ∀ b p, s.probabilities.at? b = some p →
      (F s.probabilities.dtype).rnd p = p ∧ 0 ≤ p ∧ p ≤ 1)
    {b : List Nat} (hb : (s.probabilities.at? b).isSome) :
    (∃ ops c', run ⟨s⟩ ops = .ok c' ∧ c'.haltedBatches.at? b = some true) ↔
      (F .f64).rnd (1 - s.epsilon) <
        1 - (2 : ℚ) ^ (-((F s.probabilities.dtype).prec : ℤ)) / 2 := by
  obtain ⟨p, hpb⟩ := Option.isSome_iff_exists.1 hb
  have hiff := C18_threshold_one_iff hF hF64 he
  constructor
  · rintro ⟨ops, c', hrun, hh⟩
    by_contra hlt
    rw [not_lt, ← hiff] at hlt
    exact C18_threshold_one_never_halts hA hF64 hwf hF he (by rw [hdep]; norm_num) hp hlt ops hrun b hh
  · intro hlt
    have hne := fun h => not_le.2 hlt (hiff.1 h)
    have hle := Spec.threshold_le_one hA hwf.floating hF hF64 he
    rw [Spec.threshold_rounded hA hwf.floating] at hle
    obtain ⟨ops, c', hrun, hall⟩ := C18_reachable_partial hA hwf hF hdep hidle habs
      (lt_of_le_of_ne hle hne)
    obtain ⟨h1, h2, h3⟩ := hp b p hpb
    exact ⟨ops, c', hrun, hall b p hpb h1 h2 h3⟩

end Theorems

/-! ### The IEEE formats -/

section IEEE
attribute [local instance] ieee

theorem fmt_valid (d : DType) : d.fmt.Valid := by cases d <;> decide

/-- The statement of C18 for one dtype and one `epsilon`, in IEEE arithmetic: from the state that
`new_builder` describes, some history halts some element. -/
def HaltingReachable (d : DType) (eps : ℚ) : Prop :=
  ∃ (batch : List Nat) (dep : ℚ) (mode : Option String) (ops : List (Op ℚ)) (c' : Controller ℚ)
    (b : List Nat), 0 ≤ dep ∧ run ⟨baseState batch d eps dep mode⟩ ops = .ok c' ∧
    c'.haltedBatches.at? b = some true

theorem base_cells (batch : List Nat) (d : DType) (eps dep : ℚ) (mode : Option String) (b : List Nat)
    (p : ℚ) (h : (baseState batch d eps dep mode).probabilities.at? b = some p) :
    p = 0 := by
  obtain ⟨hi, rfl⟩ := Arr.at?_eq_some.1 h
  rfl

theorem not_reachable {d : DType} (hd : d.isFloating = true) {eps : ℚ} (he : 0 ≤ eps)
    (hthr : d.fmt.rnd (DType.f64.fmt.rnd (1 - eps)) = 1) : ¬ HaltingReachable d eps := by
  rintro ⟨batch, dep, mode, ops, c', b, hdep, hrun, hh⟩
  refine C18_threshold_one_never_halts (F := DType.fmt) rfl (fmt_valid _)
    (baseState_wf batch hd eps dep mode) (fmt_valid _) he hdep ?_ hthr ops hrun b hh
  intro b p hp
  rw [base_cells _ _ _ _ _ _ _ hp]
  exact ⟨rnd_zero _, le_rfl, zero_le_one⟩

/-- C18 is false for `float16`: for every `epsilon` up to `2^-12` (about 0.000244, so also for the
default 0.0001) no element ever halts. -/
theorem C18_false_float16 {eps : ℚ} (h0 : 0 < eps) (h1 : eps ≤ 1 / 4096) :
    ¬ HaltingReachable .f16 eps := by
  refine not_reachable rfl h0.le ((C18_threshold_one_iff (fmt_valid .f16) (fmt_valid .f64) h0.le).2 ?_)
  have hr : DType.f64.fmt.Rep (1 - 1 / 4096) := by decide +kernel
  refine le_trans (le_of_eq ?_) (le_rnd_of_rep (fmt_valid .f64).1 hr (by linarith))
  norm_num [DType.fmt]

/-- C18 is false for `bfloat16`: for every `epsilon` up to `2^-9` (about 0.00195, so also for the
default 0.0001) no element ever halts. -/
theorem C18_false_bfloat16 {eps : ℚ} (h0 : 0 < eps) (h1 : eps ≤ 1 / 512) :
    ¬ HaltingReachable .bf16 eps := by
  refine not_reachable rfl h0.le ((C18_threshold_one_iff (fmt_valid .bf16) (fmt_valid .f64) h0.le).2 ?_)
  have hr : DType.f64.fmt.Rep (1 - 1 / 512) := by decide +kernel
  refine le_trans (le_of_eq ?_) (le_rnd_of_rep (fmt_valid .f64).1 hr (by linarith))
  norm_num [DType.fmt]

/-- C18 is false for the default dtype `float32`: for every `epsilon` up to `2^-25` (about `3e-8`)
no element ever halts. -/
theorem C18_false_float32 {eps : ℚ} (h0 : 0 < eps) (h1 : eps ≤ 1 / 2 ^ 25) :
    ¬ HaltingReachable .f32 eps := by
  refine not_reachable rfl h0.le ((C18_threshold_one_iff (fmt_valid .f32) (fmt_valid .f64) h0.le).2 ?_)
  have hr : DType.f64.fmt.Rep (1 - 1 / 2 ^ 25) := by decide +kernel
  refine le_trans (le_of_eq ?_) (le_rnd_of_rep (fmt_valid .f64).1 hr (by linarith))
  norm_num [DType.fmt]

/-- The negation of C18 as stated. -/
theorem C18_false : ¬ ∀ (d : DType) (eps : ℚ), d.isFloating = true → 0 < eps → eps < 1 →
    HaltingReachable d eps := fun h =>
  C18_false_float16 (eps := 1 / 10000) (by norm_num) (by norm_num)
    (h .f16 (1 / 10000) rfl (by norm_num) (by norm_num))

/-- C18 for the default configuration: in `float32`, with every `epsilon` from `2^-24` up to 1
(the default 0.0001 included), halting is reachable. -/
theorem C18_float32_partial {eps : ℚ} (h0 : 1 / 2 ^ 24 ≤ eps) : HaltingReachable .f32 eps := by
  have he : (0 : ℚ) ≤ eps := le_trans (by norm_num) h0
  have hr : DType.f64.fmt.Rep (1 - 1 / 2 ^ 24) := by decide +kernel
  have hr2 : DType.f32.fmt.rnd (1 - 1 / 2 ^ 24) < 1 := by decide +kernel
  have hthr : DType.f32.fmt.rnd (DType.f64.fmt.rnd (1 - eps)) < 1 :=
    lt_of_le_of_lt (rnd_mono (fmt_valid .f32).1
      (rnd_le_of_rep (fmt_valid .f64).1 hr (by linarith))) hr2
  obtain ⟨ops, c', hrun, hall⟩ := C18_reachable_partial (F := DType.fmt) rfl
    (baseState_wf [] (d := .f32) rfl eps 1 none) (fmt_valid _) rfl
    (fun n u h => by simp [baseState] at h) (fun n t h => by simp [baseState] at h) hthr
  exact ⟨[], 1, none, ops, c', [], by norm_num, hrun,
    hall [] 0 rfl (rnd_zero _) le_rfl zero_le_one⟩

section Example
open Fixtures

/-- `simple` meets the hypotheses of `C18_reachable_iff`. -/
example : ∀ n t, simple.accumulators.get? n = some t → ∀ a, Leaf.tensor a ∈ t.treeLeaves →
    DType.promote a.dtype (DType.promote simple.probabilities.dtype a.dtype) = a.dtype := by
  intro n t h a ha
  obtain ⟨-, rfl⟩ := get?_one h
  have : a = col 0 0 := by simpa [bare, PyTree.treeLeaves, PyTree.leaves, PyTree.canon] using ha
  subst this
  rfl

example : simple.depression_constant = 1 ∧ DType.f64.fmt.rnd (1 - simple.epsilon) <
    1 - (2 : ℚ) ^ (-(DType.f32.fmt.prec : ℤ)) / 2 := by
  constructor
  · rfl
  · decide +kernel

/-- The same two rounds in `float32` and, with the default `epsilon`, in `float16`. -/
example : obs (run ⟨baseState [1] .f32 (1/10000) 1 none⟩
      [.iterate (Tensor.full [1] .f32 1), .iterate (Tensor.full [1] .f32 1)])
      (fun c => c.haltedBatches.at? [0]) = some true ∧
    obs (run ⟨baseState [1] .f16 (1/10000) 1 none⟩
      [.iterate (Tensor.full [1] .f16 1), .iterate (Tensor.full [1] .f16 1)])
      (fun c => c.haltedBatches.at? [0]) = some false := by decide +kernel

end Example
end IEEE
end JaxAct
