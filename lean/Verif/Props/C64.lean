import Verif.Lemmas.Traced
import Verif.Props.C18
import Verif.Props.C63

/-!
# C64 Calls inside a traced function compute what eager calls compute

False of the code: tracing turns the Python floats `epsilon` and `depression_constant` into float32
arrays, so the threshold is rounded differently.  Proved: the two thresholds are close, decisions
differ only for probabilities between them, and if the thresholds are equal the runs are equal.
-/

namespace JaxAct
open Fmt ACTStates

section General
variable {α : Type}

theorem NoF64.of_alike {s t : PyTree (Leaf α)} (h : TreesAlike s t) (hs : NoF64 s) : NoF64 t := by
  intro a ha
  obtain ⟨k, hk, he⟩ := List.mem_iff_getElem.1 ha
  have hm : (t.treeLeaves.map Leaf.type)[k]? = some (some (a.shape, a.dtype)) := by
    rw [List.getElem?_map, List.getElem?_eq_getElem hk, he]; rfl
  rw [← h.2, List.getElem?_map] at hm
  cases hl : s.treeLeaves[k]? with
  | none => rw [hl] at hm; cases hm
  | some l =>
    rw [hl] at hm
    obtain ⟨b, rfl, -, h2⟩ := Leaf.type_some.1 (Option.some.inj hm)
    rw [← show b.dtype = a.dtype from h2]
    exact hs b (List.mem_of_getElem? hl)

theorem ACTStates.NoF64.of_alike {s t : ACTStates α} (h : StatesAlike s t) (hs : s.NoF64) :
    t.NoF64 where
  iterations := by rw [← h.iterations.2]; exact hs.iterations
  probabilities := by rw [← h.probabilities.2]; exact hs.probabilities
  accumulators n t' ht' := by
    obtain ⟨t, ht, htt⟩ := optionRel_some_right (ht' ▸ h.accumulators n)
    exact (hs.accumulators n t ht).of_alike htt
  updates n t' ht' := by
    obtain ⟨t, ht, htt⟩ := optionRel_some_right (ht' ▸ h.updates n)
    exact (hs.updates n t ht).of_alike htt

/-- One call keeps the dtypes and the Python floats. -/
theorem call_scalars [Arith α] {s : ACTStates α} (hwf : s.WF) (hno : s.NoF64) {op : Op α}
    (hop : op.NoF64) {c : Controller α} (hc : op.call ⟨s⟩ = .ok c) :
    c.state.WF ∧ c.state.NoF64 ∧ c.state.epsilon = s.epsilon ∧
      c.state.depression_constant = s.depression_constant ∧
      c.state.probabilities.dtype = s.probabilities.dtype := by
  refine ⟨run_wf (ops := [op]) hwf (by simp [run, hc]), ?_⟩
  cases op with
  | cache n t =>
    obtain ⟨-, q⟩ := Controller.cacheUpdate_ok_iff.1 hc
    rw [q]
    refine ⟨⟨hno.1, hno.2, hno.3, fun m u hu => ?_⟩, rfl, rfl, rfl⟩
    simp only [Dict.get?_set] at hu
    split at hu
    · cases hu; exact hop
    · exact hno.updates m u hu
  | iterate t =>
    have st := Controller.iterateAct_ok hwf hc
    refine ⟨.of_alike (iterate_types hwf hc) ?_, st.epsilon, st.depression, st.pdtype⟩
    refine ⟨hno.1, hno.2, hno.3, fun m u hu => ?_⟩
    simp only [Dict.get?_map_none] at hu
    cases hm : s.updates.get? m with
    | none => rw [hm] at hu; cases hu
    | some v =>
      rw [hm] at hu; cases hu
      intro a ha; cases ha
  | reset =>
    have st := Controller.resetBatches_ok hwf hc
    exact ⟨.of_alike (reset_types hwf hc) hno, st.epsilon, st.depression, st.pdtype⟩

/-- The same for a history. -/
theorem run_scalars [Arith α] : ∀ {ops : List (Op α)} {s : ACTStates α}, s.WF → s.NoF64 →
    (∀ op ∈ ops, op.NoF64) → ∀ {c : Controller α}, run ⟨s⟩ ops = .ok c →
    c.state.WF ∧ c.state.NoF64 ∧ c.state.epsilon = s.epsilon ∧
      c.state.depression_constant = s.depression_constant ∧
      c.state.probabilities.dtype = s.probabilities.dtype
  | [], _, hwf, hno, _, _, hc => by cases hc; exact ⟨hwf, hno, rfl, rfl, rfl⟩
  | op :: ops, _, hwf, hno, hops, _, hc => by
    simp only [run, bind_ok] at hc
    obtain ⟨c1, h1, h2⟩ := hc
    obtain ⟨a1, a2, a3, a4, a5⟩ := call_scalars hwf hno (hops op (by simp)) h1
    obtain ⟨b1, b2, b3, b4, b5⟩ := run_scalars a1 a2 (fun o ho => hops o (by simp [ho])) h2
    exact ⟨b1, b2, b3.trans a3, b4.trans a4, b5.trans a5⟩

/-- Two arithmetics that agree except in float64, two states that differ in the Python floats only,
with the same threshold and depression factor in the dtype of the probabilities: every sequence of
calls has the same outcome, exceptions included. -/
theorem run_agree {A B : Arith α} (h : AgreeOff64 A B) {e dc : α} : ∀ (ops : List (Op α))
    {s : ACTStates α}, ScalarsAgree A B s e dc → s.WF → s.NoF64 → (∀ op ∈ ops, op.NoF64) →
    @run α B ⟨s.withScalars e dc⟩ ops = (@run α A ⟨s⟩ ops).map (Controller.withScalars e dc)
  | [], _, _, _, _, _ => rfl
  | op :: ops, s, hs, hwf, hno, hops => by
    have hop := hops op (by simp)
    have hcall : @Op.call α B ⟨s.withScalars e dc⟩ op =
        (@Op.call α A ⟨s⟩ op).map (Controller.withScalars e dc) := by
      cases op with
      | cache n t => exact cacheUpdate_withScalars n t
      | iterate t => exact iterateAct_agree h hs hwf hno hop
      | reset => exact resetBatches_agree h hs hwf hno
    unfold run
    rw [hcall]
    cases hc : @Op.call α A ⟨s⟩ op with
    | error e => rfl
    | ok c =>
      obtain ⟨hwf', h1, h2, h3, h4⟩ := @call_scalars α A s hwf hno op hop c hc
      refine run_agree h ops ⟨?_, ?_⟩ hwf' h1 fun o ho => hops o (by simp [ho])
      · rw [h4, h2]; exact hs.threshold
      · rw [h4, h3]; exact hs.depression

end General

section Theorems
variable {F : DType → Fmt}

theorem tracedFmt_ne {d : DType} (hd : d ≠ .f64) : tracedFmt F d = F d := by
  cases d <;> first | rfl | exact absurd rfl hd

theorem agree_traced : AgreeOff64 (Arith.rounded F) (Arith.rounded (tracedFmt F)) := by
  have h : ∀ d, d ≠ .f64 → Arith.roundTo F d = Arith.roundTo (tracedFmt F) d := by
    intro d hd; funext x; unfold Arith.roundTo; rw [tracedFmt_ne hd]
  refine ⟨rfl, rfl, fun d hd => ?_, fun d hd => ?_, fun d hd => ?_, fun d hd => ?_, rfl, rfl, rfl⟩
  · funext x y; exact congrFun (h d hd) _
  · funext x y; exact congrFun (h d hd) _
  · funext x y; exact congrFun (h d hd) _
  · funext x; exact congrFun (h d hd) _

/-- C64.  Partial: the threshold and the depression factor must be the same numbers of the dtype `d` of
the probabilities whether `epsilon` and `depression_constant` go through float32 or not (C64 claims the
conclusion without).  Then every sequence of calls on arrays of which none is float64 has, inside a
traced function, the outcome it has outside: the same exception, or a controller with the same arrays
and the same halted elements. -/
theorem C64_traced_equals_eager_partial {s : ACTStates ℚ} (hwf : s.WF) (hno : s.NoF64)
    {d : DType} (hd : s.probabilities.dtype = d)
    (hthr : (F d).rnd ((F .f32).rnd (1 - (F .f32).rnd s.epsilon)) =
      (F d).rnd ((F .f64).rnd (1 - s.epsilon)))
    (hdep : (F d).rnd ((F .f32).rnd s.depression_constant) = (F d).rnd s.depression_constant)
    (ops : List (Op ℚ)) (hops : ∀ op ∈ ops, op.NoF64) :
    (∀ e, @run ℚ (Arith.rounded F) ⟨s⟩ ops = .error e →
      @run ℚ (Arith.rounded (tracedFmt F)) ⟨s.traced F⟩ ops = .error e) ∧
    ∀ c, @run ℚ (Arith.rounded F) ⟨s⟩ ops = .ok c →
      @run ℚ (Arith.rounded (tracedFmt F)) ⟨s.traced F⟩ ops = .ok ⟨c.state.traced F⟩ ∧
      @Controller.haltedBatches ℚ (Arith.rounded (tracedFmt F)) ⟨c.state.traced F⟩ =
        @Controller.haltedBatches ℚ (Arith.rounded F) c := by
  subst hd
  have hp := hno.probabilities
  have hs : ScalarsAgree (Arith.rounded F) (Arith.rounded (tracedFmt F)) s
      ((F .f32).rnd s.epsilon) ((F .f32).rnd s.depression_constant) := by
    constructor
    · rw [@Spec.threshold_rounded F (Arith.rounded F) rfl _ hwf.floating,
        @Spec.threshold_rounded (tracedFmt F) (Arith.rounded (tracedFmt F)) rfl _ hwf.floating,
        tracedFmt_ne hp]
      exact hthr.symm
    · show Arith.roundTo F _ _ = Arith.roundTo (tracedFmt F) _ _
      rw [Spec.roundTo_float hwf.floating, Spec.roundTo_float hwf.floating, tracedFmt_ne hp]
      exact hdep.symm
  have hr := run_agree agree_traced ops hs hwf hno hops
  have hr' : @run ℚ (Arith.rounded (tracedFmt F)) ⟨s.traced F⟩ ops = _ := hr
  refine ⟨fun e he => by rw [hr', he]; rfl, fun c hc => ?_⟩
  obtain ⟨hwf', hno', h2, h3, h4⟩ := @run_scalars ℚ (Arith.rounded F) ops s hwf hno hops c hc
  have e1 : c.state.traced F = c.state.withScalars ((F .f32).rnd s.epsilon)
      ((F .f32).rnd s.depression_constant) := by
    unfold ACTStates.traced ACTStates.withScalars; rw [h2, h3]
  refine ⟨by rw [hr', hc, e1]; rfl, ?_⟩
  rw [e1]
  refine haltedBatches_agree agree_traced ⟨?_, ?_⟩ hwf' hno'
  · rw [h4, h2]; exact hs.threshold
  · rw [h4, h3]; exact hs.depression

/-- C64, how far the two thresholds can be apart. -/
theorem C64_threshold_gap {d : DType} (h32 : (F .f32).Valid) (h64 : (F .f64).Valid)
    (hd : (F d).Valid) {eps : ℚ} (h0 : 0 ≤ eps) (h1 : eps ≤ 1) :
    |(F d).rnd ((F .f32).rnd (1 - (F .f32).rnd eps)) - (F d).rnd ((F .f64).rnd (1 - eps))| ≤
      2 * (2 : ℚ) ^ (-((F .f32).prec : ℤ)) + (2 : ℚ) ^ (-((F .f64).prec : ℤ)) +
      2 * (2 : ℚ) ^ (-((F d).prec : ℤ)) := by
  have unit : ∀ {f : Fmt}, f.Valid → ∀ {x : ℚ}, 0 ≤ x → x ≤ 1 → 0 ≤ f.rnd x ∧ f.rnd x ≤ 1 :=
    fun {f} hf {x} hx0 hx1 => ⟨rnd_nonneg hx0, rnd_le_of_rep hf.1 (rnd_one hf) hx1⟩
  have small : ∀ {x : ℚ}, 0 ≤ x → x ≤ 1 → |x| < 2 := fun {x} hx0 hx1 => by
    rw [abs_of_nonneg hx0]; linarith
  obtain ⟨a0, a1⟩ := unit h32 h0 h1
  have b0 : 0 ≤ 1 - (F .f32).rnd eps := by linarith
  have b1 : 1 - (F .f32).rnd eps ≤ 1 := by linarith
  obtain ⟨c0, c1⟩ := unit h32 b0 b1
  have d0 : 0 ≤ 1 - eps := by linarith
  have d1 : 1 - eps ≤ 1 := by linarith
  obtain ⟨e0, e1⟩ := unit h64 d0 d1
  have k1 := abs_le.1 (rnd_error_two h32 (small h0 h1))
  have k2 := abs_le.1 (rnd_error_two h32 (small b0 b1))
  have k3 := abs_le.1 (rnd_error_two hd (small c0 c1))
  have k4 := abs_le.1 (rnd_error_two h64 (small d0 d1))
  have k5 := abs_le.1 (rnd_error_two hd (small e0 e1))
  rw [abs_le]
  constructor <;> linarith [k1.1, k1.2, k2.1, k2.2, k3.1, k3.2, k4.1, k4.2, k5.1, k5.2]

/-- C64, decisions.  The two halting decisions about one and the same cumulative probability can only
differ if it lies above one threshold and not above the other. -/
theorem C64_decisions {d : DType} (hd : d.isFloating = true) (hd64 : d ≠ .f64) (eps p : ℚ) :
    @Spec.isHalted ℚ (Arith.rounded F) d eps p ≠
      @Spec.isHalted ℚ (Arith.rounded (tracedFmt F)) d ((F .f32).rnd eps) p ↔
    min ((F d).rnd ((F .f32).rnd (1 - (F .f32).rnd eps))) ((F d).rnd ((F .f64).rnd (1 - eps))) < p ∧
    p ≤ max ((F d).rnd ((F .f32).rnd (1 - (F .f32).rnd eps)))
      ((F d).rnd ((F .f64).rnd (1 - eps))) := by
  have e1 := @Spec.isHalted_rounded F (Arith.rounded F) rfl d eps p
  have e2 := @Spec.isHalted_rounded (tracedFmt F) (Arith.rounded (tracedFmt F)) rfl d
    ((F .f32).rnd eps) p
  rw [@Spec.threshold_rounded F (Arith.rounded F) rfl d hd] at e1
  rw [@Spec.threshold_rounded (tracedFmt F) (Arith.rounded (tracedFmt F)) rfl d hd,
    tracedFmt_ne hd64] at e2
  change _ ↔ (F d).rnd ((F .f32).rnd (1 - (F .f32).rnd eps)) < p at e2
  rw [min_lt_iff, le_max_iff, Ne, Bool.eq_iff_iff, e1, e2]
  by_cases h1 : (F d).rnd ((F .f64).rnd (1 - eps)) < p <;>
    by_cases h2 : (F d).rnd ((F .f32).rnd (1 - (F .f32).rnd eps)) < p <;>
    simp [h1, h2, not_lt.1, not_le.2]

end Theorems

/-! ### The IEEE formats -/

section IEEE
attribute [local instance] ieee

/-- An `epsilon` just above `2^-25`, a Python float. -/
def fineEpsilon : ℚ := 1 / 2 ^ 25 + 1 / 2 ^ 52

/-- C64, negative.  With `epsilon = 2^-25 + 2^-52` in the default dtype float32, one eager iteration
with halting probability one halts an element.  The same call inside a traced function does not, and no
history there ever halts anything: `epsilon` is rounded to `2^-25`, and `1 - epsilon` to one. -/
theorem C64_false :
    DType.f64.fmt.Rep fineEpsilon ∧
    (∃ c, @run ℚ ieee ⟨baseState [1] .f32 fineEpsilon 1 none⟩ [.iterate ⟨.f32, [1], fun _ _ => 1⟩] =
      .ok c ∧ (@Controller.haltedBatches ℚ ieee c).at? [0] = some true) ∧
    ∀ (ops : List (Op ℚ)) (c : Controller ℚ),
      @run ℚ (Arith.rounded (tracedFmt DType.fmt))
        ⟨(baseState [1] .f32 fineEpsilon 1 none).traced DType.fmt⟩ ops = .ok c →
      ∀ b, (@Controller.haltedBatches ℚ (Arith.rounded (tracedFmt DType.fmt)) c).at? b ≠
        some true := by
  refine ⟨by decide +kernel, ?_, ?_⟩
  · have h : Fixtures.obs (@run ℚ ieee ⟨baseState [1] .f32 fineEpsilon 1 none⟩
        [.iterate ⟨.f32, [1], fun _ _ => 1⟩])
        (fun c => (@Controller.haltedBatches ℚ ieee c).at? [0]) = some true := by decide +kernel
    revert h
    unfold Fixtures.obs
    split
    · rename_i c hc
      exact fun h => ⟨c, hc, h⟩
    · intro h; cases h
  · intro ops c hc b
    refine @C18_threshold_one_never_halts (tracedFmt DType.fmt)
      (Arith.rounded (tracedFmt DType.fmt)) rfl (fmt_valid .f32) _
      (baseState_wf [1] (d := .f32) rfl _ _ none) (fmt_valid .f32) ?_ ?_ ?_ ?_ ops c hc b
    · decide +kernel
    · decide +kernel
    · intro b p hp
      rw [base_cells _ _ _ _ _ _ _ hp]
      exact ⟨rnd_zero _, le_rfl, zero_le_one⟩
    · decide +kernel

end IEEE

/-- C64 for the default `epsilon = 1e-4` (the nearest Python float) and no depression: the
thresholds and factors are the same in float32, float16 and bfloat16. -/
theorem C64_default_scalars {d : DType} (hd : d = .f32 ∨ d = .f16 ∨ d = .bf16) :
    let eps := DType.f64.fmt.rnd (1 / 10000)
    d.fmt.rnd (DType.f32.fmt.rnd (1 - DType.f32.fmt.rnd eps)) =
      d.fmt.rnd (DType.f64.fmt.rnd (1 - eps)) ∧
    d.fmt.rnd (DType.f32.fmt.rnd 1) = d.fmt.rnd 1 := by
  rcases hd with rfl | rfl | rfl <;> decide +kernel

/-- Depression factors never differ in the default dtype float32. -/
theorem C64_depression_float32 (dep : ℚ) :
    DType.f32.fmt.rnd (DType.f32.fmt.rnd dep) = DType.f32.fmt.rnd dep :=
  rnd_rep (fmt_valid .f32).1 dep

section Example
open Fixtures

/-- `fresh` with the default `epsilon`. -/
def freshDefault : ACTStates ℚ := { fresh with epsilon := DType.f64.fmt.rnd (1 / 10000) }

/-- The hypotheses of `C64_traced_equals_eager_partial` hold for it and the calls of two rounds. -/
example : freshDefault.WF ∧ freshDefault.NoF64 ∧
    (∀ op ∈ roundOps [round [1/10, 9/10] 3 2, round [9/10, 9/10] 7 2], op.NoF64) ∧
    DType.f32.fmt.rnd (DType.f32.fmt.rnd freshDefault.depression_constant) =
      DType.f32.fmt.rnd freshDefault.depression_constant := by
  have h2 : ∀ t u : Tensor ℚ, t.dtype ≠ .f64 → u.dtype ≠ .f64 → NoF64 (pair t u) := by
    intro t u ht hu a ha
    have : (pair t u).treeLeaves = [.tensor t, .tensor u] := rfl
    rw [this] at ha
    simp only [List.mem_cons, Leaf.tensor.injEq, List.not_mem_nil, or_false] at ha
    rcases ha with rfl | rfl
    · exact ht
    · exact hu
  have h1 : ∀ t : Tensor ℚ, t.dtype ≠ .f64 → NoF64 (bare t) := by
    intro t ht a ha
    have : (bare t).treeLeaves = [.tensor t] := rfl
    rw [this, List.mem_singleton] at ha
    cases ha
    exact ht
  have h0 : NoF64 (.none : PyTree (Leaf ℚ)) := fun a ha => by cases ha
  refine ⟨fresh_wf.withScalars (e := _) (dc := 1), ⟨by decide, by decide, fun n t h => ?_, fun n t h => ?_⟩, ?_,
    C64_depression_float32 _⟩
  · rcases get?_two h with ⟨-, rfl⟩ | ⟨-, rfl⟩
    · exact h1 _ (by decide)
    · exact h2 _ _ (by decide) (by decide)
  · rcases get?_two h with ⟨-, rfl⟩ | ⟨-, rfl⟩ <;> exact h0
  · intro op hop
    simp only [roundOps, List.flatMap_cons, List.flatMap_nil, Round.ops, Fixtures.round, List.map_cons,
      List.map_nil, List.cons_append, List.nil_append, List.append_nil, List.mem_cons,
      List.not_mem_nil, or_false] at hop
    rcases hop with rfl | rfl | rfl | rfl | rfl | rfl
    · exact h2 _ _ (by decide) (by decide)
    · exact h1 _ (by decide)
    · show DType.f32 ≠ .f64; decide
    · exact h2 _ _ (by decide) (by decide)
    · exact h1 _ (by decide)
    · show DType.f32 ≠ .f64; decide

/-- The two runs, computed. -/
example :
    obs (@run ℚ ieee ⟨freshDefault⟩ (roundOps [round [1/10, 9/10] 3 2, round [9/10, 9/10] 7 2]))
      (fun c => some (c.probabilities.at? [0], entry? c.accumulators "out" 0 [0, 0])) =
    obs (@run ℚ (Arith.rounded (tracedFmt DType.fmt)) ⟨freshDefault.traced DType.fmt⟩
      (roundOps [round [1/10, 9/10] 3 2, round [9/10, 9/10] 7 2]))
      (fun c => some (c.probabilities.at? [0], entry? c.accumulators "out" 0 [0, 0])) := by
  decide +kernel

end Example

end JaxAct
