import Verif.Model.Fused
import Verif.Lemmas.History
import Verif.Lemmas.Rounded
import Verif.Props.C61

/-!
# C115 Contracting the total is harmless exactly when the products are

A compiler that evaluates `depression_constant*halting_probabilities + probabilities` with a fused
multiply-add changes nothing if the products are numbers of the format, in particular if the
depression constant is one.  Otherwise an element can be halted without having been given its
remainder, its residual is never recorded and its weights do not add up to one.
-/

namespace JaxAct
open ACTStates

section General
variable {α : Type}

theorem Arr.bmap2_map_left {β β' γ δ : Type} (f : β' → γ → δ) (g : β → β') (a : Arr β) (b : Arr γ) :
    Arr.bmap2 f (a.map g) b = Arr.bmap2 (fun x y => f (g x) y) a b := by
  unfold Arr.bmap2
  simp only [Arr.map]

theorem Arr.bmap2_congr_left {β γ δ : Type} {f f' : β → γ → δ} {a : Arr β} {b : Arr γ}
    (h : ∀ i x y, a.at? i = some x → f x y = f' x y) : Arr.bmap2 f a b = Arr.bmap2 f' a b := by
  unfold Arr.bmap2
  split
  · rename_i r hr
    congr 2
    funext i hi
    refine h (Arr.bIdx a.shape i) _ _ ?_
    rw [Arr.at?, dif_pos (Arr.bIdx_inB_left hr hi)]
  · rfl

variable [Arith α]

/-- The total is the same if contraction makes no difference for the entries. -/
theorem fusedTotal_eq {fma : DType → α → α → α → α} {c : Controller α} {h : Tensor α}
    (hf : ∀ i x y, h.at? i = some x →
      let d := h.dtype.withFloat
      let k := Arith.cast d c.depressionConstant
      let x' := convS h.dtype d x
      fma d k x' y = Arith.add d (Arith.mul d k x') y) :
    c.fusedTotal fma h =
      Tensor.binop Arith.add (Tensor.floatMul c.depressionConstant h) c.probabilities := by
  unfold Controller.fusedTotal
  simp only
  split
  · rename_i hd
    unfold Tensor.binop
    simp only [Tensor.conv_dtype, hd, Tensor.floatMul_dtype, DType.promote_self, Tensor.conv_shape,
      Tensor.floatMul_shape]
    have e1 : Tensor.conv h.dtype.withFloat (Tensor.conv h.dtype.withFloat h) =
        Tensor.conv h.dtype.withFloat h := by
      generalize ht : Tensor.conv h.dtype.withFloat h = t
      unfold Tensor.conv
      rw [if_pos (by rw [← ht]; exact Tensor.conv_dtype _ _)]
    have e2 : Tensor.conv h.dtype.withFloat (Tensor.floatMul c.depressionConstant h) =
        Tensor.floatMul c.depressionConstant h := by
      conv_lhs => unfold Tensor.conv
      rw [if_pos (Tensor.floatMul_dtype _ _)]
    rw [e1, e2]
    have e3 : (Tensor.floatMul c.depressionConstant h).arr = (Tensor.conv h.dtype.withFloat h).arr.map
        fun x => Arith.mul h.dtype.withFloat (Arith.cast h.dtype.withFloat c.depressionConstant) x := rfl
    rw [e3, Arr.bmap2_map_left]
    rw [Arr.bmap2_congr_left]
    intro i x y hx
    rw [Tensor.at?_conv, Option.map_eq_some_iff] at hx
    obtain ⟨x0, h0, rfl⟩ := hx
    exact hf i x0 y h0
  · rfl

theorem iterateFused_eq {fma : DType → α → α → α → α} {c : Controller α} {h : Tensor α}
    (hf : ∀ i x y, h.at? i = some x →
      let d := h.dtype.withFloat
      let k := Arith.cast d c.depressionConstant
      let x' := Spec.clamp (convS h.dtype d x)
      fma d k x' y = Arith.add d (Arith.mul d k x') y) :
    c.iterateFused fma h = c.iterateAct h := by
  have e : c.processFused fma h.clip01 = c.processProbabilities h.clip01 := by
    unfold Controller.processFused Controller.processProbabilities
    rw [fusedTotal_eq]
    intro i x y hx
    rw [Tensor.at?_clip01, Option.map_eq_some_iff] at hx
    obtain ⟨x0, h0, rfl⟩ := hx
    simpa [Spec.clamp] using hf i x0 y h0
  unfold Controller.iterateFused Controller.iterateAct
  simp only [e]

theorem runFused_eq {fma : DType → α → α → α → α} {dep : α} : ∀ (ops : List (Op α)) {s : ACTStates α},
    s.WF → s.depression_constant = dep →
    (∀ h, Op.iterate h ∈ ops → ∀ i x y, h.at? i = some x →
      let d := h.dtype.withFloat
      let k := Arith.cast d dep
      let x' := Spec.clamp (convS h.dtype d x)
      fma d k x' y = Arith.add d (Arith.mul d k x') y) →
    runFused fma ⟨s⟩ ops = run ⟨s⟩ ops
  | [], _, _, _, _ => rfl
  | op :: ops, s, hwf, hdep, hf => by
    have ih : ∀ c : Controller α, op.call ⟨s⟩ = .ok c → runFused fma c ops = run c ops := by
      intro c hc
      have := run_induction (Inv := fun t => t.depression_constant = dep)
        (fun _ _ _ _ _ st i => by rw [st.eq]; exact i)
        (fun _ _ _ _ st i => by rw [st.depression]; exact i)
        (fun _ _ _ st i => by rw [st.depression]; exact i) [op] hwf hdep
        (show run ⟨s⟩ [op] = .ok c by simp only [run, hc]; rfl)
      exact runFused_eq ops this.1 this.2 fun h hh => hf h (List.mem_cons_of_mem _ hh)
    have e : op.callFused fma ⟨s⟩ = op.call ⟨s⟩ := by
      cases op with
      | iterate h =>
        refine iterateFused_eq ?_
        have := hf h (by simp)
        rw [← hdep] at this
        exact this
      | _ => rfl
    unfold runFused run
    rw [e]
    cases hc : op.call ⟨s⟩ with
    | error e => rfl
    | ok c => exact ih c hc

end General

section Rounded
variable {F : DType → Fmt} [A : Arith ℚ]

/-- C115, exact products.  If every product of the depression constant and a clipped halting
probability is a number of the format, contracting the totals changes nothing in a history: the same
states, the same exceptions. -/
theorem C115_exact_products (hA : A = Arith.rounded F) {s : ACTStates ℚ} (hwf : s.WF) {ops : List (Op ℚ)}
    (hx : ∀ h, Op.iterate h ∈ ops → ∀ i x, h.at? i = some x →
      let f := F h.dtype.withFloat
      let x' := if h.dtype = h.dtype.withFloat then x else f.rnd x
      f.Rep (f.rnd s.depression_constant * min 1 (max 0 x'))) :
    runFused (Arith.fma F) ⟨s⟩ ops = run ⟨s⟩ ops := by
  refine runFused_eq ops hwf rfl fun h hh i x y hi => ?_
  have hfl : h.dtype.withFloat.isFloating = true := by cases h.dtype <;> rfl
  have key := hx h hh i x hi
  have e : convS h.dtype h.dtype.withFloat x =
      if h.dtype = h.dtype.withFloat then x else (F h.dtype.withFloat).rnd x := by
    unfold convS
    split
    · rfl
    · subst hA; exact Spec.roundTo_float hfl _
  simp only at key ⊢
  rw [← e] at key
  generalize convS h.dtype h.dtype.withFloat x = z at key ⊢
  subst hA
  show Arith.roundTo F _ (Arith.roundTo F _ _ * min 1 (max 0 z) + y) =
    Arith.roundTo F _ (Arith.roundTo F _ (Arith.roundTo F _ _ * min 1 (max 0 z)) + y)
  simp only [Spec.roundTo_float hfl]
  rw [show (F h.dtype.withFloat).rnd ((F h.dtype.withFloat).rnd s.depression_constant * min 1 (max 0 z)) = _ from key]

/-- C115, depression constant one.  With the depression constant 1 (the default of the builder) and
halting probabilities that are numbers of their dtype, contracting the totals changes nothing. -/
theorem C115_depression_one (hA : A = Arith.rounded F) (hF : ∀ d, (F d).Valid) {s : ACTStates ℚ}
    (hwf : s.WF) (hdep : s.depression_constant = 1) {ops : List (Op ℚ)}
    (hx : ∀ h, Op.iterate h ∈ ops → h.dtype.isFloating = true → ∀ i x, h.at? i = some x →
      (F h.dtype).Rep x) :
    runFused (Arith.fma F) ⟨s⟩ ops = run ⟨s⟩ ops := by
  refine C115_exact_products hA hwf fun h hh i x hi => ?_
  have hv := hF h.dtype.withFloat
  have hr : (F h.dtype.withFloat).Rep
      (if h.dtype = h.dtype.withFloat then x else (F h.dtype.withFloat).rnd x) := by
    split
    · rename_i e
      rw [← e]
      exact hx h hh (by rw [e]; cases h.dtype <;> rfl) i x hi
    · exact Fmt.rnd_rep hv.1 x
  simp only [hdep]
  rw [Fmt.rnd_one hv, one_mul]
  generalize (if h.dtype = h.dtype.withFloat then x else (F h.dtype.withFloat).rnd x) = z at hr ⊢
  rcases le_total z 0 with h0 | h0
  · rw [max_eq_left h0, min_eq_right zero_le_one]; exact Fmt.rnd_zero _
  · rw [max_eq_right h0]
    rcases le_total z 1 with h1 | h1
    · rw [min_eq_right h1]; exact hr
    · rw [min_eq_left h1]; exact Fmt.rnd_one hv

end Rounded

section Witness
open Fixtures
attribute [local instance] ieee

/-- The float32 number nearest to `x`. -/
private def near (x : ℚ) : ℚ := (DType.fmt .f32).rnd x

/-- Depression constant 3/4, the rest as in `simple`. -/
private def slowed : ACTStates ℚ := { simple with depression_constant := 3/4 }

/-- Two rounds with the halting probabilities 0.33 and 0.87, an accumulator that is given ones. -/
private def story : List (Op ℚ) := roundOps [sround [near (33/100), 0] 1 1, sround [near (87/100), 0] 1 1]

/-- The threshold `1 - epsilon` as a float32 number. -/
private def limit : ℚ := near ((DType.fmt .f64).rnd (1 - 1/10))

/-- C115, inexact products.  In float32 with the depression constant 3/4 and the halting probabilities
0.33 and 0.87 the first element is halted after the second iteration in both cases.  Without contraction
its cumulative probability is one and the residual is recorded.  With contraction its cumulative
probability is one unit in the last place above the threshold, the residual is still zero, and another
iteration sets the cumulative probability to one but neither records a residual nor adds to the
accumulator. -/
theorem C115_inexact_products_fail :
    slowed.WF ∧
    obs (run ⟨slowed⟩ story) (fun c => some (c.haltedBatches.at? [0], c.probabilities.at? [0],
      (c.residuals.at? [0]).map fun r => decide (0 < r))) = some (some true, some 1, some true) ∧
    obs (runFused (Arith.fma DType.fmt) ⟨slowed⟩ story) (fun c => some (c.haltedBatches.at? [0],
      c.probabilities.at? [0], c.residuals.at? [0])) = some (some true, some (limit + 1/2^24), some 0) ∧
    obs (runFused (Arith.fma DType.fmt) ⟨slowed⟩ (story ++ roundOps [sround [near (87/100), 0] 1 1]))
      (fun c => some (c.probabilities.at? [0], c.residuals.at? [0],
        (entry? c.state.accumulators "out" 0 [0, 0]))) = some (some 1, some 0, some (limit + 1/2^24)) := by
  refine ⟨{ simple_wf with }, by decide +kernel, by decide +kernel, by decide +kernel⟩

/-- Not vacuous: the depression constant of `simple` is one and the halting probabilities are float32
numbers; the second iteration makes the first element cross. -/
example : runFused (Arith.fma DType.fmt) ⟨simple⟩ story = run ⟨simple⟩ story ∧
    obs (run ⟨simple⟩ story) (fun c => some (c.probabilities.at? [0], c.probabilities.at? [1])) =
      some (some 1, some 0) := by
  refine ⟨C115_depression_one rfl (fun d => by cases d <;> decide) simple_wf rfl ?_, by decide +kernel⟩
  intro h hh _ i x hx
  have : h = vec [near (33/100), 0] ∨ h = vec [near (87/100), 0] := by
    simpa [story, roundOps, Round.ops, sround] using hh
  rcases this with rfl | rfl <;> rcases vec_two hx with ⟨-, rfl⟩ | ⟨-, rfl⟩ <;> decide +kernel

end Witness
end JaxAct
