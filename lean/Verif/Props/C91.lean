import Verif.Props.C79
import Verif.Spec.Superposition

/-!
# C91 Tangents superpose

`jax.jvp` computes a linear map of the tangents, at every point: the tangents of a run on a linear
combination of tangents are the same combination of the tangents of the single runs.  That is what
reverse-mode differentiation and `jacfwd` take for granted, and unlike C77 it holds on the threshold and at
the corners of the clip as well.
-/

namespace JaxAct
open ACTStates Filter

/-! ### Scalars -/

section Scalars
variable {ι K : Type} [Fintype ι] [Field K] [LinearOrder K] {w : ι → K} {f g : ι → Dual K}
  {X Y : Dual K}
attribute [local instance] Arith.dual

omit [LinearOrder K] in
theorem Superposed.const (x : K) : Superposed w (fun _ => ⟨x, 0⟩) ⟨x, 0⟩ := ⟨fun _ => rfl, by simp⟩

theorem Superposed.add (h : Superposed w f X) (k : Superposed w g Y) (d : DType) :
    Superposed w (fun v => Arith.add d (f v) (g v)) (Arith.add d X Y) := by
  refine ⟨fun v => ?_, ?_⟩
  · show (f v).re + (g v).re = X.re + Y.re
    rw [h.1, k.1]
  · show X.im + Y.im = ∑ v, w v * ((f v).im + (g v).im)
    rw [h.2, k.2, ← Finset.sum_add_distrib]
    exact Finset.sum_congr rfl fun v _ => by ring

theorem Superposed.sub (h : Superposed w f X) (k : Superposed w g Y) (d : DType) :
    Superposed w (fun v => Arith.sub d (f v) (g v)) (Arith.sub d X Y) := by
  refine ⟨fun v => ?_, ?_⟩
  · show (f v).re - (g v).re = X.re - Y.re
    rw [h.1, k.1]
  · show X.im - Y.im = ∑ v, w v * ((f v).im - (g v).im)
    rw [h.2, k.2, ← Finset.sum_sub_distrib]
    exact Finset.sum_congr rfl fun v _ => by ring

theorem Superposed.mul (h : Superposed w f X) (k : Superposed w g Y) (d : DType) :
    Superposed w (fun v => Arith.mul d (f v) (g v)) (Arith.mul d X Y) := by
  refine ⟨fun v => ?_, ?_⟩
  · show (f v).re * (g v).re = X.re * Y.re
    rw [h.1, k.1]
  · show X.im * Y.re + X.re * Y.im = ∑ v, w v * ((f v).im * (g v).re + (f v).re * (g v).im)
    rw [h.2, k.2, Finset.sum_mul, Finset.mul_sum, ← Finset.sum_add_distrib]
    exact Finset.sum_congr rfl fun v _ => by rw [h.1, k.1]; ring

omit [LinearOrder K] in
theorem Superposed.mean (h : Superposed w f X) (k : Superposed w g Y) :
    Superposed w (fun v => ⟨(f v).re, ((f v).im + (g v).im) / 2⟩) ⟨X.re, (X.im + Y.im) / 2⟩ := by
  refine ⟨h.1, ?_⟩
  show (X.im + Y.im) / 2 = ∑ v, w v * (((f v).im + (g v).im) / 2)
  rw [h.2, k.2, ← Finset.sum_add_distrib, Finset.sum_div]
  exact Finset.sum_congr rfl fun v _ => by ring

omit [LinearOrder K] in
/-- A choice that does not depend on the tangents. -/
theorem Superposed.ite (h : Superposed w f X) (k : Superposed w g Y) {c : ι → Bool} {C : Bool}
    (e : ∀ v, c v = C) :
    Superposed w (fun v => if c v then f v else g v) (if C then X else Y) := by
  cases C with
  | true => simpa [e] using h
  | false => simpa [e] using k

theorem Superposed.max (h : Superposed w f X) (k : Superposed w g Y) :
    Superposed w (fun v => Arith.max (f v) (g v)) (Arith.max X Y) := by
  have e : (fun v => Arith.max (f v) (g v)) = fun v => if X.re < Y.re then g v else
      if Y.re < X.re then f v else ⟨(f v).re, ((f v).im + (g v).im) / 2⟩ := by
    funext v
    show (if (f v).re < (g v).re then _ else if (g v).re < (f v).re then _ else _) = _
    rw [h.1, k.1]
  rw [e]
  show Superposed w _ (if X.re < Y.re then _ else if Y.re < X.re then _ else _)
  split
  · exact k
  · split
    · exact h
    · exact h.mean k

theorem Superposed.min (h : Superposed w f X) (k : Superposed w g Y) :
    Superposed w (fun v => Arith.min (f v) (g v)) (Arith.min X Y) := by
  have e : (fun v => Arith.min (f v) (g v)) = fun v => if X.re < Y.re then f v else
      if Y.re < X.re then g v else ⟨(f v).re, ((f v).im + (g v).im) / 2⟩ := by
    funext v
    show (if (f v).re < (g v).re then _ else if (g v).re < (f v).re then _ else _) = _
    rw [h.1, k.1]
  rw [e]
  show Superposed w _ (if X.re < Y.re then _ else if Y.re < X.re then _ else _)
  split
  · exact h
  · split
    · exact k
    · exact h.mean k

theorem Superposed.clamp (h : Superposed w f X) :
    Superposed w (fun v => Spec.clamp (f v)) (Spec.clamp X) :=
  (Superposed.const 1).min ((Superposed.const 0).max h)

/-- Comparisons look at the values only. -/
theorem Superposed.lt (h : Superposed w f X) (k : Superposed w g Y) (v : ι) :
    Arith.lt (f v) (g v) = Arith.lt X Y := by
  show decide ((f v).re < (g v).re) = decide (X.re < Y.re)
  rw [h.1, k.1]

variable {e q p x : ι → Dual K} {E Q P : Dual K}

theorem Superposed.threshold (he : Superposed w e E) (d : DType) :
    Superposed w (fun v => Spec.threshold d (e v)) (Spec.threshold d E) :=
  (Superposed.const 1).sub he .f64

theorem Superposed.isHalted (he : Superposed w e E) (hp : Superposed w p P) (d : DType) (v : ι) :
    Spec.isHalted d (e v) (p v) = Spec.isHalted d E P :=
  (he.threshold d).lt hp v

theorem Superposed.demand (hq : Superposed w q Q) (hx : Superposed w x X) (d : DType) :
    Superposed w (fun v => Spec.demand d (q v) (x v)) (Spec.demand d Q X) :=
  hq.mul hx.clamp d

theorem Superposed.crosses (he : Superposed w e E) (hq : Superposed w q Q) (hp : Superposed w p P)
    (hx : Superposed w x X) (d : DType) (v : ι) :
    Spec.crosses d (e v) (q v) (p v) (x v) = Spec.crosses d E Q P X :=
  (he.threshold d).lt ((hq.demand hx d).add hp d) v

theorem Superposed.weight (he : Superposed w e E) (hq : Superposed w q Q) (hp : Superposed w p P)
    (hx : Superposed w x X) (d : DType) :
    Superposed w (fun v => Spec.weight d (e v) (q v) (p v) (x v)) (Spec.weight d E Q P X) :=
  Superposed.ite ((Superposed.const 1).sub hp d) (hq.demand hx d) (he.crosses hq hp hx d)

end Scalars

/-! ### Calls -/

section Calls
variable {ι K : Type} [Fintype ι] [Field K] [LinearOrder K] {w : ι → K}
attribute [local instance] Arith.dual

theorem superposed_call {s : ι → ACTStates (Dual K)} {S : ACTStates (Dual K)} {op : ι → Op (Dual K)}
    {OP : Op (Dual K)} (hwf : ∀ v, (s v).WF) (hWF : S.WF) (hs : StateRel (Superposed w) s S)
    (ho : CallRel (Superposed w) op OP) :
    OutcomesRel (Superposed w) (fun v => (op v).call ⟨s v⟩) (OP.call ⟨S⟩) := by
  have he := hs.epsilon
  have hq := hs.depression
  refine call_rel hwf hWF hs ho ?_ ?_
  · intro h H _ _ _ b p x P X _ _ hp hx
    refine ⟨?_, ?_, ?_, ?_⟩
    · simp only [convS_dual]
      exact hp.add (he.weight hq hp hx _) _
    · intro r Q hr
      simp only [Spec.step, convS_dual]
      exact Superposed.ite ((Superposed.const 1).sub hp _) hr fun v => by
        rw [he.crosses hq hp hx, he.isHalted hp]
    · intro n N hn
      simp only [Spec.step, convS_dual]
      exact Superposed.ite hn (hn.add (Superposed.const 1) _) (he.isHalted hp _)
    · intro dA dU a u A U ha hu
      simp only [Spec.accStep, convS_dual]
      exact Superposed.ite ha (ha.add ((he.weight hq hp hx _).mul hu _) _) (he.isHalted hp _)
  · intro _ b p P _ hp
    refine ⟨?_, ?_⟩
    · intro d' x X hx
      simp only [Spec.keepIf, convS_dual]
      refine hx.mul ?_ _
      simp only [he.isHalted hp]
      unfold Arith.ofBool
      split
      · exact Superposed.const 1
      · exact Superposed.const 0
    · intro a x A X ha hx
      simp only [Spec.resetEntry]
      exact Superposed.ite hx ha (he.isHalted hp _)

theorem along_true {α : Type} [Arith α] (l : List (Op α)) :
    ∀ c : Controller α, Along (fun _ _ => True) c l := by
  induction l with
  | nil => intro _; trivial
  | cons op l ih => intro c; exact ⟨trivial, fun c' _ => ih c'⟩

/-- C91: run the same calls on the same values with several choices `v` of the tangents of everything that
goes in (epsilon, the depression constant, the state, the updates, the halting probabilities), and once
with their sum with weights `w`.  All raise the same exception, or what the last run returns has the values
of the others, and their tangents summed with weights `w`.  Nothing is asked of the values. -/
theorem C91_calls [Nonempty ι] {s : ι → ACTStates (Dual K)} {S : ACTStates (Dual K)}
    (hwf : ∀ v, (s v).WF) (hWF : S.WF) (hs : StateRel (Superposed w) s S)
    {ops : List (ι → Op (Dual K))} {OPS : List (Op (Dual K))}
    (ho : List.Forall₂ (CallRel (Superposed w)) ops OPS) :
    OutcomesRel (Superposed w) (fun v => run ⟨s v⟩ (ops.map (· v))) (run ⟨S⟩ OPS) :=
  run_rel (G := fun _ _ => True) (Classical.arbitrary ι)
    (fun _ _ _ _ hwf hWF hs ho _ => superposed_call hwf hWF hs ho) ho hwf hWF hs (along_true _ _)

end Calls

/-! ### The loop -/

section Loop
variable {ι K : Type} [Fintype ι] [Field K] [LinearOrder K] {w : ι → K}
attribute [local instance] Arith.dual

theorem superposed_cond {x : ι → Carry (Dual K)} {X : Carry (Dual K)}
    (h : CarryRel (Superposed w) x X) (v : ι) : isActNotComplete X = isActNotComplete (x v) := by
  have hp := h.controller.state.probabilities
  unfold isActNotComplete
  rw [h.metadata v, completelyHalted_congr (c := (x v).controller) (C := X.controller)
    (h.controller.wf v).floating h.controller.wf'.floating (hp.1 v).1 fun i _ => ?_]
  cases hX : X.controller.probabilities.at? i with
  | none =>
    cases hx : (x v).controller.probabilities.at? i with
    | none => rfl
    | some p =>
      obtain ⟨P, hP⟩ := Controller.at?_some_of_shape (b := X.controller.probabilities)
        (hp.1 v).1.symm hx
      rw [hX] at hP; cases hP
  | some P =>
    obtain ⟨f, h1, h2⟩ := hp.2 i P hX
    have h1 : (x v).controller.probabilities.at? i = some (f v) := h1 v
    have hd : (x v).controller.probabilities.dtype = X.controller.probabilities.dtype := (hp.1 v).2
    rw [h1, hd]
    simp only [Option.map_some]
    exact congrArg some (h.controller.state.epsilon.isHalted h2 _ v)

/-- C91 for `execute_act`: if the methods of the layer treat tangents linearly, the whole call does.  The
run on the combined tangents ends exactly when the others end, after as many iterations, raises what they
raise, and returns their values with the tangents summed with weights `w`. -/
theorem C91_execute_act (v₀ : ι) {l : ι → Layer (Dual K)} {L : Layer (Dual K)}
    (hl : LayerRel (Superposed w) v₀ (fun _ _ => True) l L) {s : ι → PyTree (Leaf (Dual K))}
    {S : PyTree (Leaf (Dual K))} (hs : TreeRel (Superposed w) s S) {d : ι → Dual K} {D : Dual K}
    (hd : Superposed w d D) (max : Int) (check : Bool) :
    (∀ e, L.ExecuteAct S D max check (.error e) →
      ∀ v, (l v).ExecuteAct (s v) (d v) max check (.error e)) ∧
    (∀ C T, L.ExecuteAct S D max check (.ok (C, T)) →
      ∃ (c : ι → Controller (Dual K)) (t : ι → PyTree (Leaf (Dual K))),
      StateRel (Superposed w) (fun v => (c v).state) C.state ∧ TreeRel (Superposed w) t T ∧
      ∀ v, (l v).ExecuteAct (s v) (d v) max check (.ok (c v, t v))) ∧
    ∀ v r, (l v).ExecuteAct (s v) (d v) max check r → ∃ r', L.ExecuteAct S D max check r' := by
  have main : ∀ v, LayerRel (Superposed w) v (fun _ _ => True) l L := fun _ =>
    ⟨hl.make, hl.setup, fun c C s S hc hs _ => hl.run c C s S hc hs trivial⟩
  have key := fun v => execute_rel (F := ⊤) (Good := fun _ => True) (max := max) (check := check) (main v)
    hs hd (fun x X h _ => ⟨superposed_cond h v, Eventually.of_forall fun u => by
      rw [← superposed_cond h u, superposed_cond h v]⟩) (fun _ _ => trivial) (fun _ _ _ => trivial)
  refine ⟨(key v₀).1, fun C T h => ?_, fun v => (key v).2.2⟩
  obtain ⟨c, t, h1, h2, _, h3⟩ := (key v₀).2.1 C T h
  exact ⟨c, t, h1.state, h2, eventually_top.1 h3⟩

/-- For layers that call the controller, such as those of the user guide, it is enough that the functions
which make the controller, choose the calls and compute the next state treat tangents linearly. -/
theorem C91_call_layers [Nonempty ι] {make : ι → PyTree (Leaf (Dual K)) → Dual K → Res (Made (Dual K))}
    {MAKE : PyTree (Leaf (Dual K)) → Dual K → Res (Made (Dual K))}
    {calls : ι → PyTree (Leaf (Dual K)) → List (Op (Dual K))}
    {CALLS : PyTree (Leaf (Dual K)) → List (Op (Dual K))}
    {next : ι → PyTree (Leaf (Dual K)) → PyTree (Leaf (Dual K))}
    {NEXT : PyTree (Leaf (Dual K)) → PyTree (Leaf (Dual K))}
    (hmake : ∀ s S d D, TreeRel (Superposed w) s S → Superposed w d D →
      ResRel (MadeRel (Superposed w)) (fun v => make v (s v) (d v)) (MAKE S D))
    (hcalls : CallsRel (Superposed w) calls CALLS next NEXT)
    {s : ι → PyTree (Leaf (Dual K))} {S : PyTree (Leaf (Dual K))} (hs : TreeRel (Superposed w) s S)
    {d : ι → Dual K} {D : Dual K} (hd : Superposed w d D) (max : Int) (check : Bool)
    {C : Controller (Dual K)} {T : PyTree (Leaf (Dual K))}
    (h : (callLayer MAKE CALLS NEXT).ExecuteAct S D max check (.ok (C, T))) :
    ∃ (c : ι → Controller (Dual K)) (t : ι → PyTree (Leaf (Dual K))),
      StateRel (Superposed w) (fun v => (c v).state) C.state ∧ TreeRel (Superposed w) t T ∧
      ∀ v, (callLayer (make v) (calls v) (next v)).ExecuteAct (s v) (d v) max check
        (.ok (c v, t v)) := by
  have hl := callLayer_rel (θ₀ := Classical.arbitrary ι) (G := fun _ _ => True)
    (fun _ _ _ _ hwf hWF hs ho _ => superposed_call hwf hWF hs ho) hmake hcalls
  exact (C91_execute_act (Classical.arbitrary ι) ⟨hl.make, hl.setup, fun c C s S hc hs _ =>
    hl.run c C s S hc hs (along_true _ _)⟩ hs hd max check).2.1 C T h

end Loop

/-! ### Example -/

section Example
open OneElement
attribute [local instance] Arith.dual

/-- The hypotheses hold together, at a corner of the clip where the library is not differentiable
(`C77_corner`): halting probability `0` and update `3`, the two tangents `(1, 0)` and `(0, 1)`, and their
sum with any weights. -/
theorem C91_example (w : Bool → ℚ) : OutcomesRel (Superposed w)
    (fun v => run ⟨start ⟨1 / 10, 0⟩ ⟨0, 0⟩ ⟨1, 0⟩⟩
      (calls (⟨3, if v then 0 else 1⟩ : Dual ℚ) ⟨0, if v then 1 else 0⟩))
    (run ⟨start ⟨1 / 10, 0⟩ ⟨0, 0⟩ ⟨1, 0⟩⟩ (calls (⟨3, w false⟩ : Dual ℚ) ⟨0, w true⟩)) := by
  have hu : Superposed w (fun v => (⟨3, if v then 0 else 1⟩ : Dual ℚ)) ⟨3, w false⟩ :=
    ⟨fun _ => rfl, by simp⟩
  have hh : Superposed w (fun v => (⟨0, if v then 1 else 0⟩ : Dual ℚ)) ⟨0, w true⟩ :=
    ⟨fun _ => rfl, by simp⟩
  have hs : StateRel (Superposed w) (fun _ => start (⟨1 / 10, 0⟩ : Dual ℚ) ⟨0, 0⟩ ⟨1, 0⟩)
      (start ⟨1 / 10, 0⟩ ⟨0, 0⟩ ⟨1, 0⟩) :=
    start_rel (Superposed.const (1 / 10)) (Superposed.const 0) (Superposed.const 1)
  have := C91_calls (fun _ => start_wf ..) (start_wf ..) hs (calls_rel hu hh)
  simp only [List.map] at this
  exact this

/-- The same for the loop: halting probability and update both `3/5`, in every number of directions. -/
theorem C91_loop_example {ι : Type} [Fintype ι] [Nonempty ι] (w t : ι → ℝ) (max : Int) (check : Bool) :
    ∃ C T, (loop (⟨1 / 10, 0⟩ : Dual ℝ) ⟨0, 0⟩).ExecuteAct (tree ⟨3 / 5, ∑ v, w v * t v⟩) ⟨1, 0⟩ max check
      (.ok (C, T)) ∧ ∃ (c : ι → Controller (Dual ℝ)) (u : ι → PyTree (Leaf (Dual ℝ))),
      StateRel (Superposed w) (fun v => (c v).state) C.state ∧ TreeRel (Superposed w) u T ∧
      ∀ v, (loop (⟨1 / 10, 0⟩ : Dual ℝ) ⟨0, 0⟩).ExecuteAct (tree ⟨3 / 5, t v⟩) ⟨1, 0⟩ max check
        (.ok (c v, u v)) := by
  obtain ⟨C, T, h⟩ := loop_ok (⟨1 / 10, 0⟩ : Dual ℝ) ⟨0, 0⟩ ⟨1, 0⟩ ⟨3 / 5, ∑ v, w v * t v⟩ max check
  have hx : Superposed w (fun v => (⟨3 / 5, t v⟩ : Dual ℝ)) ⟨3 / 5, ∑ v, w v * t v⟩ := ⟨fun _ => rfl, rfl⟩
  have hc : CallsRel (Superposed w) (fun _ s => (round (⟨0, 0⟩ : Dual ℝ) s).ops)
    (fun S => (round ⟨0, 0⟩ S).ops) (fun _ => id) id := round_rel (Superposed.const 0)
  have := C91_call_layers (w := w) (make := fun _ _ d => .ok (.ctrl ⟨start ⟨1 / 10, 0⟩ ⟨0, 0⟩ d⟩))
    (MAKE := fun _ d => .ok (.ctrl ⟨start ⟨1 / 10, 0⟩ ⟨0, 0⟩ d⟩)) (fun s S d D _ hd =>
      ⟨_, fun _ => rfl, _, fun _ => rfl, start_rel (Superposed.const (1 / 10)) (Superposed.const 0) hd,
        fun _ => start_wf .., start_wf ..⟩) hc (tree_rel hx) (Superposed.const 1) max check h
  exact ⟨C, T, h, this⟩

end Example

end JaxAct
