import Verif.Lemmas.LoopTangent
import Verif.Props.C20Demo
import Verif.Props.C77

/-!
# C79 Differentiating through execute_act

`jax.jvp` of a whole `execute_act` call: the loop on values with tangents runs as often as the plain loop,
ends when it ends, and its result holds the derivatives of the result of the plain loop.
-/

namespace JaxAct
open ACTStates Filter Topology
variable {ι α β : Type}

section General
variable [Arith α] [Arith β] {R : (ι → α) → β → Prop} {θ₀ : ι} {F : Filter ι}
  {Reg : Controller α → PyTree (Leaf α) → Prop} {Good : Carry α → Prop} {l : ι → Layer α} {L : Layer β}
  {s : ι → PyTree (Leaf α)} {S : PyTree (Leaf β)} {d : ι → α} {D : β} {max : Int} {check : Bool}

theorem execute_rel (hl : LayerRel R θ₀ Reg l L) (hs : TreeRel R s S) (hd : R d D)
    (hcond : ∀ x X, CarryRel R x X → Good (x θ₀) → isActNotComplete X = isActNotComplete (x θ₀) ∧
      ∀ᶠ θ in F, isActNotComplete (x θ) = isActNotComplete (x θ₀))
    (hgood : ∀ y, (l θ₀).Visited (s θ₀) (d θ₀) max check y → Good y)
    (hreg : ∀ y, (l θ₀).Visited (s θ₀) (d θ₀) max check y →
      (y.metadata.num_iterations = 0 ∨ isActNotComplete y = true) → Reg y.controller y.state) :
    (∀ e, L.ExecuteAct S D max check (.error e) →
      ∀ θ, (l θ).ExecuteAct (s θ) (d θ) max check (.error e)) ∧
    (∀ C T, L.ExecuteAct S D max check (.ok (C, T)) → ∃ c t, CtrlRel R c C ∧ TreeRel R t T ∧
      (l θ₀).ExecuteAct (s θ₀) (d θ₀) max check (.ok (c θ₀, t θ₀)) ∧
      ∀ᶠ θ in F, (l θ).ExecuteAct (s θ) (d θ) max check (.ok (c θ, t θ))) ∧
    ∀ r, (l θ₀).ExecuteAct (s θ₀) (d θ₀) max check r → ∃ r', L.ExecuteAct S D max check r' := by
  have hp := prepare_rel hl hs hd check
  unfold Layer.ExecuteAct
  unfold Layer.Visited at hgood hreg
  cases hP : L.prepare check S D with
  | error e =>
    rw [hP] at hp
    have hp : ∀ θ, (l θ).prepare check (s θ) (d θ) = .error e := hp
    simp only [hp]
    refine ⟨fun e h θ => by cases h; rfl, fun C T h => (nomatch h), fun r _ => ⟨_, rfl⟩⟩
  | ok C₀ =>
    rw [hP] at hp
    obtain ⟨c₀, hp, hc⟩ := hp
    simp only [hp] at hgood hreg ⊢
    have hx : CarryRel R (fun θ => ⟨c₀ θ, s θ, ⟨0, max⟩⟩) ⟨C₀, S, ⟨0, max⟩⟩ := ⟨hc, hs, fun _ => rfl⟩
    have hgood := fun y hy => hgood y ⟨_, rfl, hy⟩
    have hreg := fun y hy => hreg y ⟨_, rfl, hy⟩
    generalize hX : (⟨C₀, S, ⟨0, max⟩⟩ : Carry β) = X at hx ⊢
    generalize hx' : (fun θ => ⟨c₀ θ, s θ, ⟨0, max⟩⟩ : ι → Carry α) = x at hx
    have ex : ∀ θ, (⟨c₀ θ, s θ, ⟨0, max⟩⟩ : Carry α) = x θ := fun θ => congrFun hx' θ
    simp only [ex] at hgood hreg ⊢
    have h0 : (x θ₀).rebuild.metadata.num_iterations = 0 := by rw [← ex]; rfl
    have hbody := adapter_rel hl hx.rebuild (hreg _ (.start _) (.inl h0)) check
    have hsig : ∀ θ, (x θ).sig = X.sig := hx.sig
    have hstep : ∀ (x : ι → Carry α) (X : Carry β), CarryRel R x X → Good (x θ₀) ∧
        (isActNotComplete (x θ₀) = true → Reg (x θ₀).controller (x θ₀).state) →
        isActNotComplete (x θ₀) = true →
        ResRel (CarryRel R) (fun θ => ((l θ).adapter check (x θ)).map Carry.rebuild)
          ((L.adapter check X).map Carry.rebuild) := fun x X h hg hc =>
      (adapter_rel hl h (hg.2 hc) check).map fun _ _ h => h.rebuild
    have hG : ∀ y, Visits isActNotComplete
        (fun x => ((l θ₀).adapter check x).map Carry.rebuild) (x θ₀).rebuild y →
        Good y ∧ (isActNotComplete y = true → Reg y.controller y.state) := fun y hy =>
      ⟨hgood y hy, fun h => hreg y hy (.inr h)⟩
    have hcond' : ∀ (x : ι → Carry α) (X : Carry β), CarryRel R x X → Good (x θ₀) ∧
        (isActNotComplete (x θ₀) = true → Reg (x θ₀).controller (x θ₀).state) →
        isActNotComplete X = isActNotComplete (x θ₀) ∧
        ∀ᶠ θ in F, isActNotComplete (x θ) = isActNotComplete (x θ₀) := fun x X h hg =>
      hcond x X h hg.1
    refine ⟨?_, ?_, ?_⟩
    · rintro e ⟨q, hq, he⟩ θ
      cases q with
      | ok z => cases he
      | error e' =>
        cases he
        refine ⟨.error e, ?_, rfl⟩
        rw [WhileLoop.error_iff] at hq ⊢
        rw [hsig θ]
        rcases hq with hq | ⟨t, ht, hq | ⟨out, h1, h2, h3⟩⟩
        · exact .inl hq
        · rw [hq] at hbody
          exact .inr ⟨t, ht, .inl (hbody θ)⟩
        · rw [h1] at hbody
          obtain ⟨o, h4, h5⟩ := hbody
          exact .inr ⟨t, ht, .inr ⟨o θ, h4 θ, by rw [h5.sig θ]; exact h2, h3⟩⟩
    · rintro C T ⟨q, hq, he⟩
      cases q with
      | error e => cases he
      | ok Z =>
        cases he
        obtain ⟨⟨t, out, h1, h2, h3⟩, h4⟩ := WhileLoop.ok_iff.1 hq
        rw [h2] at hbody
        obtain ⟨o, h5, h6⟩ := hbody
        obtain ⟨z, k1, k2, k3⟩ := h4.rel (cond := isActNotComplete)
          (step := fun θ x => ((l θ).adapter check x).map Carry.rebuild) hcond' hstep hx.rebuild hG
        have fin : ∀ θ, WhileSteps isActNotComplete
            (fun x => ((l θ).adapter check x).map Carry.rebuild) (x θ).rebuild (z θ) →
            ∃ q, WhileLoop Carry.sig Carry.rebuild isActNotComplete ((l θ).adapter check) (x θ) q ∧
              (.ok ((z θ).controller, (z θ).state) : Res (Controller α × PyTree (Leaf α))) =
                q.map fun x => (x.controller, x.state) := fun θ h =>
          ⟨.ok (z θ), WhileLoop.ok_iff.2 ⟨⟨t, o θ, by rw [hsig θ]; exact h1, h5 θ,
            by rw [h6.sig θ]; exact h3⟩, h⟩, rfl⟩
        exact ⟨_, _, k1.controller, k1.state, fin θ₀ k2, k3.mono fun θ => fin θ⟩
    · rintro r ⟨q, hq, -⟩
      cases q with
      | error e =>
        refine ⟨_, .error e, ?_, rfl⟩
        rw [WhileLoop.error_iff] at hq ⊢
        rw [hsig θ₀] at hq
        rcases hq with hq | ⟨t, ht, hq⟩
        · exact .inl hq
        · refine .inr ⟨t, ht, ?_⟩
          cases hB : L.adapter check X.rebuild with
          | error e' =>
            rw [hB] at hbody
            have hb : (l θ₀).adapter check (x θ₀).rebuild = .error e' := hbody θ₀
            rcases hq with hq | ⟨out, h1, -⟩
            · rw [hb] at hq; cases hq; exact .inl rfl
            · rw [hb] at h1; cases h1
          | ok O =>
            rw [hB] at hbody
            obtain ⟨o, h4, h5⟩ := hbody
            have hb : (l θ₀).adapter check (x θ₀).rebuild = .ok (o θ₀) := h4 θ₀
            rcases hq with hq | ⟨out, h1, h2, h3⟩
            · rw [hb] at hq; cases hq
            · rw [hb] at h1; cases h1
              exact .inr ⟨O, rfl, by rw [← h5.sig θ₀]; exact h2, h3⟩
      | ok z =>
        obtain ⟨⟨t, out, h1, h2, h3⟩, h4⟩ := WhileLoop.ok_iff.1 hq
        cases hB : L.adapter check X.rebuild with
        | error e' =>
          rw [hB] at hbody
          have hb : (l θ₀).adapter check (x θ₀).rebuild = .error e' := hbody θ₀
          rw [hb] at h2; cases h2
        | ok O =>
          rw [hB] at hbody
          obtain ⟨o, h5, h6⟩ := hbody
          have hb : (l θ₀).adapter check (x θ₀).rebuild = .ok (o θ₀) := h5 θ₀
          rw [hb] at h2; cases h2
          obtain ⟨Z, hZ⟩ := WhileSteps.rel' (F := F)
            (step := fun θ x => ((l θ).adapter check x).map Carry.rebuild) hcond' hstep h4 rfl
            hx.rebuild hG
          exact ⟨_, .ok Z, WhileLoop.ok_iff.2 ⟨⟨t, O, by rw [← hsig θ₀]; exact h1, hB,
            by rw [← h6.sig θ₀]; exact h3⟩, hZ⟩, rfl⟩

/-- Whether all elements are halted, entry by entry. -/
theorem completelyHalted_congr {c : Controller α} {C : Controller β}
    (hf : c.probabilities.dtype.isFloating = true) (hF : C.probabilities.dtype.isFloating = true)
    (hs : c.probabilities.shape = C.probabilities.shape)
    (h : ∀ i ∈ Arr.indices C.probabilities.shape,
      (c.probabilities.at? i).map (Spec.isHalted c.probabilities.dtype c.state.epsilon) =
      (C.probabilities.at? i).map (Spec.isHalted C.probabilities.dtype C.state.epsilon)) :
    c.isCompletelyHalted = C.isCompletelyHalted := by
  unfold Controller.isCompletelyHalted Arr.all
  rw [Controller.haltedBatches_shape, Controller.haltedBatches_shape, hs, Bool.eq_iff_iff,
    List.all_eq_true, List.all_eq_true]
  refine forall₂_congr fun i hi => ?_
  rw [Controller.at?_haltedBatches _ hf, Controller.at?_haltedBatches _ hF, h i hi]

/-- Layers made of controller calls. -/
theorem callLayer_rel {G : ACTStates α → Op α → Prop}
    (hG : ∀ (s : ι → ACTStates α) (S : ACTStates β) (op : ι → Op α) (OP : Op β), (∀ θ, (s θ).WF) → S.WF →
      StateRel R s S → CallRel R op OP → G (s θ₀) (op θ₀) →
      OutcomesRel R (fun θ => (op θ).call ⟨s θ⟩) (OP.call ⟨S⟩))
    {make : ι → PyTree (Leaf α) → α → Res (Made α)} {MAKE : PyTree (Leaf β) → β → Res (Made β)}
    {calls : ι → PyTree (Leaf α) → List (Op α)} {CALLS : PyTree (Leaf β) → List (Op β)}
    {next : ι → PyTree (Leaf α) → PyTree (Leaf α)} {NEXT : PyTree (Leaf β) → PyTree (Leaf β)}
    (hmake : ∀ s S d D, TreeRel R s S → R d D →
      ResRel (MadeRel R) (fun θ => make θ (s θ) (d θ)) (MAKE S D))
    (hcalls : CallsRel R calls CALLS next NEXT) :
    LayerRel R θ₀ (fun c s => Along G c (calls θ₀ s))
      (fun θ => callLayer (make θ) (calls θ) (next θ)) (callLayer MAKE CALLS NEXT) where
  make := hmake
  setup _ _ _ _ _ _ := ⟨fun _ => (), fun _ => rfl, trivial⟩
  run c C s S hc hs hr := by
    obtain ⟨ops, h1, h2⟩ := hcalls.calls s S hs
    have hn := hcalls.next s S hs
    simp only [h1] at hr
    have key := run_rel θ₀ hG h2 (s := fun θ => (c θ).state) (S := C.state) hc.wf hc.wf' hc.state hr
    unfold callLayer
    simp only [h1]
    cases hR : run C (CALLS S) with
    | error e =>
      rw [show (⟨C.state⟩ : Controller β) = C from rfl, hR] at key
      generalize hf : (fun θ => run ⟨(c θ).state⟩ (ops.map (· θ))) = f at key
      cases key
      intro θ
      have : run (c θ) (ops.map (· θ)) = .error e := congrFun hf θ
      show (run (c θ) (ops.map (· θ)) >>= _) = _
      rw [this]
      rfl
    | ok C' =>
      rw [show (⟨C.state⟩ : Controller β) = C from rfl, hR] at key
      generalize hf : (fun θ => run ⟨(c θ).state⟩ (ops.map (· θ))) = f at key
      cases key with
      | ok hc' =>
        rename_i c'
        have e : ∀ θ, run (c θ) (ops.map (· θ)) = .ok (c' θ) := fun θ => congrFun hf θ
        refine ⟨fun θ => .tuple [.ctrl (c' θ), .value (next θ (s θ))], fun θ => ?_,
          [fun θ => .ctrl (c' θ), fun θ => .value (next θ (s θ))], fun θ => rfl,
          .cons ⟨c', fun _ => rfl, hc', fun θ => ?_, ?_⟩ (.cons ⟨_, fun _ => rfl, hn⟩ .nil)⟩
        · show (run (c θ) (ops.map (· θ)) >>= _) = _
          rw [e]
          rfl
        · exact run_wf (s := (c θ).state) (hc.wf θ) (e θ)
        · exact run_wf (s := C.state) hc.wf' hR

end General

/-! ### Values -/

section Primal
variable {K : Type} [Field K] [LinearOrder K]
attribute [local instance] Arith.exact Arith.dual

theorem primal_cond {x : Unit → Carry K} {X : Carry (Dual K)} (h : CarryRel Primal x X) :
    isActNotComplete X = isActNotComplete (x ()) := by
  have hp := h.controller.state.probabilities
  have he : (x ()).controller.state.epsilon = X.controller.state.epsilon.re := h.controller.state.epsilon
  unfold isActNotComplete
  rw [h.metadata (), completelyHalted_congr (c := (x ()).controller) (C := X.controller)
    (h.controller.wf ()).floating h.controller.wf'.floating (hp.1 ()).1 fun i _ => ?_]
  cases hX : X.controller.probabilities.at? i with
  | none =>
    cases hx : (x ()).controller.probabilities.at? i with
    | none => rfl
    | some p =>
      obtain ⟨P, hP⟩ := Controller.at?_some_of_shape (b := X.controller.probabilities)
        (hp.1 ()).1.symm hx
      rw [hX] at hP; cases hP
  | some P =>
    obtain ⟨f, h1, h2⟩ := hp.2 i P hX
    have h1 : (x ()).controller.probabilities.at? i = some (f ()) := h1 ()
    have h2 : f () = P.re := h2
    rw [h1]
    simp only [Option.map_some, isHalted_re, h2, he]
    rfl

/-- C79, values: `execute_act` on values with tangents ends exactly when the plain call ends, raises what it
raises, and returns its values.  Nothing is asked of the numbers. -/
theorem C79_values {l : Layer K} {L : Layer (Dual K)}
    (hl : LayerRel Primal () (fun _ _ => True) (fun _ => l) L) {s : PyTree (Leaf K)}
    {S : PyTree (Leaf (Dual K))} (hs : TreeRel Primal (fun _ => s) S) {d : K} {D : Dual K}
    (hd : d = D.re) (max : Int) (check : Bool) :
    (∀ e, l.ExecuteAct s d max check (.error e) ↔ L.ExecuteAct S D max check (.error e)) ∧
    (∀ C T, L.ExecuteAct S D max check (.ok (C, T)) → ∃ c t, CtrlRel Primal (fun _ => c) C ∧
      TreeRel Primal (fun _ => t) T ∧ l.ExecuteAct s d max check (.ok (c, t))) ∧
    ∀ c t, l.ExecuteAct s d max check (.ok (c, t)) → ∃ C T, CtrlRel Primal (fun _ => c) C ∧
      TreeRel Primal (fun _ => t) T ∧ L.ExecuteAct S D max check (.ok (C, T)) := by
  obtain ⟨h1, h2, h3⟩ := execute_rel (F := ⊤) (Good := fun _ => True) (max := max) (check := check)
    (s := fun _ => s) (d := fun _ => d) hl hs hd
    (fun x X h _ => ⟨primal_cond h, Eventually.of_forall fun _ => rfl⟩) (fun _ _ => trivial)
    (fun _ _ _ => trivial)
  refine ⟨fun e => ⟨fun h => ?_, fun h => h1 e h ()⟩, fun C T h => ?_, fun c t h => ?_⟩
  · obtain ⟨r, hr⟩ := h3 _ h
    cases r with
    | error e' =>
      cases C20_unique _ _ _ _ _ _ _ h (h1 e' hr ())
      exact hr
    | ok CT =>
      obtain ⟨c, t, -, -, h4, -⟩ := h2 CT.1 CT.2 hr
      cases C20_unique _ _ _ _ _ _ _ h h4
  · obtain ⟨c, t, k1, k2, k3, -⟩ := h2 C T h
    exact ⟨c (), t (), k1, k2, k3⟩
  · obtain ⟨r, hr⟩ := h3 _ h
    cases r with
    | error e' => cases C20_unique _ _ _ _ _ _ _ h (h1 e' hr ())
    | ok CT =>
      obtain ⟨c', t', k1, k2, h4, -⟩ := h2 CT.1 CT.2 hr
      cases C20_unique _ _ _ _ _ _ _ h h4
      exact ⟨CT.1, CT.2, k1, k2, hr⟩

end Primal

/-! ### Derivatives -/

section Jvp
attribute [local instance] Arith.exact Arith.dual
variable {θ₀ : ℝ}

/-- Where no element sits exactly on the threshold, the decision whether to go on does not change
nearby. -/
theorem tangent_cond {x : ℝ → Carry ℝ} {X : Carry (Dual ℝ)} (h : CarryRel (Tangent θ₀) x X)
    (hne : (x θ₀).metadata.num_iterations < (x θ₀).metadata.max_num_iterations →
      ∀ b p, (x θ₀).controller.probabilities.at? b = some p →
        p ≠ 1 - (x θ₀).controller.state.epsilon) :
    isActNotComplete X = isActNotComplete (x θ₀) ∧
      ∀ᶠ θ in 𝓝 θ₀, isActNotComplete (x θ) = isActNotComplete (x θ₀) := by
  have hp := h.controller.state.probabilities
  have he := h.controller.state.epsilon
  have main : ∀ᶠ θ in 𝓝 θ₀, isActNotComplete (x θ) = isActNotComplete X := by
    unfold isActNotComplete
    simp only [h.metadata] at hne ⊢
    by_cases hm : X.metadata.num_iterations < X.metadata.max_num_iterations
    · have hall : ∀ᶠ θ in 𝓝 θ₀, ∀ i ∈ {i | i ∈ Arr.indices X.controller.probabilities.shape},
          ((x θ).controller.probabilities.at? i).map (Spec.isHalted
            (x θ).controller.probabilities.dtype (x θ).controller.state.epsilon) =
          (X.controller.probabilities.at? i).map (Spec.isHalted
            X.controller.probabilities.dtype X.controller.state.epsilon) := by
        rw [eventually_all_finite (List.finite_toSet _)]
        intro i _
        cases hX : X.controller.probabilities.at? i with
        | none =>
          refine Eventually.of_forall fun θ => ?_
          cases hx : (x θ).controller.probabilities.at? i with
          | none => rfl
          | some p =>
            obtain ⟨P, hP⟩ := Controller.at?_some_of_shape (b := X.controller.probabilities)
              (hp.1 θ).1.symm hx
            rw [hX] at hP; cases hP
        | some P =>
          obtain ⟨f, h1, h2⟩ := hp.2 i P hX
          have hf : ∀ θ, (x θ).controller.probabilities.at? i = some (f θ) := h1
          have hd : ∀ θ, (x θ).controller.probabilities.dtype = X.controller.probabilities.dtype :=
            fun θ => (hp.1 θ).2
          have thr : Tangent θ₀ (fun θ => Spec.threshold X.controller.probabilities.dtype
              (x θ).controller.state.epsilon)
              (Spec.threshold X.controller.probabilities.dtype X.controller.state.epsilon) :=
            (Tangent.const 1).sub he .f64
          filter_upwards [eventually_lt thr.continuousAt h2.continuousAt
            (hne hm i _ (hf θ₀)).symm] with θ hθ
          rw [hf θ, hd θ]
          simp only [Option.map_some, isHalted_re, ← h2.1, ← he.1]
          exact congrArg some hθ
      filter_upwards [hall] with θ hθ
      rw [completelyHalted_congr (h.controller.wf θ).floating h.controller.wf'.floating (hp.1 θ).1 hθ]
    · refine Eventually.of_forall fun θ => ?_
      simp only [hm, decide_false, Bool.and_false]
  have h0 := main.self_of_nhds
  exact ⟨h0.symm, main.mono fun θ hθ => hθ.trans h0.symm⟩

/-- C79, derivatives: let the user's layer, the initial state and the depression constant depend on a
parameter, and let the layer on dual numbers compute the derivatives of the user's own functions wherever
these are differentiable (`LayerRel`; `Reg` says where).  Suppose that at `θ₀` the user's iteration is
differentiable at every carry it is run on, and that no element sits exactly on the threshold when the loop
asks whether to go on.  Then `execute_act` on dual numbers ends if the plain call at `θ₀` ends; if it
raises, every plain call raises the same; and if it returns, then near `θ₀` the plain calls return, and the
result on dual numbers holds their values and derivatives at `θ₀`. -/
theorem C79_jvp {Reg : Controller ℝ → PyTree (Leaf ℝ) → Prop} {l : ℝ → Layer ℝ} {L : Layer (Dual ℝ)}
    (hl : LayerRel (Tangent θ₀) θ₀ Reg l L) {s : ℝ → PyTree (Leaf ℝ)} {S : PyTree (Leaf (Dual ℝ))}
    (hs : TreeRel (Tangent θ₀) s S) {d : ℝ → ℝ} {D : Dual ℝ} (hd : Tangent θ₀ d D) {max : Int}
    {check : Bool}
    (hreg : ∀ y, (l θ₀).Visited (s θ₀) (d θ₀) max check y →
      (y.metadata.num_iterations = 0 ∨ isActNotComplete y = true) → Reg y.controller y.state)
    (hthr : ∀ y, (l θ₀).Visited (s θ₀) (d θ₀) max check y →
      y.metadata.num_iterations < y.metadata.max_num_iterations →
      ∀ b p, y.controller.probabilities.at? b = some p → p ≠ 1 - y.controller.state.epsilon) :
    (∀ r, (l θ₀).ExecuteAct (s θ₀) (d θ₀) max check r → ∃ r', L.ExecuteAct S D max check r') ∧
    (∀ e, L.ExecuteAct S D max check (.error e) →
      ∀ θ, (l θ).ExecuteAct (s θ) (d θ) max check (.error e)) ∧
    ∀ C T, L.ExecuteAct S D max check (.ok (C, T)) → ∃ (c : ℝ → Controller ℝ) (t : ℝ → PyTree (Leaf ℝ)),
      StateRel (Tangent θ₀) (fun θ => (c θ).state) C.state ∧ TreeRel (Tangent θ₀) t T ∧
      ∀ᶠ θ in 𝓝 θ₀, (l θ).ExecuteAct (s θ) (d θ) max check (.ok (c θ, t θ)) := by
  obtain ⟨h1, h2, h3⟩ := execute_rel (F := 𝓝 θ₀) hl hs hd (fun x X h hg => tangent_cond h hg) hthr hreg
  refine ⟨h3, h1, fun C T h => ?_⟩
  obtain ⟨c, t, k1, k2, -, k3⟩ := h2 C T h
  exact ⟨c, t, k1.state, k2, k3⟩

/-- Layers made of controller calls, on dual numbers. -/
theorem tangent_callLayer {make : ℝ → PyTree (Leaf ℝ) → ℝ → Res (Made ℝ)}
    {MAKE : PyTree (Leaf (Dual ℝ)) → Dual ℝ → Res (Made (Dual ℝ))}
    {calls : ℝ → PyTree (Leaf ℝ) → List (Op ℝ)} {CALLS : PyTree (Leaf (Dual ℝ)) → List (Op (Dual ℝ))}
    {next : ℝ → PyTree (Leaf ℝ) → PyTree (Leaf ℝ)}
    {NEXT : PyTree (Leaf (Dual ℝ)) → PyTree (Leaf (Dual ℝ))}
    (hmake : ∀ s S d D, TreeRel (Tangent θ₀) s S → Tangent θ₀ d D →
      ResRel (MadeRel (Tangent θ₀)) (fun θ => make θ (s θ) (d θ)) (MAKE S D))
    (hcalls : CallsRel (Tangent θ₀) calls CALLS next NEXT) :
    LayerRel (Tangent θ₀) θ₀ (fun c s => Along (fun s op => op.Regular s) c (calls θ₀ s))
      (fun θ => callLayer (make θ) (calls θ) (next θ)) (callLayer MAKE CALLS NEXT) :=
  callLayer_rel (fun _ _ _ _ hwf hWF hs ho hg => tangent_call hwf hWF hs ho hg) hmake hcalls

/-- C79 for layers that call the controller, such as those of the user guide: all that is asked of the
user's code is that the functions which make the controller, choose the calls and compute the next state
are differentiable; and of the run at `θ₀`, that every call is regular and that no element sits exactly on
the threshold when the loop asks whether to go on. -/
theorem C79_call_layers {make : ℝ → PyTree (Leaf ℝ) → ℝ → Res (Made ℝ)}
    {MAKE : PyTree (Leaf (Dual ℝ)) → Dual ℝ → Res (Made (Dual ℝ))}
    {calls : ℝ → PyTree (Leaf ℝ) → List (Op ℝ)} {CALLS : PyTree (Leaf (Dual ℝ)) → List (Op (Dual ℝ))}
    {next : ℝ → PyTree (Leaf ℝ) → PyTree (Leaf ℝ)}
    {NEXT : PyTree (Leaf (Dual ℝ)) → PyTree (Leaf (Dual ℝ))}
    (hmake : ∀ s S d D, TreeRel (Tangent θ₀) s S → Tangent θ₀ d D →
      ResRel (MadeRel (Tangent θ₀)) (fun θ => make θ (s θ) (d θ)) (MAKE S D))
    (hcalls : CallsRel (Tangent θ₀) calls CALLS next NEXT)
    {s : ℝ → PyTree (Leaf ℝ)} {S : PyTree (Leaf (Dual ℝ))} (hs : TreeRel (Tangent θ₀) s S)
    {d : ℝ → ℝ} {D : Dual ℝ} (hd : Tangent θ₀ d D) {max : Int} {check : Bool}
    (hreg : ∀ y, (callLayer (make θ₀) (calls θ₀) (next θ₀)).Visited (s θ₀) (d θ₀) max check y →
      (y.metadata.num_iterations = 0 ∨ isActNotComplete y = true) →
      Along (fun s op => op.Regular s) y.controller (calls θ₀ y.state))
    (hthr : ∀ y, (callLayer (make θ₀) (calls θ₀) (next θ₀)).Visited (s θ₀) (d θ₀) max check y →
      y.metadata.num_iterations < y.metadata.max_num_iterations →
      ∀ b p, y.controller.probabilities.at? b = some p → p ≠ 1 - y.controller.state.epsilon)
    {C : Controller (Dual ℝ)} {T : PyTree (Leaf (Dual ℝ))}
    (h : (callLayer MAKE CALLS NEXT).ExecuteAct S D max check (.ok (C, T))) :
    ∃ (c : ℝ → Controller ℝ) (t : ℝ → PyTree (Leaf ℝ)),
      StateRel (Tangent θ₀) (fun θ => (c θ).state) C.state ∧
      TreeRel (Tangent θ₀) t T ∧ ∀ᶠ θ in 𝓝 θ₀,
        (callLayer (make θ) (calls θ) (next θ)).ExecuteAct (s θ) (d θ) max check (.ok (c θ, t θ)) :=
  (C79_jvp (tangent_callLayer hmake hcalls) hs hd hreg hthr).2.2 C T h

/-! ### A layer whose state is its halting probability -/

namespace OneElement

/-- The tensor that is the state. -/
def asTensor (z : α) : PyTree (Leaf α) → Tensor α
  | .leaf (.tensor t) => t
  | _ => one z

/-- Cache the state, iterate with the state. -/
def round (z : α) (s : PyTree (Leaf α)) : Round α := ⟨[("out", s)], asTensor z s⟩

/-- The layer: a fresh controller, the same round again and again. -/
def loop [Arith α] (eps z : α) : Layer α :=
  callLayer (fun _ d => .ok (.ctrl ⟨start eps z d⟩)) (fun s => (round z s).ops) id

theorem asTensor_rel {R : (ι → α) → β → Prop} {z : ι → α} {Z : β} (hz : R z Z)
    {s : ι → PyTree (Leaf α)} {S : PyTree (Leaf β)} (h : TreeRel R s S) :
    TensorRel R (fun θ => asTensor (z θ) (s θ)) (asTensor Z S) := by
  have other : (∀ T, S ≠ .leaf (.tensor T)) →
      TensorRel R (fun θ => asTensor (z θ) (s θ)) (asTensor Z S) := by
    intro hS
    have e1 : asTensor Z S = one Z := by
      unfold asTensor
      split
      · exact absurd rfl (hS _)
      · rfl
    have e2 : ∀ θ, asTensor (z θ) (s θ) = one (z θ) := by
      intro θ
      unfold asTensor
      split
      · next t hs =>
        obtain ⟨L, hL⟩ := (h.1 θ).leaf_iff.1 ⟨_, hs⟩
        have ht := (h.1 θ).2
        rw [hs, hL] at ht
        cases L with
        | tensor T => exact absurd hL (hS T)
        | obj o =>
          have : some (t.shape, t.dtype) = Option.none := List.head_eq_of_cons_eq ht
          cases this
      · rfl
    simp only [e1, e2]
    exact one_rel hz
  by_cases hS : ∃ T, S = .leaf (.tensor T)
  · obtain ⟨T, rfl⟩ := hS
    have hs : ∀ θ, ∃ t : Tensor α, s θ = .leaf (.tensor t) := by
      intro θ
      obtain ⟨L, hL⟩ := (h.1 θ).leaf_iff.2 ⟨_, rfl⟩
      have ht := (h.1 θ).2
      rw [hL] at ht
      cases L with
      | tensor t => exact ⟨t, hL⟩
      | obj o =>
        have : Option.none = some (T.shape, T.dtype) := List.head_eq_of_cons_eq ht
        cases this
    choose t ht using hs
    obtain rfl : s = fun θ => .leaf (.tensor (t θ)) := funext ht
    refine ⟨fun θ => ?_, fun i X hX => h.2 0 i X hX⟩
    have := (h.1 θ).2
    have : some ((t θ).shape, (t θ).dtype) = some (T.shape, T.dtype) := List.head_eq_of_cons_eq this
    simp only [Option.some.injEq, Prod.mk.injEq] at this
    exact this
  · exact other fun T hT => hS ⟨T, hT⟩

theorem round_rel {R : (ι → α) → β → Prop} {z : ι → α} {Z : β} (hz : R z Z) :
    CallsRel R (fun θ s => (round (z θ) s).ops) (fun S => (round Z S).ops) (fun _ => id) id where
  calls s _ h := ⟨[fun θ => .cache "out" (s θ), fun θ => .iterate (asTensor (z θ) (s θ))],
    fun _ => rfl, .cons (.cache _ h) (.cons (.iterate (asTensor_rel hz h)) .nil)⟩
  next _ _ h := h

/-- What holds of all carries of the loop with halting probability `3/5`. -/
structure Inv (y : Carry ℝ) : Prop where
  wf : y.controller.state.WF
  eps : y.controller.state.epsilon = 1 / 10
  dep : y.controller.state.depression_constant = 1
  prob : ∀ b p, y.controller.state.probabilities.at? b = some p → p = 0 ∨ p = 3 / 5 ∨ p = 1
  state : y.state = tree (3 / 5)

theorem clip_three_fifths : Graves.clip (3 / 5 : ℝ) = 3 / 5 := by unfold Graves.clip; norm_num

theorem inv_step {make : PyTree (Leaf ℝ) → ℝ → Res (Made ℝ)} {check : Bool} {x w : Carry ℝ} (hx : Inv x)
    (h : (callLayer make (fun s => (round (0 : ℝ) s).ops) id).adapter check x = .ok w) :
    Inv w.rebuild := by
  rw [callLayer_adapter] at h
  obtain ⟨c, hr, h⟩ := bind_ok.1 h
  have hw : w = ⟨c, x.state, x.metadata.increaseCounter⟩ := by
    cases check
    · cases h; rfl
    · obtain ⟨_, _, h⟩ := bind_ok.1 h
      cases h; rfl
  subst hw
  have hwf := run_wf (s := x.controller.state) hx.wf hr
  rw [hx.state] at hr
  change run x.controller [.cache "out" (tree (3 / 5)), .iterate (one (3 / 5))] = .ok c at hr
  simp only [run, Op.call, bind_ok] at hr
  obtain ⟨c1, h1, c2, h2, h3⟩ := hr
  cases h3
  have st1 := Controller.cacheUpdate_ok_iff.1 h1
  have w1 := Controller.CacheStep.wf hx.wf st1
  have st2 := Controller.iterateAct_ok w1 h2
  rw [st1.eq] at st2
  refine ⟨hwf.sorted, st2.epsilon.trans hx.eps, st2.depression.trans hx.dep, fun b p hp => ?_, ?_⟩
  · have hp : c.state.probabilities.at? b = some p := hp
    obtain ⟨q, hq⟩ := Controller.at?_some_of_shape (b := x.controller.state.probabilities)
      st2.pshape.symm hp
    obtain ⟨y, hy⟩ := Controller.at?_some_of_shape (b := one (3 / 5 : ℝ)) st2.hshape hq
    obtain ⟨r, hr⟩ := Controller.at?_some_of_shape (b := x.controller.state.residuals)
      hx.wf.res_shape hq
    obtain ⟨n, hn⟩ := Controller.at?_some_of_shape (b := x.controller.state.iterations)
      hx.wf.it_shape hq
    obtain ⟨k, -, -⟩ := st2.cell b q r n y hq hr hn hy
    rw [hp, at_one hy] at k
    have k := Option.some.inj k
    simp only [convS_exact] at k
    have hc : Spec.crosses (α := ℝ) x.controller.state.probabilities.dtype
        x.controller.state.epsilon x.controller.state.depression_constant q (3 / 5) =
        decide ((9 / 10 : ℝ) < 3 / 5 + q) := by
      show decide (1 - x.controller.state.epsilon < x.controller.state.depression_constant *
        Graves.clip (3 / 5) + q) = _
      rw [hx.eps, hx.dep, clip_three_fifths]
      norm_num
    have hq3 := hx.prob b q hq
    have k : p = q + (if decide ((9 / 10 : ℝ) < 3 / 5 + q) = true then 1 - q else 3 / 5) := by
      rw [k]
      show q + Spec.weight _ _ _ _ _ = _
      unfold Spec.weight
      rw [hc]
      congr 1
      split
      · rfl
      · show x.controller.state.depression_constant * Graves.clip (3 / 5) = 3 / 5
        rw [hx.dep, clip_three_fifths, one_mul]
    rcases hq3 with rfl | rfl | rfl
    · right; left; rw [k]; norm_num
    · right; right; rw [k]; norm_num
    · right; right; rw [k]; norm_num
  · show x.state.canon = _
    rw [hx.state]; rfl

theorem inv_visits {make : PyTree (Leaf ℝ) → ℝ → Res (Made ℝ)} {check : Bool} {x y : Carry ℝ}
    (h : Visits isActNotComplete (fun x => ((callLayer make
      (fun s => (round (0 : ℝ) s).ops) id).adapter check x).map Carry.rebuild) x y) (hx : Inv x) :
    Inv y := by
  induction h with
  | start => exact hx
  | next x y z _ hy _ ih =>
    cases hw : (callLayer make (fun s => (round (0 : ℝ) s).ops) id).adapter check x with
    | error e => rw [hw] at hy; cases hy
    | ok w =>
      rw [hw] at hy
      cases hy
      exact ih (inv_step hx hw)

theorem inv_visited {max : Int} {check : Bool} {y : Carry ℝ}
    (h : (loop (1 / 10 : ℝ) 0).Visited (tree (3 / 5)) 1 max check y) : Inv y := by
  obtain ⟨c, hc, h⟩ := h
  have hc := (Layer.prepare_ok hc).1
  cases hc
  refine inv_visits h ⟨(start_wf ..).sorted, rfl, rfl, fun b p hp => ?_, rfl⟩
  exact .inl (at_one hp)

theorem loop_typed [Arith α] (z x : α) :
    TypedCalls (fun s => (round z s).ops) id (tree x) where
  calls s hs := by
    obtain ⟨L, hL⟩ := hs.leaf_iff.1 ⟨_, rfl⟩
    have ht := hs.2
    rw [hL] at ht
    cases L with
    | obj o =>
      have : some ([1], DType.f32) = Option.none := List.head_eq_of_cons_eq ht
      cases this
    | tensor t =>
      have ht : some ([1], DType.f32) = some (t.shape, t.dtype) := List.head_eq_of_cons_eq ht
      simp only [Option.some.injEq, Prod.mk.injEq] at ht
      subst hL
      exact .cons (.cache _ hs) (.cons (.iterate ht) .nil)
  next s hs := hs

theorem loop_ok [Arith α] (eps z d x : α) (max : Int) (check : Bool) :
    ∃ C T, (loop eps z).ExecuteAct (tree x) d max check (.ok (C, T)) := by
  obtain ⟨c, hc⟩ := calls_ok eps z d x x
  refine C50_execute_act_succeeds _ (round z) id check ⟨start eps z d⟩ c (tree x) d max rfl
    (start_wf ..) rfl (List.cons_ne_nil _ _) (fun n u h => ?_) (fun l hl => ?_) (loop_typed z x) hc
  · exact (Fixtures.get?_one h).2
  · have : (tree x).treeLeaves = [.tensor (one x)] := rfl
    rw [this, List.mem_singleton] at hl
    exact ⟨_, hl⟩

end OneElement

open OneElement

/-- The hypotheses hold together: halting probability and update both `θ`, at `θ₀ = 3/5`; the loop runs
twice.  Near `θ₀` it runs twice as well, and the derivatives come out. -/
theorem C79_example (max : Int) (check : Bool) : ∃ C T,
    (loop (⟨1 / 10, 0⟩ : Dual ℝ) ⟨0, 0⟩).ExecuteAct (tree ⟨3 / 5, 1⟩) ⟨1, 0⟩ max check (.ok (C, T)) ∧
    ∃ (c : ℝ → Controller ℝ) (t : ℝ → PyTree (Leaf ℝ)),
      StateRel (Tangent (3 / 5)) (fun θ => (c θ).state) C.state ∧ TreeRel (Tangent (3 / 5)) t T ∧
      ∀ᶠ θ in 𝓝 (3 / 5), (loop (1 / 10 : ℝ) 0).ExecuteAct (tree θ) 1 max check (.ok (c θ, t θ)) := by
  obtain ⟨C, T, h⟩ := loop_ok (⟨1 / 10, 0⟩ : Dual ℝ) ⟨0, 0⟩ ⟨1, 0⟩ ⟨3 / 5, 1⟩ max check
  refine ⟨C, T, h, C79_call_layers (make := fun _ _ d => .ok (.ctrl ⟨start (1 / 10) 0 d⟩))
    (calls := fun _ s => (round 0 s).ops) (next := fun _ => id) (s := fun θ => tree θ) (d := fun _ => 1)
    ?_ (round_rel (Tangent.const 0)) (tree_rel ⟨rfl, hasDerivAt_id _⟩) (Tangent.const 1) ?_ ?_ h⟩
  · intro s S d D _ hd
    exact ⟨_, fun _ => rfl, _, fun _ => rfl, start_rel (Tangent.const _) (Tangent.const _) hd,
      fun _ => start_wf .., start_wf ..⟩
  · intro y hy _
    have hi := inv_visited hy
    rw [hi.state]
    refine ⟨trivial, fun c' hc => ⟨?_, fun _ _ => trivial⟩⟩
    have st := Controller.cacheUpdate_ok_iff.1
      (show Controller.cacheUpdate y.controller "out" (tree (3 / 5)) = .ok c' from hc)
    rw [st.eq]
    intro b p x hp hx
    have hx : x = 3 / 5 := at_one hx
    subst hx
    show p ≠ 1 - y.controller.state.epsilon ∧ p + y.controller.state.depression_constant *
      Graves.clip (3 / 5) ≠ 1 - y.controller.state.epsilon ∧ (p + y.controller.state.depression_constant *
      Graves.clip (3 / 5) < 1 - y.controller.state.epsilon → (3 / 5 : ℝ) ≠ 0 ∧ (3 / 5 : ℝ) ≠ 1)
    rw [hi.eps, hi.dep, clip_three_fifths]
    rcases hi.prob b p hp with rfl | rfl | rfl <;> norm_num
  · intro y hy _ b p hp
    have hi := inv_visited hy
    rw [hi.eps]
    rcases hi.prob b p hp with rfl | rfl | rfl <;> norm_num

end Jvp

section Example
open OneElement
attribute [local instance] Arith.exact Arith.dual

/-- What is observed of a controller. -/
private def look (c : Controller (Dual ℚ)) : List (Option (Dual ℚ)) :=
  [c.iterations.at? [0], c.probabilities.at? [0], c.residuals.at? [0],
    entry? c.accumulators "out" 0 [0]]

private def d (x y : ℚ) : Dual ℚ := ⟨x, y⟩

/-- Over the rationals, at `3/5`: two iterations, probability `1` with tangent `0`, residual `1 - θ` with
tangent `-1`, output `θ * θ + (1 - θ) * θ` with tangent `1`. -/
example : ∃ C T, (loop (d (1 / 10) 0) (d 0 0)).ExecuteAct (tree (d (3 / 5) 1)) (d 1 0) 5 true
      (.ok (C, T)) ∧ look C = [some (d 2 0), some (d 1 0), some (d (2 / 5) (-1)), some (d (3 / 5) 1)] := by
  have hfuel : (whileFuel isActNotComplete
      (fun x => ((loop (d (1 / 10) 0) (d 0 0)).adapter true x).map Carry.rebuild) 5
      (Carry.rebuild ⟨⟨start (d (1 / 10) 0) (d 0 0) (d 1 0)⟩, tree (d (3 / 5) 1), ⟨0, 5⟩⟩)).map
        (fun z => look z.controller) =
      some [some (d 2 0), some (d 1 0), some (d (2 / 5) (-1)), some (d (3 / 5) 1)] := by decide +kernel
  obtain ⟨z, hz, hobs⟩ := Option.map_eq_some_iff.1 hfuel
  exact ⟨z.controller, z.state, execute_of_fuel (loop_ok ..) rfl hz, hobs⟩

end Example

end JaxAct
