import Verif.Props.C61
import Verif.Props.C64

/-!
# C65 execute_act runs the documented loop in the precision of the arrays

`while_loop` turns `epsilon` and `depression_constant` into float32 arrays (C64), so the loop of
`execute_act` and the Python loop of its documentation can stop at different times: false of the code.
Proved: they agree whenever the two floats give the same threshold and the same factor either way, as
the defaults do.
-/

namespace JaxAct
open PyTree ACTStates Fmt

section Loop
variable {σ σ' S : Type}

/-- Loops whose conditions and bodies correspond along `φ` have corresponding outcomes. -/
theorem WhileSteps.map_iff {cond : σ → Bool} {cond' : σ' → Bool} {step : σ → Res σ}
    {step' : σ' → Res σ'} {φ : σ → σ'} {I : σ → Prop} (hcond : ∀ x, I x → cond' (φ x) = cond x)
    (hstep : ∀ x, I x → step' (φ x) = (step x).map φ) (hI : ∀ x y, I x → step x = .ok y → I y) {x : σ}
    (hx : I x) {z' : σ'} :
    WhileSteps cond' step' (φ x) z' ↔ ∃ z, WhileSteps cond step x z ∧ z' = φ z := by
  constructor
  · intro h
    generalize hw : φ x = w at h
    induction h generalizing x with
    | stop w hc =>
      subst hw
      exact ⟨x, .stop x (by rw [← hcond x hx]; exact hc), rfl⟩
    | next w v z hc hs _ ih =>
      subst hw
      rw [hstep x hx] at hs
      cases hsx : step x with
      | error e => rw [hsx] at hs; cases hs
      | ok y =>
        rw [hsx] at hs
        obtain ⟨z0, h1, h2⟩ := ih (hI x y hx hsx) (Except.ok.inj hs)
        exact ⟨z0, .next x y z0 (by rw [← hcond x hx]; exact hc) hsx h1, h2⟩
  · rintro ⟨z, h, rfl⟩
    induction h with
    | stop x hc => exact .stop _ (by rw [hcond x hx]; exact hc)
    | next x y z hc hs _ ih =>
      refine .next _ (φ y) _ (by rw [hcond x hx]; exact hc) ?_ (ih (hI x y hx hs))
      rw [hstep x hx, hs]; rfl

theorem WhileSteps.invariant {cond : σ → Bool} {step : σ → Res σ} {I : σ → Prop}
    (hI : ∀ x y, I x → step x = .ok y → I y) {x z : σ} (h : WhileSteps cond step x z) (hx : I x) :
    I z := by
  induction h with
  | stop => exact hx
  | next x y z _ hs _ ih => exact ih (hI x y hx hs)

theorem WhileLoop.map_iff [DecidableEq S] {sig : σ → Option S} {sig' : σ' → Option S}
    {rebuild : σ → σ} {rebuild' : σ' → σ'} {cond : σ → Bool} {cond' : σ' → Bool}
    {body : σ → Res σ} {body' : σ' → Res σ'} {φ : σ → σ'} {I : σ → Prop}
    (hsig : ∀ x, sig' (φ x) = sig x) (hreb : ∀ x, rebuild' (φ x) = φ (rebuild x))
    (hcond : ∀ x, I x → cond' (φ x) = cond x)
    (hbody : ∀ x, I x → body' (φ x) = (body x).map φ)
    (hI : ∀ x y, I x → body x = .ok y → I (rebuild y)) {init : σ} (hx : I (rebuild init))
    {r : Res σ'} :
    WhileLoop sig' rebuild' cond' body' (φ init) r ↔
      ∃ q, WhileLoop sig rebuild cond body init q ∧ r = q.map φ := by
  unfold WhileLoop
  rw [hsig]
  cases sig init with
  | none =>
    constructor
    · rintro rfl; exact ⟨_, rfl, rfl⟩
    · rintro ⟨q, rfl, rfl⟩; rfl
  | some t =>
    simp only [hreb, hbody _ hx]
    cases hb : body (rebuild init) with
    | error e =>
      constructor
      · rintro rfl; exact ⟨_, rfl, rfl⟩
      · rintro ⟨q, rfl, rfl⟩; rfl
    | ok out =>
      simp only [Except.map, hsig]
      have hstep : ∀ x, I x → (body' (φ x)).map rebuild' = ((body x).map rebuild).map φ := by
        intro x h
        rw [hbody x h]
        cases body x with
        | error e => rfl
        | ok y => exact congrArg Except.ok (hreb y)
      have key := fun z' => WhileSteps.map_iff (step := fun x => (body x).map rebuild)
        (step' := fun x => (body' x).map rebuild') hcond hstep (fun x y h hy => by
          cases hbx : body x with
          | error e => rw [hbx] at hy; cases hy
          | ok w => rw [hbx] at hy; cases hy; exact hI x w h hbx) hx (z' := z')
      split
      · constructor
        · rintro ⟨z', h, rfl⟩
          obtain ⟨z, h1, rfl⟩ := (key z').1 h
          exact ⟨_, ⟨z, h1, rfl⟩, rfl⟩
        · rintro ⟨q, ⟨z, h1, rfl⟩, rfl⟩
          exact ⟨_, (key _).2 ⟨z, h1, rfl⟩, rfl⟩
      · constructor
        · rintro rfl; exact ⟨_, rfl, rfl⟩
        · rintro ⟨q, rfl, rfl⟩; rfl

end Loop

section Carry
variable {α : Type}

/-- The carry with other Python floats. -/
def Carry.withScalars (e dc : α) (x : Carry α) : Carry α :=
  ⟨x.controller.withScalars e dc, x.state, x.metadata⟩

theorem avals_congr : ∀ {as bs : List (Atom α)}, as.map Atom.aval = bs.map Atom.aval →
    avals as = avals bs
  | [], [], _ => rfl
  | [], _ :: _, h => by cases h
  | _ :: _, [], h => by cases h
  | a :: as, b :: bs, h => by
    simp only [List.map_cons, List.cons.injEq] at h
    unfold avals
    rw [h.1, avals_congr h.2]

theorem Carry.withScalars_sig (e dc : α) (x : Carry α) : (x.withScalars e dc).sig = x.sig := by
  have h1 : (flattenObj (x.withScalars e dc).controller.raw).2 = (flattenObj x.controller.raw).2 := rfl
  have h2 : avals (flattenObj (x.withScalars e dc).controller.raw).1 =
      avals (flattenObj x.controller.raw).1 := by
    apply avals_congr
    simp [flattenObj, Controller.raw, treeFlattenState, stateFlatten, flattenFields, RawState.asDict,
      ACTStates.raw, Carry.withScalars, Controller.withScalars, ACTStates.withScalars, treeLeaves,
      PyTree.canon, PyTree.leaves, Atom.aval]
  unfold Carry.sig
  rw [h1, h2]
  rfl

theorem Carry.withScalars_rebuild (e dc : α) (x : Carry α) :
    (x.withScalars e dc).rebuild = x.rebuild.withScalars e dc := rfl

theorem NoF64.canon {t : PyTree (Leaf α)} (h : NoF64 t) : NoF64 t.canon := by
  intro a ha
  rw [treeLeaves_canon] at ha
  exact h a ha

theorem ACTStates.NoF64.sorted {s : ACTStates α} (hwf : s.WF) (h : s.NoF64) : s.sorted.NoF64 where
  iterations := h.iterations
  probabilities := h.probabilities
  accumulators n t ht := by
    rw [show s.sorted.accumulators = s.accumulators.sorted from rfl, Dict.get?_sorted hwf.acc_keys,
      Option.map_eq_some_iff] at ht
    obtain ⟨u, hu, rfl⟩ := ht
    exact (h.accumulators n u hu).canon
  updates n t ht := by
    rw [show s.sorted.updates = s.updates.sorted from rfl, Dict.get?_sorted hwf.upd_keys,
      Option.map_eq_some_iff] at ht
    obtain ⟨u, hu, rfl⟩ := ht
    exact (h.updates n u hu).canon

variable {A B : Arith α} {make : PyTree (Leaf α) → α → Res (Made α)}
  {calls : PyTree (Leaf α) → List (Op α)} {next : PyTree (Leaf α) → PyTree (Leaf α)}

theorem adapter_agree (h : AgreeOff64 A B) {e dc : α} {check : Bool} {x : Carry α}
    (hs : ScalarsAgree A B x.controller.state e dc) (hwf : x.controller.state.WF)
    (hno : x.controller.state.NoF64) (hops : ∀ op ∈ calls x.state, op.NoF64) :
    @Layer.adapter α B (@callLayer α B make calls next) check (x.withScalars e dc) =
      (@Layer.adapter α A (@callLayer α A make calls next) check x).map (Carry.withScalars e dc) := by
  have hr : @run α B (x.withScalars e dc).controller (calls x.state) =
      (@run α A x.controller (calls x.state)).map (Controller.withScalars e dc) :=
    run_agree h _ hs hwf hno hops
  have hl : ∀ C : Arith α, ∀ y : Carry α,
      @Layer.adapter α C (@callLayer α C make calls next) check y =
      @run α C y.controller (calls y.state) >>= fun c' =>
        (do
          if check then @validateUpdate α C y.controller (.tuple [.ctrl c', .value (next y.state)])
          pure ⟨c', next y.state, y.metadata.increaseCounter⟩) := by
    intro C y
    unfold Layer.adapter Layer.wrappedRun callLayer
    simp only
    cases @run α C y.controller (calls y.state) with
    | error e => rfl
    | ok c' =>
      simp only [ok_bind]
      cases check with
      | false => rfl
      | true =>
        simp only [if_true]
        show (@validateUpdate α C y.controller (.tuple [.ctrl c', .value (next y.state)]) >>=
          fun _ => (pure (Ret.tuple [.ctrl c', .value (next y.state)]) : Res (Ret α))) >>= _ = _
        cases @validateUpdate α C y.controller (.tuple [.ctrl c', .value (next y.state)]) <;> rfl
  rw [hl, hl]
  have hst : (x.withScalars e dc).state = x.state := rfl
  rw [hst, hr]
  cases hrun : @run α A x.controller (calls x.state) with
  | error e => rfl
  | ok c' =>
    cases check with
    | false => rfl
    | true =>
      simp only [Except.map, ok_bind, if_true]
      have hv : @validateUpdate α B (x.withScalars e dc).controller
            (.tuple [.ctrl (c'.withScalars e dc), .value (next x.state)]) =
          @validateUpdate α A x.controller (.tuple [.ctrl c', .value (next x.state)]) := rfl
      rw [hv]
      cases @validateUpdate α A x.controller (.tuple [.ctrl c', .value (next x.state)]) <;> rfl

end Carry

section Theorems
variable {F : DType → Fmt}

/-- `execute_act` with the floats tracked is `execute_act` in the arithmetic of the traced function, from
the controller as the traced function sees it. -/
theorem tracedExecuteAct_iff {make : PyTree (Leaf ℚ) → ℚ → Res (Made ℚ)}
    {calls : PyTree (Leaf ℚ) → List (Op ℚ)} {next : PyTree (Leaf ℚ) → PyTree (Leaf ℚ)}
    {s0 : PyTree (Leaf ℚ)} {dep : ℚ} {max : Int} {check : Bool} {c0 : Controller ℚ}
    (hmake : make s0 dep = .ok (.ctrl c0)) {r : Res (Controller ℚ × PyTree (Leaf ℚ))} :
    Layer.TracedExecuteAct F (@callLayer ℚ (Arith.rounded F) make calls next)
      (@callLayer ℚ (Arith.rounded (tracedFmt F)) make calls next) s0 dep max check r ↔
    @Layer.ExecuteAct ℚ (Arith.rounded (tracedFmt F)) (@callLayer ℚ (Arith.rounded (tracedFmt F))
      (fun _ _ => .ok (.ctrl ⟨c0.state.traced F⟩)) calls next) s0 dep max check r := by
  unfold Layer.TracedExecuteAct Layer.ExecuteAct Layer.prepare Layer.wrappedMake
  have hm : (@callLayer ℚ (Arith.rounded F) make calls next).makeController s0 dep =
      .ok (.ctrl c0) := hmake
  rw [hm]
  cases check with
  | false => exact Iff.rfl
  | true =>
    have h1 : validateNotEmpty (⟨c0.state.traced F⟩ : Controller ℚ) = validateNotEmpty c0 := rfl
    simp only [callLayer, ok_bind, if_true, validateMade, h1]
    cases validateNotEmpty c0 <;> exact Iff.rfl

/-- C65.  Partial: the threshold and the depression factor must be the same numbers of the dtype `d` of
the probabilities whether `epsilon` and `depression_constant` go through float32 or not (C65 claims the
conclusion without).  Then `execute_act`, for a layer that makes controller calls on arrays of which none
is float64, has the outcome of the loop in which the two stay Python floats: the same exception, or the
same user state and a controller with the same arrays, or no outcome at all if the loop does not end. -/
theorem C65_execute_act_traced_partial (make : PyTree (Leaf ℚ) → ℚ → Res (Made ℚ))
    (calls : PyTree (Leaf ℚ) → List (Op ℚ)) (next : PyTree (Leaf ℚ) → PyTree (Leaf ℚ))
    (s0 : PyTree (Leaf ℚ)) (dep : ℚ) (max : Int) (check : Bool) {c0 : Controller ℚ}
    (hmake : make s0 dep = .ok (.ctrl c0)) (hwf : c0.state.WF) (hno : c0.state.NoF64)
    {d : DType} (hd : c0.state.probabilities.dtype = d)
    (hthr : (F d).rnd ((F .f32).rnd (1 - (F .f32).rnd c0.state.epsilon)) =
      (F d).rnd ((F .f64).rnd (1 - c0.state.epsilon)))
    (hdep : (F d).rnd ((F .f32).rnd c0.state.depression_constant) =
      (F d).rnd c0.state.depression_constant)
    (hops : ∀ t, ∀ op ∈ calls (loopStates next s0 t), op.NoF64)
    (r : Res (Controller ℚ × PyTree (Leaf ℚ))) :
    Layer.TracedExecuteAct F (@callLayer ℚ (Arith.rounded F) make calls next)
      (@callLayer ℚ (Arith.rounded (tracedFmt F)) make calls next) s0 dep max check r ↔
    ∃ r', @Layer.ExecuteAct ℚ (Arith.rounded F) (@callLayer ℚ (Arith.rounded F) make calls next)
        s0 dep max check r' ∧ r = r'.map fun p => (⟨p.1.state.traced F⟩, p.2) := by
  subst hd
  unfold Layer.TracedExecuteAct Layer.ExecuteAct
  cases hp : (@callLayer ℚ (Arith.rounded F) make calls next).prepare check s0 dep with
  | error e =>
    constructor
    · rintro rfl; exact ⟨_, rfl, rfl⟩
    · rintro ⟨q, rfl, rfl⟩; rfl
  | ok c =>
    have hc : c = c0 := by
      unfold Layer.prepare Layer.wrappedMake at hp
      have hm : (@callLayer ℚ (Arith.rounded F) make calls next).makeController s0 dep =
          .ok (.ctrl c0) := hmake
      rw [hm] at hp
      cases check with
      | false => cases hp; rfl
      | true =>
        change (validateNotEmpty c0 >>= fun _ => _) >>= _ = _ at hp
        cases hv : validateNotEmpty c0 with
        | error e => rw [hv] at hp; cases hp
        | ok u => rw [hv] at hp; cases hp; rfl
    subst hc
    set e := (F .f32).rnd c.state.epsilon with he
    set dc := (F .f32).rnd c.state.depression_constant with hdc
    have hs0 : ScalarsAgree (Arith.rounded F) (Arith.rounded (tracedFmt F)) c.state e dc := by
      constructor
      · rw [@Spec.threshold_rounded F (Arith.rounded F) rfl _ hwf.floating,
          @Spec.threshold_rounded (tracedFmt F) (Arith.rounded (tracedFmt F)) rfl _ hwf.floating,
          tracedFmt_ne hno.probabilities]
        exact hthr.symm
      · show Arith.roundTo F _ _ = Arith.roundTo (tracedFmt F) _ _
        rw [Spec.roundTo_float hwf.floating, Spec.roundTo_float hwf.floating,
          tracedFmt_ne hno.probabilities]
        exact hdep.symm
    let I : Carry ℚ → Prop := fun x => x.controller.state.WF ∧ x.controller.state.NoF64 ∧
      x.controller.state.epsilon = c.state.epsilon ∧
      x.controller.state.depression_constant = c.state.depression_constant ∧
      x.controller.state.probabilities.dtype = c.state.probabilities.dtype ∧
      ∃ t, x.state = loopStates next s0 t
    have hinit : I (Carry.rebuild ⟨c, s0, ⟨0, max⟩⟩) :=
      ⟨hwf.sorted, hno.sorted hwf, rfl, rfl, rfl, 0, rfl⟩
    have hI : ∀ x y, I x → @Layer.adapter ℚ (Arith.rounded F)
        (@callLayer ℚ (Arith.rounded F) make calls next) check x = .ok y → I y.rebuild := by
      rintro x y ⟨h1, h2, h3, h4, h5, t, h6⟩ hy
      have hr : @run ℚ (Arith.rounded F) x.controller (calls x.state) = .ok y.controller ∧
          y.state = next x.state := by
        unfold Layer.adapter Layer.wrappedRun callLayer at hy
        simp only [bind_ok] at hy
        obtain ⟨ret, ⟨ret', ⟨c', g1, g2⟩, g3⟩, items, g4, g5⟩ := hy
        cases g2
        have g6 : ret = .tuple [.ctrl c', .value (next x.state)] := by
          cases check with
          | false => cases g3; rfl
          | true =>
            simp only [if_true, bind_ok] at g3
            obtain ⟨-, -, g3⟩ := g3
            cases g3; rfl
        rw [g6] at g4
        cases g4
        cases g5
        exact ⟨g1, rfl⟩
      obtain ⟨k1, k2, k3, k4, k5⟩ := @run_scalars ℚ (Arith.rounded F) (calls x.state)
        x.controller.state h1 h2 (by rw [h6]; exact hops t) y.controller hr.1
      refine ⟨k1.sorted, k2.sorted k1, k3.trans h3, k4.trans h4, k5.trans h5, t + 1, ?_⟩
      show y.state.canon = (next (loopStates next s0 t)).canon
      rw [hr.2, h6]
    have hloop := fun q => WhileLoop.map_iff (S := CarrySig) (sig := Carry.sig) (sig' := Carry.sig)
      (rebuild := Carry.rebuild) (rebuild' := Carry.rebuild)
      (cond := @isActNotComplete ℚ (Arith.rounded F))
      (cond' := @isActNotComplete ℚ (Arith.rounded (tracedFmt F)))
      (body := @Layer.adapter ℚ (Arith.rounded F) (@callLayer ℚ (Arith.rounded F) make calls next) check)
      (body' := @Layer.adapter ℚ (Arith.rounded (tracedFmt F))
        (@callLayer ℚ (Arith.rounded (tracedFmt F)) make calls next) check)
      (φ := Carry.withScalars e dc)
      (I := I)
      (Carry.withScalars_sig e dc) (Carry.withScalars_rebuild e dc) ?_ ?_ hI
      (init := ⟨c, s0, ⟨0, max⟩⟩) hinit (r := q)
    rotate_left
    · rintro x ⟨h1, h2, h3, h4, h5, -⟩
      have := haltedBatches_agree (s := x.controller.state) agree_traced (e := e) (dc := dc)
        ⟨by rw [h5, h3]; exact hs0.threshold, by rw [h5, h4]; exact hs0.depression⟩ h1 h2
      unfold isActNotComplete Controller.isCompletelyHalted
      rw [show (x.withScalars e dc).controller = ⟨x.controller.state.withScalars e dc⟩ from rfl, this]
      rfl
    · rintro x ⟨h1, h2, h3, h4, h5, t, h6⟩
      exact adapter_agree agree_traced
        ⟨by rw [h5, h3]; exact hs0.threshold, by rw [h5, h4]; exact hs0.depression⟩ h1 h2
        (by rw [h6]; exact hops t)
    have hfin : ∀ z, @WhileLoop (Carry ℚ) CarrySig _ Carry.sig Carry.rebuild
        (@isActNotComplete ℚ (Arith.rounded F))
        (@Layer.adapter ℚ (Arith.rounded F) (@callLayer ℚ (Arith.rounded F) make calls next) check)
        ⟨c, s0, ⟨0, max⟩⟩ (.ok z) → (z.withScalars e dc).controller = ⟨z.controller.state.traced F⟩ := by
      intro z hz
      have hz' := (WhileLoop.ok_iff.1 hz).2
      obtain ⟨-, -, h3, h4, -⟩ := hz'.invariant (I := I) (fun x y h hy => by
        cases hb : @Layer.adapter ℚ (Arith.rounded F)
            (@callLayer ℚ (Arith.rounded F) make calls next) check x with
        | error e => rw [hb] at hy; cases hy
        | ok w => rw [hb] at hy; cases hy; exact hI x w h hb) hinit
      show (⟨z.controller.state.withScalars e dc⟩ : Controller ℚ) = _
      unfold ACTStates.traced ACTStates.withScalars
      rw [h3, h4]
    constructor
    · rintro ⟨q, h1, rfl⟩
      obtain ⟨q', h2, rfl⟩ := (hloop q).1 h1
      refine ⟨_, ⟨q', h2, rfl⟩, ?_⟩
      cases q' with
      | error e => rfl
      | ok z =>
        show Except.ok ((z.withScalars e dc).controller, z.state) = _
        rw [hfin z h2]; rfl
    · rintro ⟨r', ⟨q', h2, rfl⟩, rfl⟩
      refine ⟨_, (hloop _).2 ⟨q', h2, rfl⟩, ?_⟩
      cases q' with
      | error e => rfl
      | ok z =>
        show _ = Except.ok ((z.withScalars e dc).controller, z.state)
        rw [hfin z h2]; rfl

end Theorems

/-! ### The IEEE formats -/

section IEEE
open Fixtures

/-- `simple` with an `epsilon` just above `2^-25`. -/
def fineSimple : ACTStates ℚ := { simple with epsilon := fineEpsilon }

theorem fineSimple_wf : fineSimple.WF := simple_wf.withScalars (e := fineEpsilon) (dc := 1)

theorem fine_typed (A : Arith ℚ) :
    @TypedCalls ℚ A (fun s => (demoRound s).ops) id (bare (vec [1, 1])) := by
  refine ⟨fun s hs => ?_, fun s hs => hs⟩
  obtain ⟨l, rfl⟩ := hs.leaf_iff.1 ⟨_, rfl⟩
  have h2 := hs.2
  simp only [bare, treeLeaves, PyTree.canon, leaves, List.map_cons, List.map_nil, List.cons.injEq,
    and_true] at h2
  obtain ⟨t, rfl, h3, h4⟩ := Leaf.type_some.1 h2.symm
  exact .cons (.cache _ (.refl _)) (.cons (.iterate ⟨h3.symm, h4.symm⟩) .nil)

theorem fine_states (t : Nat) : loopStates id (bare (vec [1, 1])) t = bare (vec [1, 1]) := by
  induction t with
  | zero => rfl
  | succ t ih => unfold loopStates; rw [ih]; rfl

/-- C65, negative.  A layer whose halting probabilities are one, with `epsilon = 2^-25 + 2^-52` and
float32 arrays.  The documented loop runs one iteration, after which every element is halted.
`execute_act` returns, too, but has run all of the `max_iterations` iterations, and no element is
halted. -/
theorem C65_false (max : Int) (hmax : 1 ≤ max) (check : Bool) :
    let make : PyTree (Leaf ℚ) → ℚ → Res (Made ℚ) := fun _ _ => .ok (.ctrl ⟨fineSimple⟩)
    let calls := fun s => (demoRound s).ops
    let s0 := bare (vec [1, 1])
    let traced := Layer.TracedExecuteAct DType.fmt (@callLayer ℚ ieee make calls id)
      (@callLayer ℚ (Arith.rounded (tracedFmt DType.fmt)) make calls id) s0 1 max check
    (∃ c s, @Layer.ExecuteAct ℚ ieee (@callLayer ℚ ieee make calls id) s0 1 max check (.ok (c, s)) ∧
      @AllHalted ℚ ieee c ∧
      ∃ c', @run ℚ ieee ⟨fineSimple⟩ (loopCalls calls id s0 1) = .ok c' ∧ c.state.Same c'.state) ∧
    (∃ c s, traced (.ok (c, s))) ∧
    ∀ c s, traced (.ok (c, s)) →
      (∀ b, (@Controller.haltedBatches ℚ (Arith.rounded (tracedFmt DType.fmt)) c).at? b ≠
        some true) ∧
      ∃ c', @run ℚ (Arith.rounded (tracedFmt DType.fmt)) ⟨fineSimple.traced DType.fmt⟩
        (loopCalls calls id s0 max.toNat) = .ok c' ∧ c.state.Same c'.state := by
  intro make calls s0 traced
  have hdw : fineSimple.DictsWF := ⟨simple_dictsWF.1, simple_dictsWF.2, simple_dictsWF.3⟩
  have hdt : (fineSimple.traced DType.fmt).DictsWF :=
    ⟨simple_dictsWF.1, simple_dictsWF.2, simple_dictsWF.3⟩
  have hwt : (fineSimple.traced DType.fmt).WF := fineSimple_wf.withScalars (e := _) (dc := _)
  have hops : ∀ t, ∀ op ∈ calls (loopStates id s0 t), op.DictsWF := by
    intro t op hop
    rw [fine_states] at hop
    have : op = .cache "out" (bare (col 4 6)) ∨ op = .iterate (vec [1, 1]) := by
      simpa [calls, demoRound, Round.ops, bare] using hop
    rcases this with rfl | rfl <;> trivial
  refine ⟨?_, ?_, ?_⟩
  · have hok : succeeds (@run ℚ ieee ⟨fineSimple⟩ (demoRound s0).ops) = true := by decide +kernel
    cases hr : @run ℚ ieee ⟨fineSimple⟩ (demoRound s0).ops with
    | error e => rw [hr] at hok; cases hok
    | ok c1 =>
      obtain ⟨c, s, h⟩ := @C50_execute_act_succeeds ℚ ieee make demoRound id check ⟨fineSimple⟩ c1 s0 1
        max rfl fineSimple_wf rfl (by simp [fineSimple, simple]) simple_idle (vec_tensors _)
        (fine_typed _) hr
      obtain ⟨k, h1, h2, -, -, ⟨c', h3, h4⟩, h5, h6⟩ := @C61_loop_is_history ℚ ieee make calls id s0 1
        max check ⟨fineSimple⟩ rfl fineSimple_wf hdw hops c s h
      have e1 : @run ℚ ieee ⟨fineSimple⟩ (loopCalls calls id s0 1) = .ok c1 := by
        have : loopCalls calls id s0 1 = (demoRound s0).ops := by
          simp [loopCalls, fine_states, calls, s0]
        rw [this]; exact hr
      have hall : @AllHalted ℚ ieee c1 := by
        have h0 : obs (@run ℚ ieee ⟨fineSimple⟩ (demoRound s0).ops)
          (fun c => some (@Controller.isCompletelyHalted ℚ ieee c)) = some true := by decide +kernel
        rw [hr] at h0
        exact (@isCompletelyHalted_iff ℚ ieee c1).1 (Option.some.inj h0)
      have hk : k = 1 := by
        rcases Nat.lt_trichotomy k 1 with hk | hk | hk
        · have : k = 0 := by omega
          subst this
          have h0 : @Controller.isCompletelyHalted ℚ ieee ⟨fineSimple⟩ = false := by decide +kernel
          cases h3
          rcases h5 with h5 | h5
          · have := (@isCompletelyHalted_iff ℚ ieee _).2 ((@allHalted_same ℚ ieee _ _ h4).1 h5)
            rw [h0] at this; cases this
          · omega
        · exact hk
        · obtain ⟨ct, g1, g2⟩ := h6 1 hk
          rw [e1] at g1
          cases g1
          exact absurd hall g2
      subst hk
      rw [e1] at h3
      cases h3
      exact ⟨c, s, h, (@allHalted_same ℚ ieee _ _ h4).2 hall, c1, e1, h4⟩
  · have hok : succeeds (@run ℚ (Arith.rounded (tracedFmt DType.fmt)) ⟨fineSimple.traced DType.fmt⟩
        (demoRound s0).ops) = true := by decide +kernel
    cases hr : @run ℚ (Arith.rounded (tracedFmt DType.fmt)) ⟨fineSimple.traced DType.fmt⟩
        (demoRound s0).ops with
    | error e => rw [hr] at hok; cases hok
    | ok c1 =>
      obtain ⟨c, s, h⟩ := @C50_execute_act_succeeds ℚ (Arith.rounded (tracedFmt DType.fmt))
        (fun _ _ => .ok (.ctrl ⟨fineSimple.traced DType.fmt⟩)) demoRound id check
        ⟨fineSimple.traced DType.fmt⟩ c1 s0 1 max rfl hwt rfl
        (by simp [fineSimple, simple, ACTStates.traced]) simple_idle (vec_tensors _) (fine_typed _) hr
      exact ⟨c, s, (tracedExecuteAct_iff (c0 := ⟨fineSimple⟩) rfl).2 h⟩
  · intro c s h
    have h := (tracedExecuteAct_iff (c0 := ⟨fineSimple⟩) rfl).1 h
    obtain ⟨k, h1, h2, -, -, ⟨c', h3, h4⟩, h5, h6⟩ :=
      @C61_loop_is_history ℚ (Arith.rounded (tracedFmt DType.fmt))
        (fun _ _ => .ok (.ctrl ⟨fineSimple.traced DType.fmt⟩)) calls id s0 1 max check
        ⟨fineSimple.traced DType.fmt⟩ rfl hwt hdt hops c s h
    have never : ∀ b, (@Controller.haltedBatches ℚ (Arith.rounded (tracedFmt DType.fmt)) c).at? b ≠
        some true := by
      have e : @Controller.haltedBatches ℚ (Arith.rounded (tracedFmt DType.fmt)) c =
          @Controller.haltedBatches ℚ (Arith.rounded (tracedFmt DType.fmt)) c' := by
        unfold Controller.haltedBatches Controller.haltThreshold Controller.probabilities
        rw [h4.probabilities, h4.epsilon]
      rw [e]
      refine @C18_threshold_one_never_halts (tracedFmt DType.fmt)
        (Arith.rounded (tracedFmt DType.fmt)) rfl (fmt_valid .f32) _ hwt (fmt_valid .f32) ?_ ?_ ?_ ?_
        _ c' h3
      · decide +kernel
      · decide +kernel
      · intro b p hp
        rcases vec_two (x := 0) (y := 0) hp with ⟨-, rfl⟩ | ⟨-, rfl⟩ <;>
          exact ⟨rnd_zero _, le_rfl, zero_le_one⟩
      · decide +kernel
    refine ⟨never, c', ?_, h4⟩
    have hk : k = max.toNat := by
      rcases h5 with h5 | h5
      · have hx : ∃ x, (@Controller.haltedBatches ℚ (Arith.rounded (tracedFmt DType.fmt)) c).at? [0] =
            some x := by
          have hsh := (@C14_types_invariant ℚ (Arith.rounded (tracedFmt DType.fmt)) _ hwt _ _ h3).2.2.1
          apply Option.isSome_iff_exists.1
          rw [Arr.at?_isSome, @Controller.haltedBatches_shape ℚ (Arith.rounded (tracedFmt DType.fmt)),
            show c.probabilities = c'.probabilities from h4.probabilities, hsh]
          exact .cons (by decide) .nil
        obtain ⟨x, hx⟩ := hx
        exact absurd (h5 _ _ hx ▸ hx) (never [0])
      · omega
    rw [← hk]; exact h3

/-- With the default `epsilon = 1e-4` (the nearest Python float), no depression and float32 arrays the
hypotheses of `C65_execute_act_traced_partial` about the numbers hold; the others for the demo layer. -/
example (max : Int) (check : Bool) (r : Res (Controller ℚ × PyTree (Leaf ℚ))) :
    let c0 : Controller ℚ := ⟨{ simple with epsilon := DType.f64.fmt.rnd (1 / 10000) }⟩
    let make : PyTree (Leaf ℚ) → ℚ → Res (Made ℚ) := fun _ _ => .ok (.ctrl c0)
    let calls := fun s => (demoRound s).ops
    Layer.TracedExecuteAct DType.fmt (@callLayer ℚ ieee make calls id)
      (@callLayer ℚ (Arith.rounded (tracedFmt DType.fmt)) make calls id) (bare (vec [1, 1])) 1 max check
        r ↔
    ∃ r', @Layer.ExecuteAct ℚ ieee (@callLayer ℚ ieee make calls id) (bare (vec [1, 1])) 1 max check r' ∧
      r = r'.map fun p => (⟨p.1.state.traced DType.fmt⟩, p.2) := by
  intro c0 make calls
  have h1 : ∀ t : Tensor ℚ, t.dtype ≠ .f64 → NoF64 (bare t) := by
    intro t ht a ha
    have : (bare t).treeLeaves = [.tensor t] := rfl
    rw [this, List.mem_singleton] at ha
    cases ha
    exact ht
  have hs := C64_default_scalars (d := .f32) (.inl rfl)
  refine C65_execute_act_traced_partial make calls id _ 1 max check (c0 := c0) rfl
    (simple_wf.withScalars (e := DType.f64.fmt.rnd (1 / 10000)) (dc := 1))
    ⟨by decide, by decide, fun n t h => ?_, fun n t h => ?_⟩ (d := .f32) rfl hs.1 hs.2 ?_ r
  · rw [(get?_one h).2]; exact h1 _ (by decide)
  · rw [(get?_one h).2]; intro a ha; cases ha
  · intro t op hop
    rw [fine_states] at hop
    have : op = .cache "out" (bare (col 4 6)) ∨ op = .iterate (vec [1, 1]) := by
      simpa [calls, demoRound, Round.ops, bare] using hop
    rcases this with rfl | rfl
    · exact h1 _ (by decide)
    · show DType.f32 ≠ .f64; decide

end IEEE
end JaxAct
