import Verif.Spec.Traced
import Verif.Lemmas.Types

/-! # Two arithmetics that agree on everything but float64 -/

namespace JaxAct
variable {α β γ δ : Type}

/-- The two arithmetics perform the same operations, except in float64. -/
structure AgreeOff64 (A B : Arith α) : Prop where
  zero : A.zero = B.zero
  one : A.one = B.one
  add : ∀ d, d ≠ .f64 → A.add d = B.add d
  sub : ∀ d, d ≠ .f64 → A.sub d = B.sub d
  mul : ∀ d, d ≠ .f64 → A.mul d = B.mul d
  cast : ∀ d, d ≠ .f64 → A.cast d = B.cast d
  max : A.max = B.max
  min : A.min = B.min
  lt : A.lt = B.lt

theorem promote_ne_f64 {d e : DType} (hd : d ≠ .f64) (he : e ≠ .f64) :
    DType.promote d e ≠ .f64 := by
  cases d <;> cases e <;> simp_all [DType.promote]

theorem withFloat_ne_f64 {d : DType} (hd : d ≠ .f64) : d.withFloat ≠ .f64 := by
  cases d <;> simp_all [DType.withFloat, DType.isFloating]

theorem ne_f64_of_withFloat {d : DType} (hd : d.withFloat ≠ .f64) : d ≠ .f64 := by
  rintro rfl; exact hd rfl

theorem withInt_ne_f64 {d : DType} (hd : d ≠ .f64) : d.withInt ≠ .f64 := by
  cases d <;> simp_all [DType.withInt]

namespace AgreeOff64
variable {A B : Arith α} (h : AgreeOff64 A B)
include h

theorem conv {d : DType} (hd : d ≠ .f64) (t : Tensor α) :
    @Tensor.conv α A d t = @Tensor.conv α B d t := by
  unfold Tensor.conv; rw [h.cast d hd]

theorem binop {f g : DType → α → α → α} (hfg : ∀ d, d ≠ .f64 → f d = g d) {a b : Tensor α}
    (ha : a.dtype ≠ .f64) (hb : b.dtype ≠ .f64) :
    @Tensor.binop α A f a b = @Tensor.binop α B g a b := by
  have hd := promote_ne_f64 ha hb
  unfold Tensor.binop
  simp only [hfg _ hd, h.conv hd]

theorem floatMul {c c' : α} {t : Tensor α} (hd : t.dtype ≠ .f64)
    (hc : A.cast t.dtype.withFloat c = B.cast t.dtype.withFloat c') :
    @Tensor.floatMul α A c t = @Tensor.floatMul α B c' t := by
  have hd := withFloat_ne_f64 hd
  unfold Tensor.floatMul
  simp only [h.conv hd, hc, h.mul _ hd]

theorem gtFloat {c c' : α} {t : Tensor α} (hd : t.dtype ≠ .f64)
    (hc : A.cast t.dtype.withFloat c = B.cast t.dtype.withFloat c') :
    @Tensor.gtFloat α A t c = @Tensor.gtFloat α B t c' := by
  have hd := withFloat_ne_f64 hd
  unfold Tensor.gtFloat
  simp only [h.conv hd, hc, h.lt]

theorem oneSub {t : Tensor α} (hd : t.dtype ≠ .f64) :
    @Tensor.oneSub α A t = @Tensor.oneSub α B t := by
  have hd := withInt_ne_f64 hd
  unfold Tensor.oneSub
  simp only [h.conv hd, h.one, h.sub _ hd]

theorem addOne {t : Tensor α} (hd : t.dtype ≠ .f64) :
    @Tensor.addOne α A t = @Tensor.addOne α B t := by
  have hd := withInt_ne_f64 hd
  unfold Tensor.addOne
  simp only [h.conv hd, h.one, h.add _ hd]

theorem clip01 {t : Tensor α} (hd : t.dtype ≠ .f64) :
    @Tensor.clip01 α A t = @Tensor.clip01 α B t := by
  have hd := withFloat_ne_f64 hd
  unfold Tensor.clip01
  simp only [h.conv hd, h.one, h.zero, h.max, h.min]

theorem ofMask (m : Arr Bool) : @Tensor.ofMask α A m = @Tensor.ofMask α B m := by
  have : (@Arith.ofBool α A) = @Arith.ofBool α B := by
    funext b; unfold Arith.ofBool; rw [h.one, h.zero]
  unfold Tensor.ofMask; rw [this]

end AgreeOff64

theorem mergeLoop_congr {f g : β → γ → Res δ} : ∀ {as : List β} {bs : List γ},
    (∀ a ∈ as, ∀ b ∈ bs, f a b = g a b) → Utils.mergeLoop f as bs = Utils.mergeLoop g as bs
  | [], _, _ => by cases ‹List γ› <;> rfl
  | _ :: _, [], _ => rfl
  | a :: as, b :: bs, hfg => by
    simp only [Utils.mergeLoop]
    rw [hfg a (by simp) b (by simp),
      mergeLoop_congr (as := as) (bs := bs) fun x hx y hy => hfg x (by simp [hx]) y (by simp [hy])]

theorem mergePytrees_congr {f g : β → γ → Res δ} {s : PyTree β} {t : PyTree γ}
    (hfg : ∀ a ∈ s.treeLeaves, ∀ b ∈ t.treeLeaves, f a b = g a b) :
    Utils.mergePytrees f s t = Utils.mergePytrees g s t := by
  unfold Utils.mergePytrees
  simp only [mergeLoop_congr hfg]

/-- The state with other Python floats in it. -/
def ACTStates.withScalars (s : ACTStates α) (e d : α) : ACTStates α :=
  { s with epsilon := e, depression_constant := d }

/-- The controller with other Python floats in it. -/
def Controller.withScalars (e d : α) (c : Controller α) : Controller α := ⟨c.state.withScalars e d⟩

section Calls
variable {A B : Arith α} {s : ACTStates α} {e dc : α}

/-- The numbers the two arithmetics make of the Python floats are the same. -/
structure ScalarsAgree (A B : Arith α) (s : ACTStates α) (e dc : α) : Prop where
  threshold : @Spec.threshold α A s.probabilities.dtype s.epsilon =
    @Spec.threshold α B s.probabilities.dtype e
  depression : A.cast s.probabilities.dtype s.depression_constant =
    B.cast s.probabilities.dtype dc

theorem bind_congr_ok {x : Res β} {f g : β → Res γ} (h : ∀ v, x = .ok v → f v = g v) :
    x >>= f = x >>= g := by
  cases x with
  | error e => rfl
  | ok v => exact h v rfl

theorem map_bind {x : Res β} {f : β → Res γ} {k : γ → δ} :
    (x >>= f).map k = x >>= fun v => (f v).map k := by
  cases x <;> rfl

theorem ACTStates.WF.withScalars (hwf : s.WF) : (s.withScalars e dc).WF :=
  ⟨hwf.1, hwf.2, hwf.3, hwf.4, hwf.5, hwf.6, hwf.7, hwf.8, hwf.9, hwf.10, hwf.11, hwf.12⟩

theorem cacheUpdate_withScalars (n : String) (t : PyTree (Leaf α)) :
    Controller.cacheUpdate ⟨s.withScalars e dc⟩ n t =
      (Controller.cacheUpdate ⟨s⟩ n t).map (Controller.withScalars e dc) := by
  unfold Controller.cacheUpdate
  simp only [ACTStates.withScalars]
  by_cases h : s.updates.mem n = true
  · simp only [h, not_true_eq_false, if_false]
    cases Dict.getItem s.updates n with
    | error e => rfl
    | ok cur =>
      simp only [ok_bind]
      cases cur.isNone <;> rfl
  · simp only [h]
    rfl

variable (h : AgreeOff64 A B) (hs : ScalarsAgree A B s e dc) (hwf : s.WF) (hno : s.NoF64)
include h hs hwf hno

theorem haltedBatches_agree :
    @Controller.haltedBatches α B ⟨s.withScalars e dc⟩ = @Controller.haltedBatches α A ⟨s⟩ := by
  have hd : s.probabilities.dtype.withFloat = s.probabilities.dtype := by
    unfold DType.withFloat; rw [if_pos hwf.floating]
  refine (h.gtFloat hno.probabilities ?_).symm
  rw [hd]
  exact hs.threshold

theorem processProbabilities_agree {t : Tensor α} (ht : t.dtype = s.probabilities.dtype) :
    @Controller.processProbabilities α B ⟨s.withScalars e dc⟩ t =
      @Controller.processProbabilities α A ⟨s⟩ t := by
  have hd : s.probabilities.dtype.withFloat = s.probabilities.dtype := by
    unfold DType.withFloat; rw [if_pos hwf.floating]
  have hp := hno.probabilities
  have ht' : t.dtype ≠ .f64 := by rw [ht]; exact hp
  unfold Controller.processProbabilities
  rw [haltedBatches_agree h hs hwf hno]
  have e1 : @Tensor.floatMul α B dc t = @Tensor.floatMul α A s.depression_constant t :=
    (h.floatMul ht' (by rw [ht, hd]; exact hs.depression)).symm
  simp only [Controller.depressionConstant, ACTStates.withScalars, Controller.probabilities,
    Controller.residuals, e1, ← h.oneSub hp]
  have d1 : (@Tensor.floatMul α A s.depression_constant t).dtype = s.probabilities.dtype := by
    show t.dtype.withFloat = _; rw [ht, hd]
  rw [← h.binop h.add (by rw [d1]; exact hp) hp]
  refine bind_congr_ok fun total htot => ?_
  have d2 : total.dtype = s.probabilities.dtype := by
    rw [(@Tensor.binop_ok α A _ _ _ _ htot).1, d1]; cases s.probabilities.dtype <;> rfl
  have e2 : @Tensor.gtFloat α B total (@Controller.haltThreshold α B ⟨s.withScalars e dc⟩) =
      @Tensor.gtFloat α A total (@Controller.haltThreshold α A ⟨s⟩) :=
    (h.gtFloat (by rw [d2]; exact hp) (by rw [d2, hd]; exact hs.threshold)).symm
  simp only [ACTStates.withScalars] at e2
  simp only [e2]
  refine bind_congr_ok fun nh _ => bind_congr_ok fun r hr => bind_congr_ok fun w hw => ?_
  have d3 : w.dtype ≠ .f64 := by
    rw [(Tensor.select_ok hw).2.2.1]
    exact withInt_ne_f64 hp
  rw [← h.binop h.add hp d3]

theorem updateAccumulator_agree {a u : Leaf α} {w : Tensor α} (hw : w.dtype ≠ .f64)
    (ha : ∀ t, a = .tensor t → t.dtype ≠ .f64) (hu : ∀ t, u = .tensor t → t.dtype ≠ .f64) :
    @Controller.updateAccumulator α B ⟨s.withScalars e dc⟩ a u w =
      @Controller.updateAccumulator α A ⟨s⟩ a u w := by
  cases a with
  | obj o => rfl
  | tensor a =>
    cases u with
    | obj o => rfl
    | tensor u =>
      have ha := ha a rfl
      have hu := hu u rfl
      unfold Controller.updateAccumulator
      rw [haltedBatches_agree h hs hwf hno]
      simp only [Leaf.asTensor, ok_bind]
      split
      · rfl
      · refine bind_congr_ok fun w' hw' => bind_congr_ok fun m _ => bind_congr_ok fun m' _ => ?_
        have d1 : w'.dtype ≠ .f64 := by
          unfold Utils.setupLeftBroadcastT at hw'
          simp only [bind_ok, pure, Except.pure, Except.ok.injEq] at hw'
          obtain ⟨_, _, rfl⟩ := hw'
          exact hw
        rw [← h.binop h.mul d1 hu]
        refine bind_congr_ok fun x hx => ?_
        have d2 : x.dtype ≠ .f64 := by
          rw [(@Tensor.binop_ok α A _ _ _ _ hx).1]; exact promote_ne_f64 d1 hu
        rw [← h.binop h.add ha d2]

theorem commitOne_agree {w : Tensor α} (hw : w.dtype ≠ .f64)
    {acc upd : Dict (PyTree (Leaf α))} {n : String}
    (ha : ∀ t, acc.get? n = some t → NoF64 t) (hu : ∀ t, upd.get? n = some t → NoF64 t) :
    @Controller.commitOne α B ⟨s.withScalars e dc⟩ w acc upd n =
      @Controller.commitOne α A ⟨s⟩ w acc upd n := by
  unfold Controller.commitOne
  refine bind_congr_ok fun a ha' => bind_congr_ok fun u hu' => ?_
  have ha := ha a (Dict.getItem_ok.1 ha')
  have hu := hu u (Dict.getItem_ok.1 hu')
  split
  · rfl
  · refine mergePytrees_congr fun x hx y hy => ?_
    exact updateAccumulator_agree h hs hwf hno hw (fun t e => ha t (e ▸ hx)) fun t e => hu t (e ▸ hy)

theorem commitLoop_agree {w : Tensor α} (hw : w.dtype ≠ .f64) :
    ∀ (names : List String) (acc upd : Dict (PyTree (Leaf α))), names.Nodup →
      (∀ n ∈ names, ∀ t, acc.get? n = some t → NoF64 t) →
      (∀ n ∈ names, ∀ t, upd.get? n = some t → NoF64 t) →
      @Controller.commitLoop α B ⟨s.withScalars e dc⟩ w names acc upd =
        @Controller.commitLoop α A ⟨s⟩ w names acc upd
  | [], _, _, _, _, _ => rfl
  | n :: names, acc, upd, hnd, ha, hu => by
    obtain ⟨hn, hnd⟩ := List.nodup_cons.1 hnd
    unfold Controller.commitLoop
    rw [commitOne_agree h hs hwf hno hw (ha n (by simp)) (hu n (by simp))]
    split
    · rfl
    · refine commitLoop_agree hw names _ _ hnd (fun m hm t ht => ?_) fun m hm t ht => ?_
      · rw [Dict.get?_set_ne _ (by rintro rfl; exact hn hm)] at ht
        exact ha m (by simp [hm]) t ht
      · rw [Dict.get?_set_ne _ (by rintro rfl; exact hn hm)] at ht
        exact hu m (by simp [hm]) t ht

theorem iterateAct_agree {t : Tensor α} (ht : t.dtype ≠ .f64) :
    @Controller.iterateAct α B ⟨s.withScalars e dc⟩ t =
      (@Controller.iterateAct α A ⟨s⟩ t).map (Controller.withScalars e dc) := by
  by_cases h1 : t.shape = s.probabilities.shape
  · by_cases h2 : t.dtype.withFloat = s.probabilities.dtype
    · unfold Controller.iterateAct
      have n1 : ¬ t.shape ≠ (⟨s⟩ : Controller α).probabilities.shape := not_not.2 h1
      have n2 : ¬ t.shape ≠ (⟨s.withScalars e dc⟩ : Controller α).probabilities.shape :=
        not_not.2 h1
      rw [if_neg n1, if_neg n2]
      simp only
      rw [← h.clip01 ht, processProbabilities_agree h hs hwf hno h2, map_bind]
      refine bind_congr_ok fun ⟨w, r, p⟩ hpp => ?_
      have hw : w.dtype ≠ .f64 := by
        unfold Controller.processProbabilities at hpp
        simp only [bind_ok] at hpp
        obtain ⟨_, -, _, -, _, -, w', hw', _, -, hpp⟩ := hpp
        cases hpp
        rw [(Tensor.select_ok hw').2.2.1]
        exact withInt_ne_f64 hno.probabilities
      simp only [map_bind, Controller.accumulators, ACTStates.withScalars]
      have e1 := commitLoop_agree h hs hwf hno hw s.accumulators.keys s.accumulators s.updates
        hwf.acc_keys (fun n _ t ht => hno.accumulators n t ht) fun n _ t ht => hno.updates n t ht
      simp only [ACTStates.withScalars] at e1
      rw [e1]
      refine bind_congr_ok fun ⟨ac, up⟩ _ => ?_
      simp only [Controller.iterations]
      have e2 := haltedBatches_agree h hs hwf hno
      simp only [ACTStates.withScalars] at e2
      rw [e2, ← h.addOne hno.iterations]
      refine bind_congr_ok fun it _ => rfl
    · rw [(@C13_iterate_errors α A s hwf t).2.1.2 ⟨h1, h2⟩,
        (@C13_iterate_errors α B (s.withScalars e dc) hwf.withScalars t).2.1.2 ⟨h1, h2⟩]
      rfl
  · rw [(@C13_iterate_errors α A s hwf t).1.2 h1,
      (@C13_iterate_errors α B (s.withScalars e dc) hwf.withScalars t).1.2 h1]
    rfl

theorem resetBatches_agree :
    @Controller.resetBatches α B ⟨s.withScalars e dc⟩ =
      (@Controller.resetBatches α A ⟨s⟩).map (Controller.withScalars e dc) := by
  unfold Controller.resetBatches
  rw [haltedBatches_agree h hs hwf hno]
  by_cases hany : (s.updates.any fun kv => !kv.2.isNone) = true
  · have n1 : (((⟨s⟩ : Controller α).state.updates.any fun kv => !kv.2.isNone) = true) := hany
    have n2 : (((⟨s.withScalars e dc⟩ : Controller α).state.updates.any
      fun kv => !kv.2.isNone) = true) := hany
    rw [if_pos n1, if_pos n2]; rfl
  · have n1 : ¬ (((⟨s⟩ : Controller α).state.updates.any fun kv => !kv.2.isNone) = true) := hany
    have n2 : ¬ (((⟨s.withScalars e dc⟩ : Controller α).state.updates.any
      fun kv => !kv.2.isNone) = true) := n1
    rw [if_neg n1, if_neg n2]
    simp only [map_bind, Controller.iterations, Controller.probabilities, Controller.residuals,
      Controller.accumulators, ACTStates.withScalars]
    have hb : ∀ m : Arr Bool, (@Tensor.ofMask α A m).dtype ≠ .f64 := fun _ => by
      simp [Tensor.ofMask]
    have hr : s.residuals.dtype ≠ .f64 := by rw [hwf.res_dtype]; exact hno.probabilities
    rw [← h.ofMask, ← h.binop h.mul hno.iterations (hb _),
      ← h.binop h.mul hno.probabilities (hb _), ← h.binop h.mul hr (hb _)]
    refine bind_congr_ok fun i _ => bind_congr_ok fun p _ => bind_congr_ok fun r _ =>
      bind_congr_ok fun ac _ => rfl

end Calls

end JaxAct
