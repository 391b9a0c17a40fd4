import Verif.Lemmas.Families
import Verif.Lemmas.Overflow
import Verif.Props.C63
import Verif.Props.C79

/-!
# C92 Nothing but the accumulators can overflow

IEEE arithmetic has infinities, the rounding model of `Basic/Round` has not.  The two agree on every run in
which no accumulator leaves the range of its dtype: same exceptions, same numbers, no infinity and no NaN.
-/

namespace JaxAct
open ACTStates
attribute [local instance] ieee ieeeSpecial

/-! ### One call -/

theorem IterStep.promote_eq {α : Type} [Arith α] {s s' : ACTStates α} {h : Tensor α}
    (st : IterStep s h s') {n : String} {k : Nat} {ta tu : Tensor α}
    (ha : leaf? s.accumulators n k = some (.tensor ta))
    (hu : leaf? s.updates n k = some (.tensor tu)) :
    DType.promote ta.dtype (DType.promote s.probabilities.dtype tu.dtype) = ta.dtype := by
  obtain ⟨t, h3, h4⟩ := leaf?_eq_some.1 ha
  obtain ⟨u, a', e1, e2, e3⟩ := st.tree n t h3
  obtain ⟨ta', tu', _, f1, f2, _, f4⟩ := e3.leaf k _ h4
  obtain ⟨u', g1, g2⟩ := leaf?_eq_some.1 hu
  rw [e1] at g1
  cases g1
  rw [f2] at g2
  cases g2; cases f1
  exact f4.dtypes

theorem ACTStates.InRange.known {s : ACTStates ℚ} (h : s.InRange) {b : List Nat} {p : ℚ}
    (hp : s.probabilities.at? b = some p) : Spec.Known s.epsilon s.depression_constant p :=
  ⟨h.eps.1, h.eps.2, h.dep.1, h.dep.2, (h.prob b p hp).2.1, (h.prob b p hp).2.2⟩

theorem iterate_finite {s : ACTStates ℚ} {S : ACTStates Ext} (hwf : s.WF) (hWF : S.WF)
    (hs : StateRel Finite (fun _ => s) S) {h : Tensor ℚ} {H : Tensor Ext}
    (hh : TensorRel Finite (fun _ => h) H) (hr : s.InRange) {c : Controller ℚ} {C : Controller Ext}
    (hc : Controller.iterateAct ⟨s⟩ h = .ok c) (hC : Controller.iterateAct ⟨S⟩ H = .ok C)
    (fit : (Op.iterate h).Fits s) (hal : StatesAlike c.state C.state) :
    StateRel Finite (fun _ => c.state) C.state := by
  have st := Controller.iterateAct_ok hwf hc
  have ST := Controller.iterateAct_ok hWF hC
  have pd : s.probabilities.dtype = S.probabilities.dtype := (hs.probabilities.1 ()).2
  have ps : s.probabilities.shape = S.probabilities.shape := (hs.probabilities.1 ()).1
  have id : s.iterations.dtype = S.iterations.dtype := (hs.iterations.1 ()).2
  have hd : h.dtype = H.dtype := (hh.1 ()).2
  have ee : S.epsilon = .num s.epsilon := hs.epsilon
  have ed : S.depression_constant = .num s.depression_constant := hs.depression
  have cell : ∀ b P, S.probabilities.at? b = some P → ∃ p r n x : ℚ,
      s.probabilities.at? b = some p ∧ s.iterations.at? b = some n ∧
      (let c' := Spec.step s.probabilities.dtype s.iterations.dtype s.epsilon s.depression_constant
        ⟨p, r, n⟩ (convS h.dtype s.probabilities.dtype x)
      c.state.probabilities.at? b = some c'.prob ∧ c.state.residuals.at? b = some c'.resid ∧
        c.state.iterations.at? b = some c'.iter) ∧
      (let C' := Spec.step s.probabilities.dtype s.iterations.dtype (.num s.epsilon)
        (.num s.depression_constant) ⟨.num p, .num r, .num n⟩
        (convS h.dtype s.probabilities.dtype (.num x))
      C.state.probabilities.at? b = some C'.prob ∧ C.state.residuals.at? b = some C'.resid ∧
        C.state.iterations.at? b = some C'.iter) := by
    intro b P hP
    obtain ⟨Q, N, X, hQ, hN, hX, K⟩ := ST.cellAt hWF hP
    obtain ⟨p, hp, rp⟩ := hs.probabilities.2 b P hP
    obtain ⟨r, hr, rr⟩ := hs.residuals.2 b Q hQ
    obtain ⟨n, hn, rn⟩ := hs.iterations.2 b N hN
    obtain ⟨x, hx, rx⟩ := hh.2 b X hX
    unfold Finite at rp rr rn rx
    subst rp rr rn rx
    rw [ee, ed, ← pd, ← id, ← hd] at K
    exact ⟨p (), r (), n (), x (), hp (), hn (), st.cell b _ _ _ _ (hp ()) (hr ()) (hn ()) (hx ()), K⟩
  refine ⟨?_, ?_, fun _ => hal.error_mode, ⟨fun _ => hal.probabilities, ?_⟩,
    ⟨fun _ => hal.residuals, ?_⟩, ⟨fun _ => hal.iterations, ?_⟩,
    ⟨fun _ => hal.defaults, ?_⟩, ⟨fun _ => hal.accumulators, ?_⟩, ⟨fun _ => hal.updates, ?_⟩⟩
  · simp only [st.epsilon, ST.epsilon]; exact hs.epsilon
  · simp only [st.depression, ST.depression]; exact hs.depression
  · intro b Y hY
    obtain ⟨P, hP⟩ := ST.index hY
    obtain ⟨p, r, n, x, hp, hn, k, K⟩ := cell b P hP
    rw [K.1] at hY
    cases hY
    exact ⟨_, fun _ => k.1, Spec.prob_special (hr.known hp) (Spec.clamp_conv_special _ _)⟩
  · intro b Y hY
    obtain ⟨P, hP⟩ := Controller.at?_some_of_shape (b := S.probabilities)
      (by rw [ST.rshape, hWF.res_shape]) hY
    obtain ⟨p, r, n, x, hp, hn, k, K⟩ := cell b P hP
    rw [K.2.1] at hY
    cases hY
    refine ⟨_, fun _ => k.2.1, ?_⟩
    have kn := hr.known hp
    show (if _ then _ else _) = Ext.num (if _ then _ else _)
    rw [Spec.crosses_special kn (Spec.clamp_conv_special _ _), Spec.isHalted_special kn.e0 kn.e1,
      (Spec.remainder_special kn).1]
    split <;> rfl
  · intro b Y hY
    obtain ⟨P, hP⟩ := Controller.at?_some_of_shape (b := S.probabilities)
      (by rw [ST.ishape, hWF.it_shape]) hY
    obtain ⟨p, r, n, x, hp, hn, k, K⟩ := cell b P hP
    rw [K.2.2] at hY
    cases hY
    refine ⟨_, fun _ => k.2.2, ?_⟩
    have kn := hr.known hp
    show (if _ then _ else _) = Ext.num (if _ then _ else _)
    rw [Spec.isHalted_special kn.e0 kn.e1, (Spec.counter_special (hr.iter b n hn)).1]
    split <;> rfl
  · simp only [st.defaults, ST.defaults]; exact hs.defaults.2
  · intro m k i Y hY
    cases hA : entry? S.accumulators m k i with
    | none => rw [ST.entry_none hA] at hY; cases hY
    | some A =>
      obtain ⟨U, P, X, TA, TU, hU, hP, hX, lA, lU, hE⟩ := ST.entry_dtype hWF hA
      rw [hE] at hY
      cases hY
      obtain ⟨a, ha, ra⟩ := hs.accumulators.2 m k i A hA
      obtain ⟨u, hu, ru⟩ := hs.updates.2 m k i U hU
      obtain ⟨p, hp, rp⟩ := hs.probabilities.2 _ P hP
      obtain ⟨x, hx, rx⟩ := hh.2 _ X hX
      unfold Finite at ra ru rp rx
      subst ra ru rp rx
      have ha := ha (); have hu := hu (); have hp := hp (); have hx := hx ()
      obtain ⟨u', p', x', ta, tu, e1, e2, e3, e4, e5, e6⟩ := st.entry_dtype hwf ha
      rw [ps] at e2 e3
      rw [hu] at e1
      rw [hp] at e2
      rw [hx] at e3
      cases e1; cases e2; cases e3
      have tA := (hs.accumulators.1 ()).leaf_tensor e4 lA
      have tU := (hs.updates.1 ()).leaf_tensor e5 lU
      obtain ⟨g1, g2⟩ := fit m k ta tu e4 e5
      obtain ⟨l, q1, q2⟩ := entry?_eq_some.1 hu
      rw [e5] at q1
      cases q1
      refine ⟨_, fun _ => e6, ?_⟩
      rw [ee, ed, ← pd, ← hd, ← tA, ← tU]
      exact Spec.acc_special (hr.known hp) (Spec.clamp_conv_special _ _) hwf.floating
        (st.promote_eq e4 e5) (g1 i _ q2) fun _ => g2 c hc i _ e6
  · intro m k i Y hY
    obtain ⟨l, h1, h2⟩ := entry?_eq_some.1 hY
    obtain ⟨t, h3, h4⟩ := leaf?_eq_some.1 h1
    have hm : m ∈ S.accumulators.keys :=
      (hWF.upd_iff m).1 (by rw [← ST.ukeys]; exact Dict.mem_keys_iff.2 ⟨t, h3⟩)
    rw [ST.cleared m hm] at h3
    cases h3
    cases h4

/-- The bookkeeping stays in range. -/
theorem iterate_inRange {s : ACTStates ℚ} (hwf : s.WF) (hr : s.InRange) {h : Tensor ℚ} {c : Controller ℚ}
    (hc : Controller.iterateAct ⟨s⟩ h = .ok c) : c.state.InRange := by
  have st := Controller.iterateAct_ok hwf hc
  refine ⟨by rw [st.epsilon]; exact hr.eps, by rw [st.depression]; exact hr.dep, ?_, ?_, ?_⟩
  · intro b p' hp'
    obtain ⟨p, hp⟩ := st.index hp'
    obtain ⟨r, n, x, e1, e2, e3, e4⟩ := st.cellAt hwf hp
    rw [e4.1] at hp'
    cases hp'
    rw [st.pdtype]
    exact Spec.prob_unit hwf.floating (hr.known hp) (hr.prob b p hp).1 _
  · intro b r' hr'
    obtain ⟨p, hp⟩ := Controller.at?_some_of_shape (b := s.probabilities)
      (by rw [st.rshape, hwf.res_shape]) hr'
    obtain ⟨r, n, x, e1, e2, e3, e4⟩ := st.cellAt hwf hp
    rw [e4.2.1] at hr'
    cases hr'
    have kn := hr.known hp
    rw [st.rdtype]
    unfold Spec.step
    simp only
    split
    · rw [hwf.res_dtype]
      have := (Spec.remainder_special (d := s.probabilities.dtype) kn).2
      exact DType.Holds.of_le (le_largest_of_le_two this.1 (this.2.trans one_le_two))
    · exact hr.resid b r e1
  · intro b n' hn'
    obtain ⟨p, hp⟩ := Controller.at?_some_of_shape (b := s.probabilities)
      (by rw [st.ishape, hwf.it_shape]) hn'
    obtain ⟨r, n, x, e1, e2, e3, e4⟩ := st.cellAt hwf hp
    rw [e4.2.2] at hn'
    cases hn'
    rw [st.idtype]
    unfold Spec.step
    simp only
    split
    · exact hr.iter b n e2
    · exact (Spec.counter_special (hr.iter b n e2)).2

theorem floating_ne_bool {d : DType} (h : d.isFloating = true) : d ≠ .bool := by rintro rfl; cases h

theorem reset_finite {s : ACTStates ℚ} {S : ACTStates Ext} (hwf : s.WF) (hWF : S.WF)
    (hs : StateRel Finite (fun _ => s) S) (hr : s.InRange) {c : Controller ℚ} {C : Controller Ext}
    (hc : Controller.resetBatches ⟨s⟩ = .ok c) (hC : Controller.resetBatches ⟨S⟩ = .ok C)
    (hal : StatesAlike c.state C.state) : StateRel Finite (fun _ => c.state) C.state := by
  have st := Controller.resetBatches_ok hwf hc
  have ST := Controller.resetBatches_ok hWF hC
  have pd : s.probabilities.dtype = S.probabilities.dtype := (hs.probabilities.1 ()).2
  have ps : s.probabilities.shape = S.probabilities.shape := (hs.probabilities.1 ()).1
  have id : s.iterations.dtype = S.iterations.dtype := (hs.iterations.1 ()).2
  have ee : S.epsilon = .num s.epsilon := hs.epsilon
  have e0 := hr.eps.1
  have e1 := hr.eps.2
  have cell : ∀ b P, S.probabilities.at? b = some P → ∃ p r n : ℚ,
      s.probabilities.at? b = some p ∧ s.residuals.at? b = some r ∧ s.iterations.at? b = some n ∧
      (let c' := Spec.resetCell s.probabilities.dtype s.iterations.dtype s.epsilon ⟨p, r, n⟩
      c.state.probabilities.at? b = some c'.prob ∧ c.state.residuals.at? b = some c'.resid ∧
        c.state.iterations.at? b = some c'.iter) ∧
      (let C' := Spec.resetCell s.probabilities.dtype s.iterations.dtype (.num s.epsilon)
        ⟨.num p, .num r, .num n⟩
      C.state.probabilities.at? b = some C'.prob ∧ C.state.residuals.at? b = some C'.resid ∧
        C.state.iterations.at? b = some C'.iter) := by
    intro b P hP
    obtain ⟨Q, N, hQ, hN⟩ := hWF.cell hP
    have K := ST.cell b P Q N hP hQ hN
    obtain ⟨p, hp, rp⟩ := hs.probabilities.2 b P hP
    obtain ⟨r, hr, rr⟩ := hs.residuals.2 b Q hQ
    obtain ⟨n, hn, rn⟩ := hs.iterations.2 b N hN
    unfold Finite at rp rr rn
    subst rp rr rn
    rw [ee, ← pd, ← id] at K
    exact ⟨p (), r (), n (), hp (), hr (), hn (), st.cell b _ _ _ (hp ()) (hr ()) (hn ()), K⟩
  have fl := floating_ne_bool hwf.floating
  refine ⟨?_, ?_, fun _ => hal.error_mode, ⟨fun _ => hal.probabilities, ?_⟩,
    ⟨fun _ => hal.residuals, ?_⟩, ⟨fun _ => hal.iterations, ?_⟩,
    ⟨fun _ => hal.defaults, ?_⟩, ⟨fun _ => hal.accumulators, ?_⟩, ⟨fun _ => hal.updates, ?_⟩⟩
  · simp only [st.epsilon, ST.epsilon]; exact hs.epsilon
  · simp only [st.depression, ST.depression]; exact hs.depression
  · intro b Y hY
    obtain ⟨P, hP⟩ := ST.index hY
    obtain ⟨p, r, n, hp, hq, hn, k, K⟩ := cell b P hP
    rw [K.1] at hY
    cases hY
    refine ⟨_, fun _ => k.1, ?_⟩
    show Spec.keepIf _ (!Spec.isHalted _ _ _) _ = _
    rw [Spec.isHalted_special e0 e1, (Spec.keepIf_special fl (hr.prob b p hp).1 _).1]
    rfl
  · intro b Y hY
    obtain ⟨P, hP⟩ := Controller.at?_some_of_shape (b := S.probabilities)
      (by rw [ST.rshape, hWF.res_shape]) hY
    obtain ⟨p, r, n, hp, hq, hn, k, K⟩ := cell b P hP
    rw [K.2.1] at hY
    cases hY
    refine ⟨_, fun _ => k.2.1, ?_⟩
    show Spec.keepIf _ (!Spec.isHalted _ _ _) _ = _
    have := hr.resid b r hq
    rw [hwf.res_dtype] at this
    rw [Spec.isHalted_special e0 e1, (Spec.keepIf_special fl this _).1]
    rfl
  · intro b Y hY
    obtain ⟨P, hP⟩ := Controller.at?_some_of_shape (b := S.probabilities)
      (by rw [ST.ishape, hWF.it_shape]) hY
    obtain ⟨p, r, n, hp, hq, hn, k, K⟩ := cell b P hP
    rw [K.2.2] at hY
    cases hY
    refine ⟨_, fun _ => k.2.2, ?_⟩
    show Spec.keepIf _ (!Spec.isHalted _ _ _) _ = _
    rw [Spec.isHalted_special e0 e1, (Spec.keepIf_special hwf.it_dtype (hr.iter b n hn) _).1]
    rfl
  · simp only [st.defaults, ST.defaults]; exact hs.defaults.2
  · intro m k i Y hY
    cases hA : entry? S.accumulators m k i with
    | none => rw [ST.entry_none hA] at hY; cases hY
    | some A =>
      obtain ⟨X, P, hX, hP, hE⟩ := ST.entry hWF hA
      rw [hE] at hY
      cases hY
      obtain ⟨a, ha, ra⟩ := hs.accumulators.2 m k i A hA
      obtain ⟨x, hx, rx⟩ := hs.defaults.2 m k i X hX
      obtain ⟨p, hp, rp⟩ := hs.probabilities.2 _ P hP
      unfold Finite at ra rx rp
      subst ra rx rp
      obtain ⟨x', p', f1, f2, f3⟩ := st.entry hwf (ha ())
      rw [ps, hp ()] at f2
      rw [hx ()] at f1
      cases f1; cases f2
      refine ⟨_, fun _ => f3, ?_⟩
      rw [ee, ← pd]
      show Spec.resetEntry _ _ _ _ _ = _
      unfold Spec.resetEntry
      rw [Spec.isHalted_special e0 e1]
      split <;> rfl
  · simp only [st.updates, ST.updates]; exact hs.updates.2

theorem reset_inRange {s : ACTStates ℚ} (hwf : s.WF) (hr : s.InRange) {c : Controller ℚ}
    (hc : Controller.resetBatches ⟨s⟩ = .ok c) : c.state.InRange := by
  have st := Controller.resetBatches_ok hwf hc
  have fl := floating_ne_bool hwf.floating
  have zero : ∀ d : DType, d.Holds 0 := fun d => by
    have h := DType.Holds.of_le (d := d) (x := 0) (abs_roundTo_le
      (le_largest_of_le_two le_rfl (by norm_num)))
    have e : Arith.roundTo DType.fmt d 0 = 0 := by
      unfold Arith.roundTo
      split
      · exact Fmt.rnd_zero _
      · rfl
    rwa [e] at h
  refine ⟨by rw [st.epsilon]; exact hr.eps, by rw [st.depression]; exact hr.dep, ?_, ?_, ?_⟩
  · intro b p' hp'
    obtain ⟨p, hp⟩ := st.index hp'
    obtain ⟨r, n, e1, e2⟩ := hwf.cell hp
    rw [(st.cell b p r n hp e1 e2).1] at hp'
    cases hp'
    rw [st.pdtype]
    have := hr.prob b p hp
    show DType.Holds _ (Spec.keepIf _ _ _) ∧ 0 ≤ Spec.keepIf _ _ _ ∧ Spec.keepIf _ _ _ ≤ 1
    rw [(Spec.keepIf_special fl this.1 _).2]
    split
    · exact this
    · exact ⟨zero _, le_rfl, zero_le_one⟩
  · intro b r' hr'
    obtain ⟨p, hp⟩ := Controller.at?_some_of_shape (b := s.probabilities)
      (by rw [st.rshape, hwf.res_shape]) hr'
    obtain ⟨r, n, e1, e2⟩ := hwf.cell hp
    rw [(st.cell b p r n hp e1 e2).2.1] at hr'
    cases hr'
    rw [st.rdtype]
    have := hr.resid b r e1
    rw [hwf.res_dtype] at this ⊢
    show DType.Holds _ (Spec.keepIf _ _ _)
    rw [(Spec.keepIf_special fl this _).2]
    split
    · exact this
    · exact zero _
  · intro b n' hn'
    obtain ⟨p, hp⟩ := Controller.at?_some_of_shape (b := s.probabilities)
      (by rw [st.ishape, hwf.it_shape]) hn'
    obtain ⟨r, n, e1, e2⟩ := hwf.cell hp
    rw [(st.cell b p r n hp e1 e2).2.2] at hn'
    cases hn'
    rw [st.idtype]
    have := hr.iter b n e2
    show DType.Holds _ (Spec.keepIf _ _ _)
    rw [(Spec.keepIf_special hwf.it_dtype this _).2]
    split
    · exact this
    · exact zero _

theorem call_inRange {s : ACTStates ℚ} (hwf : s.WF) (hr : s.InRange) {op : Op ℚ} {c : Controller ℚ}
    (hc : op.call ⟨s⟩ = .ok c) : c.state.InRange := by
  cases op with
  | cache n t => rw [(Controller.cacheUpdate_ok_iff.1 hc).eq]; exact ⟨hr.1, hr.2, hr.3, hr.4, hr.5⟩
  | iterate h => exact iterate_inRange hwf hr hc
  | reset => exact reset_inRange hwf hr hc

theorem call_finite {s : Unit → ACTStates ℚ} {S : ACTStates Ext} {op : Unit → Op ℚ} {OP : Op Ext}
    (hwf : ∀ v, (s v).WF) (hWF : S.WF) (hs : StateRel Finite s S) (ho : CallRel Finite op OP)
    (hr : (s ()).InRange) (fit : (op ()).Fits (s ())) :
    OutcomesRel Finite (fun v => (op v).call ⟨s v⟩) (OP.call ⟨S⟩) := by
  have hal := call_alike (hwf ()) hWF (hs.alike ()) (ho.alike ())
  cases hR : OP.call ⟨S⟩ with
  | error e =>
    have : (fun v => (op v).call ⟨s v⟩) = fun _ => .error e := by
      funext v
      rw [hR] at hal
      generalize (op ()).call ⟨s ()⟩ = r at hal
      cases hal
      rfl
    rw [this]
    exact .error e
  | ok C =>
    obtain ⟨c, hc, hcal⟩ : ∃ c, (op ()).call ⟨s ()⟩ = .ok c ∧ StatesAlike c.state C.state := by
      rw [hR] at hal
      generalize (op ()).call ⟨s ()⟩ = r at hal
      cases hal with
      | ok h => exact ⟨_, rfl, h⟩
    have : (fun v => (op v).call ⟨s v⟩) = fun _ => .ok c := funext fun _ => hc
    rw [this]
    refine .ok ?_
    cases ho with
    | cache n ht =>
      exact cache_rel hs ht (fun _ => Controller.cacheUpdate_ok_iff.1 hc)
        (Controller.cacheUpdate_ok_iff.1 hR) (fun _ => hcal)
    | iterate hh => exact iterate_finite (hwf ()) hWF hs hh hr hc hR fit hcal
    | reset => exact reset_finite (hwf ()) hWF hs hr hc hR hcal

/-! ### Call sequences -/

/-- In range and no accumulator about to leave its range. -/
def Op.Calm (s : ACTStates ℚ) (op : Op ℚ) : Prop := s.InRange ∧ op.Fits s

theorem along_calm : ∀ (ops : List (Op ℚ)) {s : ACTStates ℚ}, s.WF → s.InRange →
    Along (fun s op => op.Fits s) ⟨s⟩ ops → Along (fun s op => op.Calm s) ⟨s⟩ ops
  | [], _, _, _, _ => trivial
  | op :: ops, _, hwf, hr, h => ⟨⟨hr, h.1⟩, fun c' hc => along_calm ops
      (run_wf (ops := [op]) hwf (by simp [run, hc])) (call_inRange hwf hr hc) (h.2 c' hc)⟩

theorem run_inRange : ∀ (ops : List (Op ℚ)) {s : ACTStates ℚ} {c : Controller ℚ}, s.WF → s.InRange →
    run ⟨s⟩ ops = .ok c → c.state.InRange
  | [], _, _, _, hr, h => by cases h; exact hr
  | op :: ops, _, _, hwf, hr, h => by
    obtain ⟨c', h1, h2⟩ := bind_ok.1 h
    exact run_inRange ops (run_wf (ops := [op]) hwf (by simp [run, h1])) (call_inRange hwf hr h1) h2

/-- C92: let the controller's bookkeeping be in range, which it then always is (second part, no
hypotheses on accumulators).  If no call takes an accumulator out of the range of its dtype, the run in
IEEE arithmetic with infinities and NaN raises what the run without them raises, and returns the same
numbers: no infinity and no NaN anywhere. -/
theorem C92_no_overflow {s : Unit → ACTStates ℚ} {S : ACTStates Ext} (hwf : ∀ v, (s v).WF) (hWF : S.WF)
    (hs : StateRel Finite s S) (hr : (s ()).InRange) {ops : List (Unit → Op ℚ)} {OPS : List (Op Ext)}
    (ho : List.Forall₂ (CallRel Finite) ops OPS)
    (fit : Along (fun s op => op.Fits s) ⟨s ()⟩ (ops.map (· ()))) :
    OutcomesRel Finite (fun v => run ⟨s v⟩ (ops.map (· v))) (run ⟨S⟩ OPS) :=
  run_rel (G := fun s op => op.Calm s) ()
    (fun _ _ _ _ hwf hWF hs ho hg => call_finite hwf hWF hs ho hg.1 hg.2) ho hwf hWF hs
    (along_calm _ (hwf ()) hr fit)

/-- C92, bookkeeping: cumulative probabilities, residuals and iteration counters never overflow, however
long the run and whatever the updates and halting probabilities. -/
theorem C92_bookkeeping {s : ACTStates ℚ} (hwf : s.WF) (hr : s.InRange) {ops : List (Op ℚ)}
    {c : Controller ℚ} (h : run ⟨s⟩ ops = .ok c) : c.state.InRange := run_inRange ops hwf hr h

/-! ### Bounded updates -/

theorem along_append {α : Type} [Arith α] {G : ACTStates α → Op α → Prop} :
    ∀ (xs : List (Op α)) {ys : List (Op α)} {c : Controller α}, Along G c xs →
    (∀ c', run c xs = .ok c' → Along G c' ys) → Along G c (xs ++ ys)
  | [], _, _, _, h => h _ rfl
  | x :: xs, _, c, hx, h => ⟨hx.1, fun c' hc => along_append xs (hx.2 c' hc) fun c'' hr => h c'' (by
      show (x.call c >>= fun c' => run c' xs) = _
      rw [hc]; exact hr)⟩

theorem along_caches (us : List (String × PyTree (Leaf ℚ))) (c : Controller ℚ) :
    Along (fun s op => op.Fits s) c (us.map fun nu => Op.cache nu.1 nu.2) := by
  induction us generalizing c with
  | nil => trivial
  | cons u us ih => exact ⟨trivial, fun c' _ => ih c'⟩

theorem accumulator_leaf {s : ACTStates ℚ} (hwf : s.WF) {ops : List (Op ℚ)} {c : Controller ℚ}
    (h : run ⟨s⟩ ops = .ok c) {n : String} {k : Nat} {t : Tensor ℚ}
    (ht : leaf? c.state.accumulators n k = some (.tensor t)) :
    ∃ t₀, leaf? s.accumulators n k = some (.tensor t₀) ∧ t₀.shape = t.shape ∧ t₀.dtype = t.dtype := by
  obtain ⟨h1, h2, -⟩ := C14_types_invariant hwf ops h
  obtain ⟨T, g1, g2⟩ := leaf?_eq_some.1 ht
  have hn : n ∈ s.accumulators.keys := by
    rw [← h1]; exact Dict.mem_keys_iff.2 ⟨T, g1⟩
  obtain ⟨T₀, f1⟩ := Dict.mem_keys_iff.1 hn
  obtain ⟨T', f2, f3⟩ := h2 n T₀ f1
  rw [show c.accumulators.get? n = some T from g1] at f2
  cases f2
  obtain ⟨hlen, hk⟩ := List.getElem?_eq_some_iff.1 g2
  obtain ⟨l1, l2⟩ := List.forall₂_iff_get.1 f3.2
  obtain ⟨a, b, e1, e2, e3, e4⟩ := l2 k (by omega) hlen
  simp only [List.get_eq_getElem] at e1 e2
  rw [hk] at e2
  cases e2
  exact ⟨a, leaf?_eq_some.2 ⟨T₀, f1, by rw [List.getElem?_eq_getElem (by omega), e1]⟩, e3, e4⟩

/-- How large an accumulator can become in `n` rounds with updates of at most `M`: `M`, and the rounding
errors. -/
def accLimit (f : Fmt) (n : Nat) (M : ℚ) : ℚ :=
  M * (1 + n * (2 : ℚ) ^ (-(f.prec : ℤ))) + accBound f n M

theorem accLimit_mono (f : Fmt) {M : ℚ} (hM : 0 ≤ M) : Monotone fun n => accLimit f n M := by
  refine monotone_nat_of_le_succ fun n => ?_
  have hq : (0 : ℚ) < (2 : ℚ) ^ (-(f.prec : ℤ)) := zpow_pos (by norm_num) _
  refine add_le_add (mul_le_mul_of_nonneg_left ?_ hM) (accBound_mono n hM)
  push_cast
  linarith

/-- The accumulators after any number of rounds. -/
theorem accumulator_le {s : ACTStates ℚ} (hwf : s.WF) (hr : s.InRange)
    (hfresh : ∀ b p, s.probabilities.at? b = some p → p = 0) {rs : List (Round ℚ)} {c : Controller ℚ}
    (hrun : run ⟨s⟩ (roundOps rs) = .ok c) {n : String} {k : Nat} {ta : Tensor ℚ} {i : List Nat} {M a : ℚ}
    (hM : 0 ≤ M) (ha : leaf? s.accumulators n k = some (.tensor ta))
    (hz : ta.at? i = some 0)
    (hU : ∀ r ∈ rs, ∃ tu : Tensor ℚ, leaf? r.updates n k = some (.tensor tu) ∧ tu.shape = ta.shape ∧
      ∀ i v, tu.at? i = some v → |convS tu.dtype (DType.promote s.probabilities.dtype tu.dtype) v| ≤ M)
    (he : entry? c.state.accumulators n k i = some a) :
    |a| ≤ accLimit s.probabilities.dtype.fmt rs.length M := by
  have e0 : entry? s.accumulators n k i = some 0 := entry?_eq_some.2 ⟨_, ha, hz⟩
  obtain ⟨p, hp⟩ := hwf.prob_of_entry e0
  have hp0 := hfresh _ _ hp
  subst hp0
  obtain ⟨w, h1, ⟨p', h2, h3⟩, -, h4⟩ := C63_rounded_weighted_sum (F := DType.fmt) rfl (by decide) fmt_sub hwf
    (DType.fmt_valid _) hr.eps.1 hr.eps.2 hr.dep.1 rs hrun hp
  have hex : ∀ t : Nat, ∃ u : ℚ, ∀ r : Round ℚ, rs[t]? = some r → ∃ (tu : Tensor ℚ) (v : ℚ),
      leaf? r.updates n k = some (.tensor tu) ∧ tu.at? i = some v ∧
      u = convS tu.dtype (DType.promote s.probabilities.dtype tu.dtype) v ∧ |u| ≤ M := by
    intro t
    cases ht : rs[t]? with
    | none => exact ⟨0, fun r h => by cases h⟩
    | some r =>
      obtain ⟨tu, g1, g2, g3⟩ := hU r (List.mem_of_getElem? ht)
      obtain ⟨v, hv⟩ := Controller.at?_some_of_shape (b := tu) g2 hz
      exact ⟨_, fun r' h => by cases h; exact ⟨tu, v, g1, hv, rfl, g3 i v hv⟩⟩
  choose u hu using hex
  have hi : i = i.take s.probabilities.shape.length ++ i.drop s.probabilities.shape.length :=
    (List.take_append_drop _ _).symm
  obtain ⟨a', k1, k2⟩ := h4 n k (i.drop s.probabilities.shape.length) ta u M hM ha (hi ▸ hz)
    fun t r ht => by rw [← hi]; exact hu t r ht
  rw [← hi] at k1
  rw [show entry? c.accumulators n k i = some a from he] at k1
  cases k1
  have hp1 := ((run_inRange _ hwf hr hrun).prob _ _ h2).2.2
  set q : ℚ := (2 : ℚ) ^ (-(s.probabilities.dtype.fmt.prec : ℤ)) with hq
  have hsum : |∑ t ∈ Finset.range rs.length, w t * u t| ≤ M * (1 + rs.length * q) := by
    calc |∑ t ∈ Finset.range rs.length, w t * u t|
        ≤ ∑ t ∈ Finset.range rs.length, |w t * u t| := Finset.abs_sum_le_sum_abs _ _
      _ ≤ ∑ t ∈ Finset.range rs.length, w t * M := by
          refine Finset.sum_le_sum fun t ht => ?_
          have ht := Finset.mem_range.1 ht
          rw [abs_mul, abs_of_nonneg (h1 t ht).1]
          refine mul_le_mul_of_nonneg_left ?_ (h1 t ht).1
          obtain ⟨_, _, _, _, _, g⟩ := hu t _ (List.getElem?_eq_getElem ht)
          exact g
      _ = M * ∑ t ∈ Finset.range rs.length, w t := by rw [← Finset.sum_mul, mul_comm]
      _ ≤ _ := mul_le_mul_of_nonneg_left (by
          have := (abs_sub_le_iff.1 h3).2
          linarith) hM
  unfold accLimit
  have : |a| ≤ |a - ∑ t ∈ Finset.range rs.length, w t * u t| + |∑ t ∈ Finset.range rs.length, w t * u t| := by
    simpa using abs_add_le (a - ∑ t ∈ Finset.range rs.length, w t * u t) (∑ t ∈ Finset.range rs.length, w t * u t)
  linarith

/-- C92, bounded updates: let probabilities and accumulators start at 0 and let no update exceed `M`.  If
`M` and the rounding errors of `n` rounds stay within the range of the accumulators, no call of the `n`
rounds overflows.  (The accumulators are weighted means of the updates, so they cannot grow with the number
of rounds.) -/
theorem C92_bounded {s : ACTStates ℚ} (hwf : s.WF) (hr : s.InRange)
    (hfresh : ∀ b p, s.probabilities.at? b = some p → p = 0)
    (hzero : ∀ n k i a, entry? s.accumulators n k i = some a → a = 0) (rs : List (Round ℚ)) {M : ℚ}
    (hM : 0 ≤ M)
    (hU : ∀ r ∈ rs, ∀ n k (ta : Tensor ℚ), leaf? s.accumulators n k = some (.tensor ta) →
      ∃ tu : Tensor ℚ, leaf? r.updates n k = some (.tensor tu) ∧ tu.shape = ta.shape ∧
      ∀ i v, tu.at? i = some v →
        |v| ≤ (DType.promote s.probabilities.dtype tu.dtype).largest ∧
        |convS tu.dtype (DType.promote s.probabilities.dtype tu.dtype) v| ≤ M)
    (hlim : ∀ n k (ta : Tensor ℚ), leaf? s.accumulators n k = some (.tensor ta) →
      accLimit s.probabilities.dtype.fmt rs.length M ≤ ta.dtype.largest) :
    Along (fun s op => op.Fits s) ⟨s⟩ (roundOps rs) := by
  induction rs using List.reverseRecOn with
  | nil => trivial
  | append_singleton rs r ih =>
    rw [roundOps_append]
    have hlim' : ∀ n k (ta : Tensor ℚ), leaf? s.accumulators n k = some (.tensor ta) →
        accLimit s.probabilities.dtype.fmt rs.length M ≤ ta.dtype.largest := fun n k ta h =>
      le_trans (accLimit_mono _ hM (by simp)) (hlim n k ta h)
    refine along_append _ (ih (fun r' h => hU r' (List.mem_append_left _ h)) hlim') fun c1 h1 => ?_
    have w1 := run_wf hwf h1
    refine along_append _ (along_caches _ _) fun c2 h2 => ⟨?_, fun _ _ => trivial⟩
    obtain ⟨w2, ⟨U, e⟩, hget⟩ := caches_ok _ (s := c1.state) w1 h2
    intro n k ta tu hta htu
    have htr : run ⟨s⟩ (roundOps rs ++ r.updates.map fun nu => Op.cache nu.1 nu.2) = .ok c2 := by
      rw [run_append, h1]; exact h2
    obtain ⟨ta₀, g1, g2, g3⟩ := accumulator_leaf hwf htr hta
    obtain ⟨tu', f1, f2, f3⟩ := hU r (by simp) n k ta₀ g1
    have f4 := leaf?_transfer hget f1
    rw [htu] at f4
    cases f4
    refine ⟨fun i u hu => ?_, fun c hc i a hea => ?_⟩
    · rw [show c2.state.probabilities.dtype = s.probabilities.dtype from
        (C14_types_invariant hwf _ htr).2.2.2.1]
      exact (f3 i u hu).1
    · rw [← g3]
      have hall : run ⟨s⟩ (roundOps (rs ++ [r])) = .ok c := by
        rw [roundOps_append, run_append, h1]
        show run c1 r.ops = _
        unfold Round.ops
        rw [run_append, h2]
        show (Controller.iterateAct c2 r.halting >>= _) = _
        rw [show (c2 : Controller ℚ) = ⟨c2.state⟩ from rfl, hc]
        rfl
      obtain ⟨l, q1, q2⟩ := entry?_eq_some.1 hea
      obtain ⟨tl, rfl⟩ : ∃ t, l = .tensor t := by
        cases l with
        | tensor t => exact ⟨t, rfl⟩
        | _ => cases q2
      obtain ⟨t', j1, j2, j3⟩ := accumulator_leaf hwf hall q1
      rw [g1] at j1
      cases j1
      obtain ⟨z, hz⟩ := Controller.at?_some_of_shape (b := ta₀) j2 q2
      have := hzero n k i z (entry?_eq_some.2 ⟨_, g1, hz⟩)
      subst this
      refine le_trans (accumulator_le hwf hr hfresh hall hM g1 hz (fun r' h => ?_) hea) (hlim n k ta₀ g1)
      obtain ⟨tu, k1, k2, k3⟩ := hU r' h n k ta₀ g1
      exact ⟨tu, k1, k2, fun i v hv => (k3 i v hv).2⟩

/-! ### execute_act -/

theorem finite_cond {x : Unit → Carry ℚ} {X : Carry Ext} (h : CarryRel Finite x X)
    (hr : (x ()).controller.state.InRange) : isActNotComplete X = isActNotComplete (x ()) := by
  have hp := h.controller.state.probabilities
  have he : X.controller.state.epsilon = .num (x ()).controller.state.epsilon :=
    h.controller.state.epsilon
  have hd : (x ()).controller.probabilities.dtype = X.controller.probabilities.dtype := (hp.1 ()).2
  unfold isActNotComplete
  rw [h.metadata (), completelyHalted_congr (c := (x ()).controller) (C := X.controller)
    (h.controller.wf ()).floating h.controller.wf'.floating (hp.1 ()).1 fun i _ => ?_]
  cases hX : X.controller.probabilities.at? i with
  | none =>
    cases hx : (x ()).controller.probabilities.at? i with
    | none => rfl
    | some p =>
      obtain ⟨P, hP⟩ := Controller.at?_some_of_shape (b := X.controller.probabilities)
        (hp.1 ()).1.symm hx
      rw [hX] at hP; cases hP
  | some P =>
    obtain ⟨f, h1, h2⟩ := hp.2 i P hX
    have h1 : (x ()).controller.probabilities.at? i = some (f ()) := h1 ()
    have h2 : P = .num (f ()) := h2
    rw [h1, h2, he, ← hd]
    simp only [Option.map_some, Spec.isHalted_special hr.eps.1 hr.eps.2]

section Loop
variable {make : PyTree (Leaf ℚ) → ℚ → Res (Made ℚ)} {calls : PyTree (Leaf ℚ) → List (Op ℚ)}
  {next : PyTree (Leaf ℚ) → PyTree (Leaf ℚ)}

theorem visits_inRange {check : Bool} {x y : Carry ℚ}
    (h : Visits isActNotComplete
      (fun x => ((callLayer make calls next).adapter check x).map Carry.rebuild) x y)
    (hw : x.controller.state.WF) (hx : x.controller.state.InRange) :
    y.controller.state.WF ∧ y.controller.state.InRange := by
  induction h with
  | start => exact ⟨hw, hx⟩
  | next x y z _ hy _ ih =>
    cases hq : (callLayer make calls next).adapter check x with
    | error e => rw [hq] at hy; cases hy
    | ok w =>
      rw [hq] at hy
      cases hy
      rw [callLayer_adapter] at hq
      obtain ⟨c, hr, hq⟩ := bind_ok.1 hq
      have e : w = ⟨c, next x.state, x.metadata.increaseCounter⟩ := by
        cases check
        · cases hq; rfl
        · obtain ⟨_, _, hq⟩ := bind_ok.1 hq
          cases hq; rfl
      subst e
      have hr' := run_inRange _ (s := x.controller.state) hw hx hr
      exact ih (run_wf (s := x.controller.state) hw hr).sorted
        ⟨hr'.1, hr'.2, hr'.3, hr'.4, hr'.5⟩

theorem visited_inRange {s : PyTree (Leaf ℚ)} {d : ℚ} {max : Int} {check : Bool} {y : Carry ℚ}
    (h : (callLayer make calls next).Visited s d max check y)
    (hm : ∀ c, make s d = .ok (.ctrl c) → c.state.WF ∧ c.state.InRange) :
    y.controller.state.WF ∧ y.controller.state.InRange := by
  obtain ⟨c, hc, h⟩ := h
  obtain ⟨h1, h2⟩ := hm c (Layer.prepare_ok hc).1
  exact visits_inRange h h1.sorted ⟨h2.1, h2.2, h2.3, h2.4, h2.5⟩

/-- C92 for `execute_act` with a layer that calls the controller: if the controllers made are in range and no
call of an iteration takes an accumulator out of its range, the loop with infinities and NaN ends when the
loop without them ends, raises what it raises and returns the same finite numbers. -/
theorem C92_execute_act {MAKE : PyTree (Leaf Ext) → Ext → Res (Made Ext)}
    {CALLS : PyTree (Leaf Ext) → List (Op Ext)} {NEXT : PyTree (Leaf Ext) → PyTree (Leaf Ext)}
    (hmake : ∀ s S d D, TreeRel Finite s S → Finite d D →
      ResRel (MadeRel Finite) (fun v => make (s v) (d v)) (MAKE S D))
    (hcalls : CallsRel Finite (fun _ => calls) CALLS (fun _ => next) NEXT)
    {s : PyTree (Leaf ℚ)} {S : PyTree (Leaf Ext)} (hs : TreeRel Finite (fun _ => s) S) (d : ℚ) {max : Int}
    {check : Bool}
    (hr : ∀ c, make s d = .ok (.ctrl c) → c.state.InRange)
    (hfit : ∀ y, (callLayer make calls next).Visited s d max check y →
      (y.metadata.num_iterations = 0 ∨ isActNotComplete y = true) →
      Along (fun s op => op.Fits s) y.controller (calls y.state)) :
    (∀ e, (callLayer make calls next).ExecuteAct s d max check (.error e) ↔
      (callLayer MAKE CALLS NEXT).ExecuteAct S (.num d) max check (.error e)) ∧
    (∀ C T, (callLayer MAKE CALLS NEXT).ExecuteAct S (.num d) max check (.ok (C, T)) →
      ∃ c t, CtrlRel Finite (fun _ => c) C ∧ TreeRel Finite (fun _ => t) T ∧
        (callLayer make calls next).ExecuteAct s d max check (.ok (c, t))) ∧
    ∀ c t, (callLayer make calls next).ExecuteAct s d max check (.ok (c, t)) →
      ∃ C T, CtrlRel Finite (fun _ => c) C ∧ TreeRel Finite (fun _ => t) T ∧
        (callLayer MAKE CALLS NEXT).ExecuteAct S (.num d) max check (.ok (C, T)) := by
  have hm : ∀ c, make s d = .ok (.ctrl c) → c.state.WF ∧ c.state.InRange := by
    intro c hc
    refine ⟨?_, hr c hc⟩
    have := hmake (fun _ => s) S (fun _ => d) (.num d) hs rfl
    simp only [hc] at this
    cases hM : MAKE S (.num d) with
    | error e => rw [hM] at this; exact nomatch this ()
    | ok M =>
      rw [hM] at this
      obtain ⟨y, h1, h2⟩ := this
      cases M with
      | other => have := h1 (); rw [h2 ()] at this; cases this
      | ctrl C =>
        obtain ⟨c', h3, h4⟩ := h2
        have e := h1 ()
        rw [h3 ()] at e
        cases e
        exact h4.wf ()
  have hl := callLayer_rel (R := Finite) (θ₀ := ()) (G := fun s op => op.Calm s)
    (make := fun _ => make) (calls := fun _ => calls) (next := fun _ => next)
    (fun _ _ _ _ hwf hWF hs ho hg => call_finite hwf hWF hs ho hg.1 hg.2) hmake hcalls
  obtain ⟨h1, h2, h3⟩ := execute_rel (F := (⊤ : Filter Unit))
    (Good := fun y => y.controller.state.InRange) (max := max)
    (check := check) (s := fun _ => s) (d := fun _ => d) (D := .num d) hl hs (show _ = _ from rfl)
    (fun x X h hg => ⟨finite_cond h hg, Filter.Eventually.of_forall fun _ => rfl⟩)
    (fun y hy => (visited_inRange hy hm).2)
    (fun y hy hc => along_calm _ (s := y.controller.state) (visited_inRange hy hm).1
      (visited_inRange hy hm).2 (hfit y hy hc))
  refine ⟨fun e => ⟨fun h => ?_, fun h => h1 e h ()⟩, fun C T h => ?_, fun c t h => ?_⟩
  · obtain ⟨r, hr⟩ := h3 _ h
    cases r with
    | error e' =>
      cases C20_unique _ _ _ _ _ _ _ h (h1 e' hr ())
      exact hr
    | ok CT =>
      obtain ⟨c, t, -, -, h4, -⟩ := h2 CT.1 CT.2 hr
      cases C20_unique _ _ _ _ _ _ _ h h4
  · obtain ⟨c, t, k1, k2, k3, -⟩ := h2 C T h
    exact ⟨c (), t (), k1, k2, k3⟩
  · obtain ⟨r, hr⟩ := h3 _ h
    cases r with
    | error e' => cases C20_unique _ _ _ _ _ _ _ h (h1 e' hr ())
    | ok CT =>
      obtain ⟨c', t', k1, k2, h4, -⟩ := h2 CT.1 CT.2 hr
      cases C20_unique _ _ _ _ _ _ _ h h4
      exact ⟨CT.1, CT.2, k1, k2, hr⟩

end Loop

/-! ### Examples -/

section Example
open OneElement

theorem start_inRange (d : ℚ) (h0 : 0 ≤ d) (h1 : d ≤ 1) : (start (1 / 10 : ℚ) 0 d).InRange := by
  have h : DType.Holds .f32 0 := by unfold DType.Holds; decide +kernel
  refine ⟨by norm_num [start], ⟨h0, h1⟩, fun b p hp => ?_, fun b p hp => ?_, fun b p hp => ?_⟩
  · rw [at_one hp]; exact ⟨h, by norm_num⟩
  · rw [at_one hp]; exact h
  · rw [at_one hp]; exact h

theorem start_leaf {α : Type} {e z o : α} {n : String} {k : Nat} {t : Tensor α}
    (h : leaf? (start e z o).accumulators n k = some (.tensor t)) : n = "out" ∧ k = 0 ∧ t = one z := by
  obtain ⟨T, h1, h2⟩ := leaf?_eq_some.1 h
  obtain ⟨rfl, rfl⟩ := Fixtures.get?_one h1
  cases k with
  | zero => cases h2; exact ⟨rfl, rfl, rfl⟩
  | succ k => cases h2

/-- Updates of `10^38`, close to the largest float32, in five rounds: no overflow. -/
theorem C92_bounded_example (d : ℚ) (h0 : 0 ≤ d) (h1 : d ≤ 1) (h : ℚ) :
    Along (fun s op => op.Fits s) ⟨start (1 / 10 : ℚ) 0 d⟩
      (roundOps (List.replicate 5 ⟨[("out", tree (10 ^ 38))], one h⟩)) := by
  refine C92_bounded (start_wf ..) (start_inRange d h0 h1) (fun b p hp => at_one hp)
    (fun n k i a ha => ?_) _ (M := 2 * 10 ^ 38) (by norm_num) (fun r hr n k ta hta => ?_)
    fun n k ta hta => ?_
  · obtain ⟨l, e1, e2⟩ := entry?_eq_some.1 ha
    cases l with
    | tensor t => obtain ⟨-, -, rfl⟩ := start_leaf e1; exact at_one e2
    | _ => cases e2
  · obtain ⟨rfl, rfl, rfl⟩ := start_leaf hta
    rw [List.eq_of_mem_replicate hr]
    refine ⟨one (10 ^ 38), rfl, rfl, fun i v hv => ?_⟩
    rw [at_one hv]
    change |(10 : ℚ) ^ 38| ≤ DType.f32.largest ∧ |convS DType.f32 DType.f32 ((10 : ℚ) ^ 38)| ≤ 2 * 10 ^ 38
    decide +kernel
  · obtain ⟨rfl, rfl, rfl⟩ := start_leaf hta
    change accLimit DType.f32.fmt 5 (2 * 10 ^ 38) ≤ DType.f32.largest
    decide +kernel

/-- An accumulator that starts at the largest float32. -/
def heavy {α : Type} (eps z o L : α) : ACTStates α :=
  { start eps z o with accumulators := [("out", tree L)] }

theorem of_observed {α : Type} {r : Res (Controller α)} {x : α}
    (h : (match r with | .ok c => entry? c.accumulators "out" 0 [0] | .error _ => Option.none) = some x) :
    ∃ c, r = .ok c ∧ entry? c.accumulators "out" 0 [0] = some x := by
  cases r with
  | error e => cases h
  | ok c => exact ⟨c, rfl, h⟩

/-- The hypothesis on accumulators is needed: adding the largest float32 to itself is infinity, which the
arithmetic without overflow misses. -/
theorem C92_overflow_example :
    (∃ c, run ⟨heavy (Ext.num (1 / 10)) (Ext.num 0) (Ext.num 1) (Ext.num DType.f32.largest)⟩
      (calls (Ext.num DType.f32.largest) (Ext.num 1)) = .ok c ∧
      entry? c.accumulators "out" 0 [0] = some (Ext.inf false)) ∧
    ∃ c, run ⟨heavy (1 / 10 : ℚ) 0 1 DType.f32.largest⟩ (calls DType.f32.largest 1) = .ok c ∧
      entry? c.accumulators "out" 0 [0] = some (2 * DType.f32.largest) :=
  ⟨of_observed (by decide +kernel), of_observed (by decide +kernel)⟩

theorem loop_fits (check : Bool) (y : Carry ℚ)
    (hy : (callLayer (fun _ d => .ok (.ctrl ⟨start (1 / 10 : ℚ) 0 d⟩)) (fun s => (round (0 : ℚ) s).ops)
      id).Visited (tree (3 / 5)) 1 1 check y)
    (hn : y.metadata.num_iterations = 0 ∨ isActNotComplete y = true) :
    Along (fun s op => op.Fits s) y.controller (round (0 : ℚ) y.state).ops := by
  obtain ⟨c, hc, hy⟩ := hy
  have hc := (Layer.prepare_ok hc).1
  cases hc
  have key := C92_bounded (s := (start (1 / 10 : ℚ) 0 1)) (start_wf ..)
    (start_inRange 1 (by norm_num) le_rfl) (fun b p hp => at_one hp)
    (fun n k i a ha => by
      obtain ⟨l, e1, e2⟩ := entry?_eq_some.1 ha
      cases l with
      | tensor t => obtain ⟨-, -, rfl⟩ := start_leaf e1; exact at_one e2
      | _ => cases e2) [round 0 (tree (3 / 5))] (M := 1) (by norm_num)
    (fun r hr n k ta hta => by
      obtain ⟨rfl, rfl, rfl⟩ := start_leaf hta
      rw [List.mem_singleton.1 hr]
      refine ⟨one (3 / 5), rfl, rfl, fun i v hv => ?_⟩
      rw [at_one hv]
      change |(3 / 5 : ℚ)| ≤ DType.f32.largest ∧ |convS DType.f32 DType.f32 (3 / 5 : ℚ)| ≤ 1
      decide +kernel)
    (fun n k ta hta => by
      obtain ⟨rfl, rfl, rfl⟩ := start_leaf hta
      change accLimit DType.f32.fmt 1 1 ≤ DType.f32.largest
      decide +kernel)
  cases hy with
  | start => exact key
  | next _ w _ _ hw hy =>
    exfalso
    have hstep : ∀ {x w : Carry ℚ}, ((callLayer (fun _ d => .ok (.ctrl ⟨start (1 / 10 : ℚ) 0 d⟩))
        (fun s => (round (0 : ℚ) s).ops) id).adapter check x).map Carry.rebuild = .ok w →
        w.metadata = x.metadata.increaseCounter := by
      intro x w h
      rw [callLayer_adapter] at h
      cases hr : run x.controller (round 0 x.state).ops with
      | error e => rw [hr] at h; cases h
      | ok c =>
        rw [hr] at h
        cases check with
        | false => cases h; rfl
        | true =>
          cases hv : validateAllCommitted x.controller with
          | error e => simp [hv, bind, Except.bind, Except.map] at h
          | ok u => simp [hv, bind, Except.bind, Except.map, pure, Except.pure] at h; rw [← h]; rfl
    have hw := hstep hw
    cases hy with
    | start =>
      rcases hn with hn | hn
      · rw [hw] at hn; cases hn
      · unfold isActNotComplete at hn; rw [hw] at hn; simp [Carry.rebuild, ACTMetaData.increaseCounter] at hn
    | next _ _ _ hcond _ _ =>
      unfold isActNotComplete at hcond; rw [hw] at hcond; simp [Carry.rebuild, ACTMetaData.increaseCounter] at hcond

/-- The loop of `OneElement` with halting probability and update `3/5`, stopped after one iteration, returns
the same finite numbers in both arithmetics. -/
theorem C92_loop_example (check : Bool) :
    ∃ C T c t, (loop (Ext.num (1 / 10)) (Ext.num 0)).ExecuteAct (tree (.num (3 / 5))) (.num 1) 1 check
      (.ok (C, T)) ∧ CtrlRel Finite (fun _ => c) C ∧ TreeRel Finite (fun _ => t) T ∧
      (loop (1 / 10 : ℚ) 0).ExecuteAct (tree (3 / 5)) 1 1 check (.ok (c, t)) := by
  obtain ⟨C, T, h⟩ := loop_ok (Ext.num (1 / 10)) (Ext.num 0) (.num 1) (.num (3 / 5)) 1 check
  have hz : Finite (fun _ => 0) (Ext.num 0) := rfl
  obtain ⟨-, h2, -⟩ := C92_execute_act (make := fun _ d => .ok (.ctrl ⟨start (1 / 10 : ℚ) 0 d⟩))
    (calls := fun s => (round (0 : ℚ) s).ops) (next := id)
    (MAKE := fun _ d => .ok (.ctrl ⟨start (Ext.num (1 / 10)) (Ext.num 0) d⟩))
    (CALLS := fun s => (round (Ext.num 0) s).ops) (NEXT := id)
    (fun s S d D _ hd => ⟨_, fun _ => rfl, _, fun _ => rfl,
      start_rel (show Finite (fun _ => 1 / 10) (.num (1 / 10)) from rfl) hz hd,
      fun _ => start_wf .., start_wf ..⟩)
    (round_rel hz) (s := tree (3 / 5)) (S := tree (.num (3 / 5)))
    (tree_rel (show Finite (fun _ => 3 / 5) (.num (3 / 5)) from rfl)) 1 (max := 1) (check := check)
    (fun c hc => by cases hc; exact start_inRange 1 (by norm_num) le_rfl)
    (loop_fits check)
  obtain ⟨c, t, k1, k2, k3⟩ := h2 C T h
  exact ⟨C, T, c, t, h, k1, k2, k3⟩

end Example

end JaxAct
