import Verif.Lemmas.Flush
import Verif.Lemmas.TwoAriths
import Verif.Lemmas.Families
import Verif.Props.C19
import Verif.Props.C61

/-!
# C117 Flushing subnormal numbers to zero

Most backends of XLA replace subnormal results by zero.  The theorems of C19 still hold then, and the
bookkeeping is that of IEEE 754 arithmetic as long as no depressed halting probability is subnormal.
-/

namespace JaxAct
open Spec Fmt Controller ACTStates

section Flushing
variable {F : DType → Fmt} [A : Arith ℚ]

/-- The invariant of the histories: constants in range, and every batch element calm. -/
structure FlushInv (F : DType → Fmt) (s : ACTStates ℚ) : Prop where
  wide : (F s.probabilities.dtype).Wide
  eps : 0 ≤ s.epsilon
  eps2 : s.epsilon ≤ 1 / 2
  dep : 0 ≤ s.depression_constant
  cells : CellsSat (CalmCell (F s.probabilities.dtype)) s

omit A in
theorem FlushInv.cache {s s' : ACTStates ℚ} {n : String} {t : PyTree (Leaf ℚ)}
    (st : CacheStep s n t s') (inv : FlushInv F s) : FlushInv F s' := by
  obtain ⟨-, rfl⟩ := st
  exact ⟨inv.wide, inv.eps, inv.eps2, inv.dep, inv.cells⟩

/-- What an iteration does to one element. -/
theorem iter_flushing (hA : A = Arith.flushing F) (h64 : (F .f64).Valid) {s s' : ACTStates ℚ}
    {h : Tensor ℚ} (hwf : s.WF) (st : IterStep s h s') (inv : FlushInv F s) {b : List Nat} {p' r' n' : ℚ}
    (hp' : s'.probabilities.at? b = some p') (hr' : s'.residuals.at? b = some r')
    (hn' : s'.iterations.at? b = some n') :
    CalmCell (F s.probabilities.dtype) ⟨p', r', n'⟩ ∧ ∃ p, s.probabilities.at? b = some p ∧ p ≤ p' ∧
      (p' = 1 ∨ p' ≤ threshold s.probabilities.dtype s.epsilon) := by
  obtain ⟨p, hp⟩ := st.index hp'
  obtain ⟨r, n, hr, hn⟩ := hwf.cell hp
  obtain ⟨x, hx⟩ := at?_some_of_shape (b := h) st.hshape hp
  obtain ⟨c1, c2, c3⟩ := st.cell b p r n x hp hr hn hx
  rw [hp'] at c1; rw [hr'] at c2; rw [hn'] at c3
  obtain ⟨k1, k2, k3⟩ := step_flushing_calm hA hwf.floating inv.wide h64 s.iterations.dtype inv.eps inv.eps2
    inv.dep (inv.cells b p r n hp hr hn) (convS h.dtype s.probabilities.dtype x)
  cases c1; cases c2; cases c3
  exact ⟨k1, p, hp, k2, k3⟩

theorem FlushInv.iter (hA : A = Arith.flushing F) (h64 : (F .f64).Valid) {s s' : ACTStates ℚ}
    {h : Tensor ℚ} (hwf : s.WF) (st : IterStep s h s') (inv : FlushInv F s) : FlushInv F s' := by
  refine ⟨by rw [st.pdtype]; exact inv.wide, by rw [st.epsilon]; exact inv.eps,
    by rw [st.epsilon]; exact inv.eps2, by rw [st.depression]; exact inv.dep, fun b p r n hp hr hn => ?_⟩
  rw [st.pdtype]
  exact (iter_flushing hA h64 hwf st inv hp hr hn).1

/-- What a reset does to one element. -/
theorem reset_flushing (hA : A = Arith.flushing F) {s s' : ACTStates ℚ} (hwf : s.WF)
    (st : ResetStep s s') (inv : FlushInv F s) {b : List Nat} {p' r' n' : ℚ}
    (hp' : s'.probabilities.at? b = some p') (hr' : s'.residuals.at? b = some r')
    (hn' : s'.iterations.at? b = some n') :
    CalmCell (F s.probabilities.dtype) ⟨p', r', n'⟩ ∧ ∃ p, s.probabilities.at? b = some p ∧
      p' = if isHalted s.probabilities.dtype s.epsilon p then 0 else p := by
  obtain ⟨p, hp⟩ := st.index hp'
  obtain ⟨r, n, hr, hn⟩ := hwf.cell hp
  obtain ⟨c1, c2, c3⟩ := st.cell b p r n hp hr hn
  rw [hp'] at c1; rw [hr'] at c2; rw [hn'] at c3
  obtain ⟨k1, -, k3⟩ := resetCell_flushing hA hwf.floating inv.wide.1 s.iterations.dtype
    (eps := s.epsilon) (inv.cells b p r n hp hr hn)
  cases c1; cases c2; cases c3
  exact ⟨k3, p, hp, k1⟩

theorem FlushInv.reset (hA : A = Arith.flushing F) {s s' : ACTStates ℚ} (hwf : s.WF)
    (st : ResetStep s s') (inv : FlushInv F s) : FlushInv F s' := by
  refine ⟨by rw [st.pdtype]; exact inv.wide, by rw [st.epsilon]; exact inv.eps,
    by rw [st.epsilon]; exact inv.eps2, by rw [st.depression]; exact inv.dep, fun b p r n hp hr hn => ?_⟩
  rw [st.pdtype]
  exact (reset_flushing hA hwf st inv hp hr hn).1

/-- C117, bounds.  With subnormal results flushed to zero, after any sequence of calls the cumulative
probabilities are numbers of the format between 0 and 1, and none is subnormal. -/
theorem C117_probabilities_in_unit_interval (hA : A = Arith.flushing F) (h64 : (F .f64).Valid)
    {s : ACTStates ℚ} (hwf : s.WF) (hF : (F s.probabilities.dtype).Wide) (he : 0 ≤ s.epsilon)
    (he2 : s.epsilon ≤ 1 / 2) (hdep : 0 ≤ s.depression_constant)
    (hp : ∀ b p, s.probabilities.at? b = some p → 0 ≤ p ∧ p ≤ 1 ∧
      (F s.probabilities.dtype).Rep p ∧ (F s.probabilities.dtype).NotTiny p)
    (hr : ∀ b r, s.residuals.at? b = some r →
      (F s.probabilities.dtype).Rep r ∧ (F s.probabilities.dtype).NotTiny r)
    (ops : List (Op ℚ)) {c' : Controller ℚ} (hrun : run ⟨s⟩ ops = .ok c') {b : List Nat} {p : ℚ}
    (hb : c'.probabilities.at? b = some p) :
    0 ≤ p ∧ p ≤ 1 ∧ (F c'.probabilities.dtype).Rep p ∧ (F c'.probabilities.dtype).NotTiny p := by
  obtain ⟨hwf', inv⟩ := run_induction (Inv := FlushInv F) (fun _ _ _ _ _ st i => i.cache st)
    (fun _ _ _ hwf st i => i.iter hA h64 hwf st) (fun _ _ hwf st i => i.reset hA hwf st) ops hwf
    ⟨hF, he, he2, hdep, fun b p r n h1 h2 _ => ⟨(hp b p h1).2.2.1, (hp b p h1).2.2.2, (hp b p h1).1,
      (hp b p h1).2.1, (hr b r h2).1, (hr b r h2).2⟩⟩ hrun
  obtain ⟨r, n, h2, h3⟩ := hwf'.cell hb
  have := inv.cells b p r n hb h2 h3
  exact ⟨this.nonneg, this.le_one, this.rep, this.calm⟩

/-- C117, exactness.  With subnormal results flushed to zero, an element that was not halted and is halted
after some history (resets included) has cumulative probability exactly one. -/
theorem C117_halted_probability_is_one (hA : A = Arith.flushing F) (h64 : (F .f64).Valid)
    {s : ACTStates ℚ} (hwf : s.WF) (hF : (F s.probabilities.dtype).Wide) (he : 0 ≤ s.epsilon)
    (he2 : s.epsilon ≤ 1 / 2) (hdep : 0 ≤ s.depression_constant)
    (hp : ∀ b p, s.probabilities.at? b = some p → 0 ≤ p ∧ p ≤ 1 ∧
      (F s.probabilities.dtype).Rep p ∧ (F s.probabilities.dtype).NotTiny p)
    (hr : ∀ b r, s.residuals.at? b = some r →
      (F s.probabilities.dtype).Rep r ∧ (F s.probabilities.dtype).NotTiny r)
    {b : List Nat} (hb : (Controller.haltedBatches ⟨s⟩).at? b = some false)
    (ops : List (Op ℚ)) {c' : Controller ℚ} (hrun : run ⟨s⟩ ops = .ok c')
    (hb' : c'.haltedBatches.at? b = some true) : c'.probabilities.at? b = some 1 := by
  have := run_induction (Inv := fun t => FlushInv F t ∧
      ((Controller.haltedBatches ⟨t⟩).at? b = some true → t.probabilities.at? b = some 1))
      ?_ ?_ ?_ ops hwf ⟨⟨hF, he, he2, hdep, fun b p r n h1 h2 _ => ⟨(hp b p h1).2.2.1, (hp b p h1).2.2.2,
        (hp b p h1).1, (hp b p h1).2.1, (hr b r h2).1, (hr b r h2).2⟩⟩, fun h => by rw [hb] at h; cases h⟩ hrun
  · exact this.2.2 hb'
  · rintro s n t s' - st ⟨inv, h2⟩
    have := inv.cache st
    obtain ⟨-, rfl⟩ := st
    exact ⟨this, h2⟩
  · rintro s h s' hwf st ⟨inv, h2⟩
    refine ⟨inv.iter hA h64 hwf st, fun hb => ?_⟩
    rw [halted_iff (by rw [st.pdtype]; exact hwf.floating)] at hb
    obtain ⟨p', hp', hh⟩ := hb
    obtain ⟨p, hp0⟩ := st.index hp'
    obtain ⟨r', hr'⟩ := at?_some_of_shape (b := s'.residuals)
      (st.rshape.trans (hwf.res_shape.trans st.pshape.symm)) hp'
    obtain ⟨n', hn'⟩ := at?_some_of_shape (b := s'.iterations)
      (st.ishape.trans (hwf.it_shape.trans st.pshape.symm)) hp'
    obtain ⟨-, -, -, -, k | k⟩ := iter_flushing hA h64 hwf st inv hp' hr' hn'
    · rw [hp', k]
    · rw [st.pdtype, st.epsilon] at hh
      have : threshold s.probabilities.dtype s.epsilon < p' := by
        subst hA
        exact of_decide_eq_true hh
      linarith
  · rintro s s' hwf st ⟨inv, h2⟩
    refine ⟨inv.reset hA hwf st, fun hb => ?_⟩
    rw [halted_iff (by rw [st.pdtype]; exact hwf.floating)] at hb
    obtain ⟨p', hp', hh⟩ := hb
    obtain ⟨r', hr'⟩ := at?_some_of_shape (b := s'.residuals)
      (st.rshape.trans (hwf.res_shape.trans st.pshape.symm)) hp'
    obtain ⟨n', hn'⟩ := at?_some_of_shape (b := s'.iterations)
      (st.ishape.trans (hwf.it_shape.trans st.pshape.symm)) hp'
    obtain ⟨-, p, hp0, e⟩ := reset_flushing hA hwf st inv hp' hr' hn'
    rw [st.pdtype, st.epsilon] at hh
    exfalso
    split at e
    · have h0 : 0 ≤ threshold s.probabilities.dtype s.epsilon := by
        rw [threshold_flushing hA hwf.floating inv.wide.1 h64 inv.eps2]
        exact rnd_nonneg (rnd_nonneg (by linarith [inv.eps2]))
      have : threshold s.probabilities.dtype s.epsilon < p' := by
        subst hA
        exact of_decide_eq_true hh
      linarith
    · rename_i h
      rw [e] at hh
      exact h hh

end Flushing

section Same
variable {F : DType → Fmt}

/-- A counter that is zero or at least one, if counters are floating point numbers. -/
def CalmCount (F : DType → Fmt) (dI : DType) (n : ℚ) : Prop :=
  dI.isFloating = true → (F dI).Valid ∧ (n = 0 ∨ 1 ≤ n)

theorem calm_flush {dI : DType} {n : ℚ} (h : CalmCount F dI n) :
    Arith.flushTo F dI n = Arith.roundTo F dI n ∧ CalmCount F dI (Arith.roundTo F dI n) := by
  cases hd : dI.isFloating with
  | false => exact ⟨by rw [flushTo_int hd, Arith.roundTo, if_neg (by rw [hd]; simp)],
      fun h => by rw [hd] at h; cases h⟩
  | true =>
    obtain ⟨hv, h0 | h1⟩ := h hd
    · subst h0
      rw [flushTo_float hd, roundTo_float hd, rnd_zero]
      exact ⟨flush_of (notTiny_zero _), fun _ => ⟨hv, .inl rfl⟩⟩
    · have : 1 ≤ (F dI).rnd n := le_rnd_of_rep hv.1 (rnd_one hv) h1
      rw [flushTo_float hd, roundTo_float hd]
      exact ⟨flush_of (notTiny_of_half hv (by linarith)), fun _ => ⟨hv, .inr this⟩⟩

theorem calm_succ {dI : DType} {n : ℚ} (h : CalmCount F dI n) : CalmCount F dI (n + 1) := fun hd => by
  obtain ⟨hv, h⟩ := h hd
  exact ⟨hv, .inr (by rcases h with rfl | h <;> linarith)⟩

theorem calm_zero {dI : DType} (hv : dI.isFloating = true → (F dI).Valid) : CalmCount F dI 0 :=
  fun hd => ⟨hv hd, .inl rfl⟩

/-- Counters are kept or cleared alike. -/
theorem keepIf_count {dI : DType} {n : ℚ} (h : CalmCount F dI n) (b : Bool) :
    @keepIf ℚ (Arith.flushing F) dI b n = @keepIf ℚ (Arith.rounded F) dI b n ∧
      CalmCount F dI (@keepIf ℚ (Arith.flushing F) dI b n) := by
  have hv : dI.isFloating = true → (F dI).Valid := fun hd => (h hd).1
  have hb : CalmCount F dI (if b then 1 else 0) := fun hd => ⟨hv hd, by cases b <;> simp⟩
  have e1 : @convS ℚ (Arith.flushing F) .bool dI (if b then 1 else 0) = if b then 1 else 0 := by
    unfold convS
    split
    · rfl
    · show Arith.flushTo F dI _ = _
      rw [(calm_flush hb).1]
      unfold Arith.roundTo
      split
      · rename_i hd
        cases b
        · exact rnd_zero _
        · exact rnd_one (hv hd)
      · rfl
  have e2 : @convS ℚ (Arith.rounded F) .bool dI (if b then 1 else 0) = if b then 1 else 0 := by
    unfold convS
    split
    · rfl
    · show Arith.roundTo F dI _ = _
      unfold Arith.roundTo
      split
      · rename_i hd
        cases b
        · exact rnd_zero _
        · exact rnd_one (hv hd)
      · rfl
  have k1 : @keepIf ℚ (Arith.flushing F) dI b n = Arith.flushTo F dI (n * if b then 1 else 0) :=
    congrArg (fun y => Arith.flushTo F dI (n * y)) e1
  have k2 : @keepIf ℚ (Arith.rounded F) dI b n = Arith.roundTo F dI (n * if b then 1 else 0) :=
    congrArg (fun y => Arith.roundTo F dI (n * y)) e2
  have hn : CalmCount F dI (n * if b then 1 else 0) := by
    cases b
    · simpa using calm_zero hv
    · simpa using h
  rw [k1, k2, (calm_flush hn).1]
  exact ⟨rfl, (calm_flush hn).2⟩

/-- Flushing and plain rounding agree on calm elements that receive calm demands. -/
theorem stepsAgree_flushing {d dI : DType} (hd : d.isFloating = true)
    (hF : (F d).Wide) (h64 : (F .f64).Valid) {eps dep : ℚ} (he : 0 ≤ eps) (he2 : eps ≤ 1 / 2)
    (hdep : 0 ≤ dep) : StepsAgree (Arith.flushing F) (Arith.rounded F) d dI eps dep
      (fun c => CalmCell (F d) c ∧ CalmCount F dI c.iter)
      fun x => (F d).NotTiny ((F d).rnd ((F d).rnd dep * (1 ⊓ (0 ⊔ x)))) := by
  have hT : @threshold ℚ (Arith.flushing F) d eps = @threshold ℚ (Arith.rounded F) d eps := by
    rw [threshold_flushing rfl hd hF.1 h64 he2, @threshold_rounded F (Arith.rounded F) rfl d hd]
  have hH : ∀ p, @isHalted ℚ (Arith.flushing F) d eps p = @isHalted ℚ (Arith.rounded F) d eps p := by
    intro p
    show decide (@threshold ℚ (Arith.flushing F) d eps < p) = decide (@threshold ℚ (Arith.rounded F) d eps < p)
    rw [hT]
  refine ⟨fun c x ⟨hc, hn⟩ hx => ?_, fun c ⟨hc, hn⟩ => ?_⟩
  · have hD : @demand ℚ (Arith.flushing F) d dep x = @demand ℚ (Arith.rounded F) d dep x := by
      rw [demand_flushing_eq rfl hd hF.1.1 hdep hx, @demand_rounded F (Arith.rounded F) rfl d hd]
    have hC : @crosses ℚ (Arith.flushing F) d eps dep c.prob x =
        @crosses ℚ (Arith.rounded F) d eps dep c.prob x := by
      rw [Bool.eq_iff_iff, crosses_flushing rfl hd hF.1 hdep hc.rep hc.calm hc.nonneg,
        @crosses_rounded F (Arith.rounded F) rfl d hd, hT, hD]
    obtain ⟨e1, e2⟩ := step_flushing rfl hd hF dI (eps := eps) hdep hc x
    have e3 := @step_rounded F (Arith.rounded F) rfl d hd dI eps dep c x
    rw [rnd_add_remainder hF.1 hc.rep hc.nonneg hc.le_one] at e3
    have e4 : (@step ℚ (Arith.rounded F) d dI eps dep c x).resid =
        if @crosses ℚ (Arith.rounded F) d eps dep c.prob x && !@isHalted ℚ (Arith.rounded F) d eps c.prob
        then (F d).rnd (1 - c.prob) else c.resid := by
      have hs : (Arith.rounded F).sub d (Arith.rounded F).one c.prob = (F d).rnd (1 - c.prob) :=
        roundTo_float hd _
      unfold step
      simp only [hs]
    have e5 : (@step ℚ (Arith.flushing F) d dI eps dep c x).iter =
        (@step ℚ (Arith.rounded F) d dI eps dep c x).iter := by
      show (if @isHalted ℚ (Arith.flushing F) d eps c.prob then c.iter else Arith.flushTo F dI (c.iter + 1)) =
        (if @isHalted ℚ (Arith.rounded F) d eps c.prob then c.iter else Arith.roundTo F dI (c.iter + 1))
      rw [hH, (calm_flush (calm_succ hn)).1]
    have key : ∀ a b : Cell ℚ, a.prob = b.prob → a.resid = b.resid → a.iter = b.iter → a = b := by
      rintro ⟨_, _, _⟩ ⟨_, _, _⟩ rfl rfl rfl; rfl
    have e6 : CalmCount F dI (@step ℚ (Arith.flushing F) d dI eps dep c x).iter := by
      show CalmCount F dI (if @isHalted ℚ (Arith.flushing F) d eps c.prob then c.iter
        else Arith.flushTo F dI (c.iter + 1))
      split
      · exact hn
      · rw [(calm_flush (calm_succ hn)).1]; exact (calm_flush (calm_succ hn)).2
    refine ⟨key _ _ ?_ ?_ e5, (step_flushing_calm rfl hd hF h64 dI he he2 hdep hc x).1, e6⟩
    · rw [e1, e3, hC, hD]
    · rw [e2, e4, hC, hH]
  · obtain ⟨e1, e2, e3⟩ := resetCell_flushing rfl hd hF.1 dI (eps := eps) hc
    refine ⟨?_, e3, (keepIf_count hn _).2⟩
    have k1 : (@resetCell ℚ (Arith.rounded F) d dI eps c).prob = _ :=
      @keepIf_rounded F (Arith.rounded F) rfl d hd hF.1 _ _
    have k2 : (@resetCell ℚ (Arith.rounded F) d dI eps c).resid = _ :=
      @keepIf_rounded F (Arith.rounded F) rfl d hd hF.1 _ _
    rw [show (F d).rnd c.prob = c.prob from hc.rep] at k1
    rw [show (F d).rnd c.resid = c.resid from hc.rrep] at k2
    have k3 : (@resetCell ℚ (Arith.flushing F) d dI eps c).iter =
        (@resetCell ℚ (Arith.rounded F) d dI eps c).iter := by
      show @keepIf ℚ (Arith.flushing F) dI _ _ = @keepIf ℚ (Arith.rounded F) dI _ _
      rw [hH, (keepIf_count hn _).1]
    have key : ∀ a b : Cell ℚ, a.prob = b.prob → a.resid = b.resid → a.iter = b.iter → a = b := by
      rintro ⟨_, _, _⟩ ⟨_, _, _⟩ rfl rfl rfl; rfl
    refine key _ _ ?_ ?_ k3
    · rw [e1, k1, hH]; cases @isHalted ℚ (Arith.rounded F) d eps c.prob <;> rfl
    · rw [e2, k2, hH]; cases @isHalted ℚ (Arith.rounded F) d eps c.prob <;> rfl

/-- C117, agreement.  If every product of the depression constant and a clipped halting probability is zero
or a normal number, then with and without flushing a history of calls raises the same exception, or gives
the same cumulative probabilities, residuals, iteration counters and halted flags. -/
theorem C117_same_bookkeeping (h64 : (F .f64).Valid) {s : ACTStates ℚ} (hwf : s.WF)
    (hn : s.iterations.dtype.isFloating = true → (F s.iterations.dtype).Valid ∧
      ∀ b n, s.iterations.at? b = some n → n = 0 ∨ 1 ≤ n)
    (hF : (F s.probabilities.dtype).Wide)
    (he : 0 ≤ s.epsilon) (he2 : s.epsilon ≤ 1 / 2) (hdep : 0 ≤ s.depression_constant)
    (hp : ∀ b p, s.probabilities.at? b = some p → 0 ≤ p ∧ p ≤ 1 ∧
      (F s.probabilities.dtype).Rep p ∧ (F s.probabilities.dtype).NotTiny p)
    (hr : ∀ b r, s.residuals.at? b = some r →
      (F s.probabilities.dtype).Rep r ∧ (F s.probabilities.dtype).NotTiny r)
    {ops : List (Op ℚ)}
    (hops : ∀ h, .iterate h ∈ ops → h.dtype = s.probabilities.dtype ∧ ∀ b x, h.at? b = some x →
      let rnd := (F s.probabilities.dtype).rnd
      (F s.probabilities.dtype).NotTiny (rnd (rnd s.depression_constant * min 1 (max 0 x)))) :
    (∃ e, @run ℚ (Arith.flushing F) ⟨s⟩ ops = .error e ∧ @run ℚ (Arith.rounded F) ⟨s⟩ ops = .error e) ∨
    (∃ c c', @run ℚ (Arith.flushing F) ⟨s⟩ ops = .ok c ∧ @run ℚ (Arith.rounded F) ⟨s⟩ ops = .ok c' ∧
      c.probabilities = c'.probabilities ∧ c.residuals = c'.residuals ∧ c.iterations = c'.iterations ∧
      @Controller.haltedBatches ℚ (Arith.flushing F) c = @Controller.haltedBatches ℚ (Arith.rounded F) c' ∧
      ∀ n, c.state.updates.get? n = c'.state.updates.get? n) := by
  rcases run_two_ariths (stepsAgree_flushing hwf.floating hF h64 he he2 hdep) ops hwf hwf
    (StatesAlike.refl s) ⟨rfl, rfl, rfl, rfl, rfl, fun _ => rfl, rfl⟩ rfl rfl rfl rfl
    (fun b p r n h1 h2 h3 => ⟨⟨(hp b p h1).2.2.1, (hp b p h1).2.2.2, (hp b p h1).1,
      (hp b p h1).2.1, (hr b r h2).1, (hr b r h2).2⟩, fun hd => ⟨(hn hd).1, (hn hd).2 b n h3⟩⟩) hops with h | ⟨c, c', h1, h2, -, hb, -, kd, ke⟩
  · exact .inl h
  · refine .inr ⟨c, c', h1, h2, hb.probabilities.symm, hb.residuals.symm, hb.iterations.symm, ?_,
      fun n => (hb.updates n).symm⟩
    have hf : c.probabilities.dtype.isFloating = true := by
      show c.state.probabilities.dtype.isFloating = true
      rw [kd]; exact hwf.floating
    have hf' : c'.probabilities.dtype.isFloating = true := by
      show c'.state.probabilities.dtype.isFloating = true
      rw [hb.probabilities]; exact hf
    have e : ∀ p, @isHalted ℚ (Arith.flushing F) c.state.probabilities.dtype c.state.epsilon p =
        @isHalted ℚ (Arith.rounded F) c'.state.probabilities.dtype c'.state.epsilon p := by
      intro p
      rw [hb.probabilities, hb.epsilon, kd, ke]
      show decide (@threshold ℚ (Arith.flushing F) _ _ < p) = decide (@threshold ℚ (Arith.rounded F) _ _ < p)
      rw [threshold_flushing rfl hwf.floating hF.1 h64 he2,
        @threshold_rounded F (Arith.rounded F) rfl _ hwf.floating]
    have key : ∀ b x, (@Controller.haltedBatches ℚ (Arith.flushing F) c).at? b = some x ↔
        (@Controller.haltedBatches ℚ (Arith.rounded F) c').at? b = some x := by
      intro b x
      rw [@halted_iff ℚ (Arith.flushing F) c.state hf, @halted_iff ℚ (Arith.rounded F) c'.state hf']
      simp only [e, hb.probabilities]
    have hs : (@Controller.haltedBatches ℚ (Arith.flushing F) c).shape =
        (@Controller.haltedBatches ℚ (Arith.rounded F) c').shape := by
      rw [@haltedBatches_shape ℚ (Arith.flushing F), @haltedBatches_shape ℚ (Arith.rounded F)]
      show c.state.probabilities.shape = c'.state.probabilities.shape
      rw [hb.probabilities]
    exact Arr.ext_at hs fun b => Option.ext fun x => key b x

/-- The weight of an update is the same with and without flushing. -/
theorem weight_flushing {d : DType} (hd : d.isFloating = true) (hF : (F d).Wide) (h64 : (F .f64).Valid)
    {eps dep p x : ℚ} (he2 : eps ≤ 1 / 2) (hdep : 0 ≤ dep) (hr : (F d).Rep p) (ht : (F d).NotTiny p)
    (h0 : 0 ≤ p) (h1 : p ≤ 1) (hx : (F d).NotTiny ((F d).rnd ((F d).rnd dep * (1 ⊓ (0 ⊔ x))))) :
    @isHalted ℚ (Arith.flushing F) d eps p = @isHalted ℚ (Arith.rounded F) d eps p ∧
    @weight ℚ (Arith.flushing F) d eps dep p x = @weight ℚ (Arith.rounded F) d eps dep p x := by
  have hT : @threshold ℚ (Arith.flushing F) d eps = @threshold ℚ (Arith.rounded F) d eps := by
    rw [threshold_flushing rfl hd hF.1 h64 he2, @threshold_rounded F (Arith.rounded F) rfl d hd]
  have hD : @demand ℚ (Arith.flushing F) d dep x = @demand ℚ (Arith.rounded F) d dep x := by
    rw [demand_flushing_eq rfl hd hF.1.1 hdep hx, @demand_rounded F (Arith.rounded F) rfl d hd]
  have hC : @crosses ℚ (Arith.flushing F) d eps dep p x = @crosses ℚ (Arith.rounded F) d eps dep p x := by
    rw [Bool.eq_iff_iff, crosses_flushing rfl hd hF.1 hdep hr ht h0,
      @crosses_rounded F (Arith.rounded F) rfl d hd, hT, hD]
  refine ⟨?_, ?_⟩
  · show decide (@threshold ℚ (Arith.flushing F) d eps < p) = decide (@threshold ℚ (Arith.rounded F) d eps < p)
    rw [hT]
  · show (if @crosses ℚ (Arith.flushing F) d eps dep p x then Arith.flushTo F d (1 - p)
        else @demand ℚ (Arith.flushing F) d dep x) =
      (if @crosses ℚ (Arith.rounded F) d eps dep p x then Arith.roundTo F d (1 - p)
        else @demand ℚ (Arith.rounded F) d dep x)
    rw [hC, hD, flushTo_float hd, roundTo_float hd, flush_of (notTiny_remainder hF hr h1)]

/-- C117, accumulators.  One iteration from the same state, with and without flushing: an accumulator
entry becomes the same if neither the product of the weight and the update nor the sum is subnormal. -/
theorem C117_accumulator_entry (h64 : (F .f64).Valid) {s : ACTStates ℚ} (hwf : s.WF)
    (hF : (F s.probabilities.dtype).Wide) (he2 : s.epsilon ≤ 1 / 2) (hdep : 0 ≤ s.depression_constant)
    {h : Tensor ℚ} (hh : h.dtype = s.probabilities.dtype) {c c' : Controller ℚ}
    (hc : @Controller.iterateAct ℚ (Arith.flushing F) ⟨s⟩ h = .ok c)
    (hc' : @Controller.iterateAct ℚ (Arith.rounded F) ⟨s⟩ h = .ok c')
    {n : String} {k : Nat} {i : List Nat} {a u p x : ℚ}
    (ha : entry? s.accumulators n k i = some a) (hu : entry? s.updates n k i = some u)
    (hta : ∀ t, leaf? s.accumulators n k = some (.tensor t) → t.dtype = s.probabilities.dtype)
    (htu : ∀ t, leaf? s.updates n k = some (.tensor t) → t.dtype = s.probabilities.dtype)
    (hp : s.probabilities.at? (i.take s.probabilities.shape.length) = some p)
    (hx : h.at? (i.take s.probabilities.shape.length) = some x)
    (hr : (F s.probabilities.dtype).Rep p) (ht : (F s.probabilities.dtype).NotTiny p) (h0 : 0 ≤ p)
    (h1 : p ≤ 1)
    (hcalm : let f := F s.probabilities.dtype
      let rnd := f.rnd
      let w := @weight ℚ (Arith.rounded F) s.probabilities.dtype s.epsilon s.depression_constant p x
      f.NotTiny (rnd (rnd s.depression_constant * min 1 (max 0 x))) ∧ f.NotTiny (rnd (w * u)) ∧
      f.NotTiny (rnd (a + rnd (w * u)))) :
    ∃ v, entry? c.accumulators n k i = some v ∧ entry? c'.accumulators n k i = some v := by
  obtain ⟨hx', hm, hs⟩ := hcalm
  obtain ⟨u1, p1, x1, ta, tu, a1, a2, a3, a4, a5, a6⟩ := @IterStep.entry_dtype ℚ (Arith.flushing F) _ _ _ hwf
    (@iterateAct_ok ℚ (Arith.flushing F) _ hwf _ _ hc) _ _ _ _ ha
  obtain ⟨u2, p2, x2, ta2, tu2, b1, b2, b3, b4, b5, b6⟩ := @IterStep.entry_dtype ℚ (Arith.rounded F) _ _ _ hwf
    (@iterateAct_ok ℚ (Arith.rounded F) _ hwf _ _ hc') _ _ _ _ ha
  rw [hu] at a1 b1; rw [hp] at a2 b2; rw [hx] at a3 b3
  cases a1; cases a2; cases a3; cases b1; cases b2; cases b3
  rw [hta _ a4, htu _ a5] at a6
  rw [hta _ b4, htu _ b5] at b6
  refine ⟨_, a6, ?_⟩
  refine b6.trans (congrArg some ?_)
  obtain ⟨e1, e2⟩ := weight_flushing hwf.floating hF h64 he2 hdep hr ht h0 h1 hx'
  have hdd : DType.promote s.probabilities.dtype s.probabilities.dtype = s.probabilities.dtype := by
    cases s.probabilities.dtype <;> rfl
  unfold accStep
  simp only [hdd, convS, if_true, hh]
  rw [e1, e2]
  split
  · rfl
  · show Arith.roundTo F _ (a + Arith.roundTo F _ (_ * u)) = Arith.flushTo F _ (a + Arith.flushTo F _ (_ * u))
    rw [roundTo_float hwf.floating, roundTo_float hwf.floating, flushTo_float hwf.floating,
      flushTo_float hwf.floating, flush_of hm, flush_of hs]

end Same

section Witness
open Fixtures

/-- Two iterations with the halting probability `x`. -/
private def twice (x : ℚ) : List (Op ℚ) := roundOps [sround [x, 1/2] 1 0, sround [x, 1/4] 1 0]

/-- C117, subnormal demands.  The hypothesis of `C117_same_bookkeeping` is needed: in float32 an element
with halting probabilities `2 ^ -127` has the cumulative probability `2 ^ -126` after two iterations, and 0
if subnormal numbers are flushed. -/
theorem C117_subnormal_demands_are_lost :
    simple.WF ∧
    obs (@run ℚ (Arith.flushing DType.fmt) ⟨simple⟩ (twice (2 ^ (-127 : ℤ))))
      (fun c => c.state.probabilities.at? [0]) = some 0 ∧
    obs (@run ℚ (Arith.rounded DType.fmt) ⟨simple⟩ (twice (2 ^ (-127 : ℤ))))
      (fun c => c.state.probabilities.at? [0]) = some (2 ^ (-126 : ℤ)) := by
  refine ⟨simple_wf, ?_, ?_⟩ <;> decide +kernel

/-- C117, the formats.  The smallest normal numbers are those of `jnp.finfo(dtype).tiny`. -/
theorem C117_smallest_normal_numbers :
    (DType.fmt .bf16).minNormal = 1 / 2 ^ 126 ∧ (DType.fmt .f16).minNormal = 1 / 2 ^ 14 ∧
    (DType.fmt .f32).minNormal = 1 / 2 ^ 126 ∧ (DType.fmt .f64).minNormal = 1 / 2 ^ 1022 := by
  refine ⟨?_, ?_, ?_, ?_⟩ <;> decide +kernel

/-- The formats of the dtypes are wide enough. -/
theorem fmt_wide : ∀ d : DType, d.isFloating = true → d.fmt.Wide := by
  intro d hd
  cases d
  · cases hd
  · cases hd
  all_goals decide

/-- Not vacuous: a history with two iterations, one of them halting the second element. -/
example :
    (∃ c c', @run ℚ (Arith.flushing DType.fmt) ⟨simple⟩ (twice (3/8)) = .ok c ∧
      @run ℚ (Arith.rounded DType.fmt) ⟨simple⟩ (twice (3/8)) = .ok c' ∧
      c.probabilities = c'.probabilities) ∧
    obs (@run ℚ (Arith.rounded DType.fmt) ⟨simple⟩ (twice (3/8)))
      (fun c => c.state.probabilities.at? [0]) = some (3/4) := by
  refine ⟨?_, by decide +kernel⟩
  have hz : ∀ b p, simple.probabilities.at? b = some p → p = 0 := fun b p h => by
    rcases vec_two (x := 0) (y := 0) h with ⟨-, h⟩ | ⟨-, h⟩ <;> exact h
  have hy : ∀ b p, simple.residuals.at? b = some p → p = 0 := fun b p h => by
    rcases vec_two (x := 0) (y := 0) h with ⟨-, h⟩ | ⟨-, h⟩ <;> exact h
  have hw : ∀ b p, simple.iterations.at? b = some p → p = 0 := fun b p h => by
    rcases vec_two (x := 0) (y := 0) h with ⟨-, h⟩ | ⟨-, h⟩ <;> exact h
  have hops : ∀ h, .iterate h ∈ twice (3/8) → h.dtype = simple.probabilities.dtype ∧ ∀ b x,
      h.at? b = some x → (DType.fmt simple.probabilities.dtype).NotTiny
        ((DType.fmt simple.probabilities.dtype).rnd ((DType.fmt simple.probabilities.dtype).rnd
          simple.depression_constant * min 1 (max 0 x))) := by
    intro h hm
    have : h = vec [3/8, 1/2] ∨ h = vec [3/8, 1/4] := by
      simpa [twice, roundOps, Round.ops, sround] using hm
    rcases this with rfl | rfl
    · refine ⟨rfl, fun b x hx => ?_⟩
      rcases vec_two hx with ⟨-, rfl⟩ | ⟨-, rfl⟩ <;> decide +kernel
    · refine ⟨rfl, fun b x hx => ?_⟩
      rcases vec_two hx with ⟨-, rfl⟩ | ⟨-, rfl⟩ <;> decide +kernel
  rcases C117_same_bookkeeping (F := DType.fmt) (by decide) simple_wf
    (fun _ => ⟨by decide, fun b n h => .inl (hw b n h)⟩) (fmt_wide _ rfl) (by decide +kernel)
    (by decide +kernel) (by decide +kernel)
    (fun b p h => by rw [hz b p h]; exact ⟨le_rfl, zero_le_one, rnd_zero _, notTiny_zero _⟩)
    (fun b p h => by rw [hy b p h]; exact ⟨rnd_zero _, notTiny_zero _⟩)
    (ops := twice (3/8)) hops with ⟨e, h1, h2⟩ | ⟨c, c', h1, h2, h3, -⟩
  · exact absurd h2 (by
      have : succeeds (@run ℚ (Arith.rounded DType.fmt) ⟨simple⟩ (twice (3/8))) = true := by decide +kernel
      intro h; rw [h] at this; cases this)
  · exact ⟨c, c', h1, h2, h3⟩

/-- Updates of 1 and 0 are pending. -/
private def pending : ACTStates ℚ := { simple with updates := [("out", bare (col 1 0))] }

/-- Not vacuous: the entry of the first element. -/
example {c c' : Controller ℚ}
    (hc : @Controller.iterateAct ℚ (Arith.flushing DType.fmt) ⟨pending⟩ (vec [3/8, 1/2]) = .ok c)
    (hc' : @Controller.iterateAct ℚ (Arith.rounded DType.fmt) ⟨pending⟩ (vec [3/8, 1/2]) = .ok c') :
    ∃ v, entry? c.accumulators "out" 0 [0, 0] = some v ∧ entry? c'.accumulators "out" 0 [0, 0] = some v := by
  refine C117_accumulator_entry (F := DType.fmt) (s := pending) (h := vec [3/8, 1/2]) (by decide)
    { simple_wf with upd_keys := by unfold Dict.WF; decide, upd_iff := fun _ => Iff.rfl } (fmt_wide _ rfl)
    (by decide +kernel) (by decide +kernel) rfl hc hc' (a := 0) (u := 1) (p := 0) (x := 3/8)
    (by decide +kernel) (by decide +kernel) (fun t ht => ?_) (fun t ht => ?_)
    (by decide +kernel) (by decide +kernel) (rnd_zero _) (notTiny_zero _) le_rfl zero_le_one
    (by decide +kernel)
  · have h : some (Leaf.tensor (col 0 0)) = some (Leaf.tensor t) := ht
    rw [← Leaf.tensor.inj (Option.some.inj h)]; rfl
  · have h : some (Leaf.tensor (col 1 0)) = some (Leaf.tensor t) := ht
    rw [← Leaf.tensor.inj (Option.some.inj h)]; rfl

example : obs (@Controller.iterateAct ℚ (Arith.flushing DType.fmt) ⟨pending⟩ (vec [3/8, 1/2]))
      (fun c => entry? c.state.accumulators "out" 0 [0, 0]) = some (3/8) ∧
    succeeds (@Controller.iterateAct ℚ (Arith.rounded DType.fmt) ⟨pending⟩ (vec [3/8, 1/2])) = true := by
  refine ⟨?_, ?_⟩ <;> decide +kernel

end Witness
end JaxAct
