import Verif.Lemmas.Agree
import Verif.Props.C17
import Verif.Props.C61
import Verif.Props.C66
import Verif.Props.C80
import Verif.Props.C93

/-! # C105 Iterations with halting probability or depression constant zero do nothing but count -/

namespace JaxAct
open PyTree ACTStates

section
variable {α : Type} [Arith α]

/-- What the arithmetics used here have in common: zero behaves like zero for the numbers that a dtype
can represent. -/
structure NeutralZero (rep : DType → α → Prop) : Prop where
  add_zero : ∀ {d x}, rep d x → Arith.add d x Arith.zero = x
  zero_add : ∀ {d x}, rep d x → Arith.add d Arith.zero x = x
  zero_mul : ∀ (d : DType) (x : α), Arith.mul d Arith.zero x = Arith.zero
  mul_zero : ∀ (d : DType) (x : α), Arith.mul d x Arith.zero = Arith.zero
  cast_zero : ∀ d : DType, Arith.cast d (Arith.zero : α) = Arith.zero

namespace NeutralZero
variable {rep : DType → α → Prop} (L : NeutralZero rep)
include L

theorem conv_zero (d e : DType) : convS d e (Arith.zero : α) = Arith.zero := by
  unfold convS
  split
  · rfl
  · exact L.cast_zero e

theorem crosses {d : DType} {eps dep p h : α} (hp : rep d p) (hd : Spec.demand d dep h = Arith.zero) :
    Spec.crosses d eps dep p h = Spec.isHalted d eps p := by
  unfold Spec.crosses Spec.isHalted
  rw [hd, L.zero_add hp]

theorem weight {d : DType} {eps dep p h : α} (hp : rep d p) (hd : Spec.demand d dep h = Arith.zero)
    (hh : Spec.isHalted d eps p = false) : Spec.weight d eps dep p h = Arith.zero := by
  unfold Spec.weight
  rw [L.crosses hp hd, hh, hd]
  rfl

theorem step {d dI : DType} {eps dep h : α} {c : Spec.Cell α} (hp : rep d c.prob)
    (hd : Spec.demand d dep h = Arith.zero) (hh : Spec.isHalted d eps c.prob = false) :
    Spec.step d dI eps dep c h = ⟨c.prob, c.resid, Arith.add dI c.iter Arith.one⟩ := by
  unfold Spec.step
  rw [L.weight hp hd hh, L.crosses hp hd, hh, L.add_zero hp]
  rfl

theorem accStep {d dA dU : DType} {eps dep p h a u : α} (hp : rep d p) (ha : rep dA a)
    (hd : Spec.demand d dep h = Arith.zero) : Spec.accStep d dA dU eps dep p h a u = a := by
  unfold Spec.accStep
  split
  · rfl
  · rename_i hh
    rw [L.weight hp hd (Bool.eq_false_iff.2 hh)]
    simp only [L.conv_zero, L.zero_mul, L.add_zero ha]

end NeutralZero

/-- The halting probabilities of the element `b` ask for nothing. -/
def Silent (b : List Nat) (s : ACTStates α) (ops : List (Op α)) : Prop :=
  ∀ h, Op.iterate h ∈ ops → ∀ x, h.at? b = some x →
    Spec.demand s.probabilities.dtype s.depression_constant (convS h.dtype s.probabilities.dtype x) =
      Arith.zero

/-- The counter after `n` increments. -/
def counted (d : DType) (x : α) : Nat → α
  | 0 => x
  | n + 1 => counted d (Arith.add d x Arith.one) n

/-- Calls that are silent for an active element leave all of it but the counter as it is. -/
theorem silent_run {rep : DType → α → Prop} (L : NeutralZero rep) {b : List Nat} :
    ∀ {ops : List (Op α)} {s : ACTStates α} {c : Controller α}, s.WF → (∀ op ∈ ops, op.NotReset) →
    Silent b s ops → run ⟨s⟩ ops = .ok c → ∀ {p r n : α}, s.probabilities.at? b = some p →
    s.residuals.at? b = some r → s.iterations.at? b = some n → rep s.probabilities.dtype p →
    Spec.isHalted s.probabilities.dtype s.epsilon p = false →
    c.probabilities.at? b = some p ∧ c.residuals.at? b = some r ∧
    c.iterations.at? b = some (counted s.iterations.dtype n (countIterates ops)) ∧
    c.haltedBatches.at? b = some false ∧
    ∀ (name : String) (k : Nat) (ta : Tensor α) (i : List Nat) (a : α),
      leaf? s.accumulators name k = some (.tensor ta) → ta.at? i = some a → rep ta.dtype a →
      i.take s.probabilities.shape.length = b → entry? c.accumulators name k i = some a
  | [], s, c, hwf, _, _, h, p, r, n, hp, hr, hn, hrep, hh => by
    cases h
    exact ⟨hp, hr, hn, (halted_iff hwf.floating).2 ⟨p, hp, hh⟩,
      fun name k ta i a h1 h2 _ _ => entry?_eq_some.2 ⟨_, h1, h2⟩⟩
  | op :: ops, s, c, hwf, hnr, hs, h, p, r, n, hp, hr, hn, hrep, hh => by
    simp only [run, bind_ok] at h
    obtain ⟨⟨s1⟩, e1, e2⟩ := h
    have hnr' : ∀ op ∈ ops, op.NotReset := fun o ho => hnr o (by simp [ho])
    cases op with
    | reset => exact (hnr .reset (by simp)).elim
    | cache m x =>
      have k := Controller.cacheUpdate_ok_iff.1 e1
      have w := Controller.CacheStep.wf hwf k
      obtain ⟨-, q⟩ := k
      simp only at q
      subst q
      exact silent_run L w hnr' (fun h hm => hs h (by simp [hm])) e2 hp hr hn hrep hh
    | iterate h =>
      have st := Controller.iterateAct_ok hwf e1
      have w := Controller.IterStep.wf hwf st
      obtain ⟨r', n', x, hr', hn', hx, c1, c2, c3⟩ := st.cellAt hwf hp
      rw [hr] at hr'
      rw [hn] at hn'
      cases hr'
      cases hn'
      have hd := hs h (by simp) x hx
      rw [L.step (c := ⟨p, r, n⟩) hrep hd hh] at c1 c2 c3
      simp only at st w c1 c2 c3
      have ih := silent_run L w hnr' (fun g hm y hy => by
        rw [st.pdtype, st.depression]; exact hs g (by simp [hm]) y hy) e2 c1 c2 c3
        (by rw [st.pdtype]; exact hrep) (by rw [st.pdtype, st.epsilon]; exact hh)
      refine ⟨ih.1, ih.2.1, by rw [ih.2.2.1, st.idtype]; rfl, ih.2.2.2.1, ?_⟩
      intro name k ta i a h1 h2 h3 h4
      rcases st.leaf (n := name) (k := k) with ⟨g, -⟩ | ⟨ta1, tu, ta', g1, g2, g3, g4⟩
      · rw [h1] at g; cases g
      · rw [h1] at g1
        cases g1
        obtain ⟨u, hu⟩ := Controller.at?_some_of_shape (b := tu) g4.ushape h2
        have := g4.entry i a u p x h2 hu (h4 ▸ hp) (h4 ▸ hx)
        rw [L.accStep hrep h3 hd] at this
        exact ih.2.2.2.2 name k ta' i a g3 this (by rw [g4.dtype]; exact h3)
          (by rw [st.pshape]; exact h4)

omit [Arith α] in
theorem countIterates_append (ops ops' : List (Op α)) :
    countIterates (ops ++ ops') = countIterates ops + countIterates ops' := by
  induction ops with
  | nil => simp [countIterates]
  | cons op ops ih =>
    cases op <;> simp only [List.cons_append, countIterates, ih]
    omega

omit [Arith α] in
theorem countIterates_round (r : Round α) : countIterates r.ops = 1 := by
  unfold Round.ops
  rw [countIterates_append]
  have : ∀ us : List (String × PyTree (Leaf α)),
      countIterates (us.map fun nu => Op.cache nu.1 nu.2) = 0 := by
    intro us
    induction us with
    | nil => rfl
    | cons u us ih => simpa [countIterates] using ih
  rw [this]
  rfl

omit [Arith α] in
theorem countIterates_loop (rounds : PyTree (Leaf α) → Round α)
    (next : PyTree (Leaf α) → PyTree (Leaf α)) (s0 : PyTree (Leaf α)) (k : Nat) :
    countIterates (loopCalls (fun s => (rounds s).ops) next s0 k) = k := by
  induction k with
  | zero => rfl
  | succ k ih =>
    unfold loopCalls at ih ⊢
    rw [List.range_succ, List.flatMap_append, countIterates_append, ih, List.flatMap_singleton,
      countIterates_round]

/-- The entries of one element after silent calls. -/
theorem silent_entries {rep : DType → α → Prop} (L : NeutralZero rep) {ops : List (Op α)}
    {s : ACTStates α} {c : Controller α} (hwf : s.WF) (hnr : ∀ op ∈ ops, op.NotReset) {b : List Nat}
    (hs : Silent b s ops) (h : run ⟨s⟩ ops = .ok c)
    (hb : (Controller.haltedBatches ⟨s⟩).at? b = some false)
    (hrep : ∀ p, s.probabilities.at? b = some p → rep s.probabilities.dtype p)
    (hacc : ∀ name k ta i a, leaf? s.accumulators name k = some (.tensor ta) →
      ta.at? (b ++ i) = some a → rep ta.dtype a) :
    c.probabilities.at? b = s.probabilities.at? b ∧ c.residuals.at? b = s.residuals.at? b ∧
    c.haltedBatches.at? b = some false ∧
    (∀ n, s.iterations.at? b = some n →
      c.iterations.at? b = some (counted s.iterations.dtype n (countIterates ops))) ∧
    ∀ (name : String) (k : Nat) (i : List Nat),
      entry? c.accumulators name k (b ++ i) = entry? s.accumulators name k (b ++ i) := by
  obtain ⟨p, hp, hh⟩ := (halted_iff hwf.floating).1 hb
  obtain ⟨r, n, hr, hn⟩ := hwf.cell hp
  obtain ⟨h1, h2, h3, h4, h5⟩ := silent_run L hwf hnr hs h hp hr hn (hrep p hp) hh
  refine ⟨h1.trans hp.symm, h2.trans hr.symm, h4, fun m hm => ?_, fun name k i => ?_⟩
  · rw [hn] at hm
    cases hm
    exact h3
  · have hlen : (b ++ i).take s.probabilities.shape.length = b := by
      rw [← length_of_at? hp, List.take_left]
    cases he : entry? s.accumulators name k (b ++ i) with
    | some a =>
      obtain ⟨l, g1, g2⟩ := entry?_eq_some.1 he
      obtain ⟨t, rfl, -, -⟩ := hwf.leaf_tensor g1
      exact h5 name k t _ a g1 g2 (hacc name k t i a g1 g2) hlen
    | none =>
      refine (run_induction_noReset (Inv := fun t => entry? t.accumulators name k (b ++ i) = Option.none)
        ?_ ?_ ops hnr hwf he h).2
      · rintro t n x t' - ⟨-, rfl⟩ hi
        exact hi
      · rintro t g t' - st hi
        exact st.entry_none hi

/-- A loop with a depression constant of zero. -/
theorem silent_loop {rep : DType → α → Prop} (L : NeutralZero rep)
    {make : PyTree (Leaf α) → α → Res (Made α)} {rounds : PyTree (Leaf α) → Round α}
    {next : PyTree (Leaf α) → PyTree (Leaf α)} {s0 : PyTree (Leaf α)} {dep : α} {max : Int}
    {check : Bool} {c0 : Controller α} (hmake : make s0 dep = .ok (.ctrl c0)) (hwf : c0.state.WF)
    (hd : c0.state.DictsWF) (hops : ∀ t, ∀ nu ∈ (rounds (loopStates next s0 t)).updates, nu.2.WF)
    {c : Controller α} {s : PyTree (Leaf α)}
    (hr : (callLayer make (fun s => (rounds s).ops) next).ExecuteAct s0 dep max check (.ok (c, s)))
    (hs : ∀ b k, Silent b c0.state (loopCalls (fun s => (rounds s).ops) next s0 k))
    (hb : ∃ b, c0.haltedBatches.at? b = some false)
    (hrep : ∀ b p, c0.probabilities.at? b = some p → rep c0.probabilities.dtype p)
    (hacc : ∀ name k ta i a, leaf? c0.accumulators name k = some (.tensor ta) →
      ta.at? i = some a → rep ta.dtype a) :
    s = loopStates next s0 max.toNat ∧ ∀ b, c0.haltedBatches.at? b = some false →
      c.probabilities.at? b = c0.probabilities.at? b ∧ c.residuals.at? b = c0.residuals.at? b ∧
      c.haltedBatches.at? b = some false ∧
      (∀ n, c0.iterations.at? b = some n →
        c.iterations.at? b = some (counted c0.iterations.dtype n max.toNat)) ∧
      ∀ (name : String) (k : Nat) (i : List Nat),
        entry? c.accumulators name k (b ++ i) = entry? c0.accumulators name k (b ++ i) := by
  have hnr : ∀ k, ∀ op ∈ loopCalls (fun s => (rounds s).ops) next s0 k, op.NotReset := by
    intro k op ho
    obtain ⟨t, -, ho⟩ := List.mem_flatMap.1 ho
    unfold Round.ops at ho
    rcases List.mem_append.1 ho with ho | ho
    · obtain ⟨nu, -, rfl⟩ := List.mem_map.1 ho
      trivial
    · rw [List.mem_singleton.1 ho]
      trivial
  have hops' : ∀ t, ∀ op ∈ (rounds (loopStates next s0 t)).ops, op.DictsWF := by
    intro t op ho
    unfold Round.ops at ho
    rcases List.mem_append.1 ho with ho | ho
    · obtain ⟨nu, hnu, rfl⟩ := List.mem_map.1 ho
      exact hops t nu hnu
    · rw [List.mem_singleton.1 ho]
      trivial
  obtain ⟨k, h1, h2, -, wd, ⟨c', h3, h4⟩, h5, -⟩ :=
    C61_loop_is_history make (fun s => (rounds s).ops) next s0 dep max check hmake hwf hd hops' hr
  have all := fun b hb => silent_entries (s := c0.state) L hwf (hnr k) (hs b k) h3 (b := b) hb
    (hrep b) (fun name j ta i a => hacc name j ta (b ++ i) a)
  have hk : k = max.toNat := by
    rcases h5 with h5 | h5
    · obtain ⟨b, hb⟩ := hb
      have := (allHalted_same h4).1 h5 b false (all b hb).2.2.1
      cases this
    · omega
  subst hk
  refine ⟨h2, fun b hb => ?_⟩
  obtain ⟨a1, a2, a3, a4, a5⟩ := all b hb
  refine ⟨?_, ?_, ?_, ?_, fun name j i => ?_⟩
  · unfold Controller.probabilities at a1 ⊢
    rw [h4.probabilities]; exact a1
  · unfold Controller.residuals at a2 ⊢
    rw [h4.residuals]; exact a2
  · unfold Controller.haltedBatches Controller.haltThreshold Controller.probabilities at a3 ⊢
    rw [h4.probabilities, h4.epsilon]; exact a3
  · intro n hn
    have := a4 n hn
    rw [countIterates_loop] at this
    unfold Controller.iterations at this ⊢
    rw [h4.iterations]; exact this
  · refine Eq.trans ?_ (a5 name j i)
    exact entry?_same wd.accumulators (run_dictsWF (s := c0.state) hwf hd (fun op ho => by
      obtain ⟨j, -, hj⟩ := List.mem_flatMap.1 ho
      exact hops' j op hj) h3).accumulators h4.accumulators name j _

section Exact
variable {K : Type} [Field K] [LinearOrder K] [IsStrictOrderedRing K]
attribute [local instance] Arith.exact

omit [IsStrictOrderedRing K] in
theorem NeutralZero.exact : NeutralZero (α := K) fun _ _ => True where
  add_zero _ := _root_.add_zero _
  zero_add _ := _root_.zero_add _
  zero_mul _ := MulZeroClass.zero_mul
  mul_zero _ := MulZeroClass.mul_zero
  cast_zero _ := rfl

omit [IsStrictOrderedRing K] in
theorem counted_exact (d : DType) (x : K) (n : Nat) : counted d x n = x + n := by
  induction n generalizing x with
  | zero => simp [counted]
  | succ n ih =>
    rw [counted, ih]
    show x + 1 + (n : K) = _
    push_cast
    ring

theorem Silent.exact {b : List Nat} {s : ACTStates K} {ops : List (Op K)}
    (h : s.depression_constant = 0 ∨ ∀ h, Op.iterate h ∈ ops → ∀ x, h.at? b = some x → x ≤ 0) :
    Silent b s ops := by
  intro g hm x hx
  show s.depression_constant * Spec.clamp (convS g.dtype s.probabilities.dtype x) = 0
  rcases h with h | h
  · rw [h, zero_mul]
  · rw [Spec.convS_exact, Spec.clamp_eq, sup_eq_left.2 (h g hm x hx), inf_eq_right.2 zero_le_one,
      mul_zero]

/-- C105.  Calls of `cache_update` and `iterate_act` in which the halting probabilities of an element that
is not halted are zero (or negative), or any calls if the depression constant is zero: the cumulative
probability, the residual and all accumulator entries of the element are what they were, it is not
halted, and its counter has counted the iterations. -/
theorem C105_silent {s : ACTStates K} (hwf : s.WF) {ops : List (Op K)}
    (hnr : ∀ op ∈ ops, op.NotReset) {b : List Nat}
    (hs : s.depression_constant = 0 ∨ ∀ h, Op.iterate h ∈ ops → ∀ x, h.at? b = some x → x ≤ 0)
    {c : Controller K} (h : run ⟨s⟩ ops = .ok c)
    (hb : (Controller.haltedBatches ⟨s⟩).at? b = some false) :
    c.probabilities.at? b = s.probabilities.at? b ∧ c.residuals.at? b = s.residuals.at? b ∧
    c.haltedBatches.at? b = some false ∧
    (∀ n, s.iterations.at? b = some n → c.iterations.at? b = some (n + countIterates ops)) ∧
    ∀ (name : String) (k : Nat) (i : List Nat),
      entry? c.accumulators name k (b ++ i) = entry? s.accumulators name k (b ++ i) := by
  have := silent_entries .exact hwf hnr (.exact hs) h hb (fun _ _ => trivial)
    (fun _ _ _ _ _ _ _ => trivial)
  simpa only [counted_exact] using this

/-- C105 for `execute_act`.  With a depression constant of zero, which the notes on probability depression
propose to begin with, a layer that caches and iterates makes `max_iterations` iterations if there is an
element that is not halted from the start; the accumulators, residuals and cumulative probabilities of all
such elements are returned as they were. -/
theorem C105_execute_act (make : PyTree (Leaf K) → K → Res (Made K))
    (rounds : PyTree (Leaf K) → Round K) (next : PyTree (Leaf K) → PyTree (Leaf K))
    (s0 : PyTree (Leaf K)) (dep : K) (max : Int) (check : Bool) {c0 : Controller K}
    (hmake : make s0 dep = .ok (.ctrl c0)) (hwf : c0.state.WF) (hd : c0.state.DictsWF)
    (hops : ∀ t, ∀ nu ∈ (rounds (loopStates next s0 t)).updates, nu.2.WF)
    (hdep : c0.state.depression_constant = 0) (hb : ∃ b, c0.haltedBatches.at? b = some false)
    {c : Controller K} {s : PyTree (Leaf K)}
    (hr : (callLayer make (fun s => (rounds s).ops) next).ExecuteAct s0 dep max check (.ok (c, s))) :
    s = loopStates next s0 max.toNat ∧ ∀ b, c0.haltedBatches.at? b = some false →
      c.probabilities.at? b = c0.probabilities.at? b ∧ c.residuals.at? b = c0.residuals.at? b ∧
      c.haltedBatches.at? b = some false ∧
      (∀ n, c0.iterations.at? b = some n → c.iterations.at? b = some (n + max.toNat)) ∧
      ∀ (name : String) (k : Nat) (i : List Nat),
        entry? c.accumulators name k (b ++ i) = entry? c0.accumulators name k (b ++ i) := by
  have := silent_loop .exact hmake hwf hd hops hr (fun _ _ => .exact (.inl hdep)) hb
    (fun _ _ _ => trivial) (fun _ _ _ _ _ _ _ => trivial)
  simpa only [counted_exact] using this

end Exact

end

section Rounded
variable {F : DType → Fmt} [A : Arith ℚ]
open Arith

omit A in
theorem roundTo_zero (d : DType) : roundTo F d 0 = 0 := by
  unfold roundTo
  split
  · exact Fmt.rnd_zero _
  · rfl

theorem NeutralZero.rounded (hA : A = Arith.rounded F) :
    NeutralZero (α := ℚ) fun d x => roundTo F d x = x := by
  have h0 : (Arith.zero : ℚ) = 0 := by subst hA; rfl
  have ha : ∀ d (x y : ℚ), Arith.add d x y = roundTo F d (x + y) := by subst hA; intros; rfl
  have hm : ∀ d (x y : ℚ), Arith.mul d x y = roundTo F d (x * y) := by subst hA; intros; rfl
  have hc : ∀ d (x : ℚ), Arith.cast d x = roundTo F d x := by subst hA; intros; rfl
  refine ⟨fun h => ?_, fun h => ?_, fun d x => ?_, fun d x => ?_, fun d => ?_⟩
  · rw [ha, h0, _root_.add_zero, h]
  · rw [ha, h0, _root_.zero_add, h]
  · rw [hm, h0, MulZeroClass.zero_mul, roundTo_zero]
  · rw [hm, h0, MulZeroClass.mul_zero, roundTo_zero]
  · rw [hc, h0, roundTo_zero]

theorem Silent.rounded (hA : A = Arith.rounded F) {b : List Nat} {s : ACTStates ℚ} {ops : List (Op ℚ)}
    (h : s.depression_constant = 0 ∨ ∀ h, Op.iterate h ∈ ops → ∀ x, h.at? b = some x → x ≤ 0) :
    Silent b s ops := by
  intro g hm x hx
  have L := NeutralZero.rounded hA
  unfold Spec.demand
  rcases h with h | h
  · have : s.depression_constant = Arith.zero := by subst hA; exact h
    rw [this, L.cast_zero, L.zero_mul]
  · have : Spec.clamp (convS g.dtype s.probabilities.dtype x) = Arith.zero := by
      have hx0 := h g hm x hx
      have hc : convS g.dtype s.probabilities.dtype x ≤ 0 := by
        subst hA
        unfold convS
        split
        · exact hx0
        · show roundTo F _ x ≤ 0
          unfold roundTo
          split
          · exact Fmt.rnd_nonpos hx0
          · exact hx0
      rw [Spec.clamp_rounded hA, sup_eq_left.2 hc, inf_eq_right.2 zero_le_one]
      subst hA
      rfl
    rw [this, L.mul_zero]

/-- C105 with rounding, in any formats: the same if the cumulative probability and the accumulator entries of
the element are numbers of their dtypes.  The counter is `counted`, the repeated addition of one in its
dtype. -/
theorem C105_silent_rounded (hA : A = Arith.rounded F) {s : ACTStates ℚ} (hwf : s.WF) {ops : List (Op ℚ)}
    (hnr : ∀ op ∈ ops, op.NotReset) {b : List Nat}
    (hs : s.depression_constant = 0 ∨ ∀ h, Op.iterate h ∈ ops → ∀ x, h.at? b = some x → x ≤ 0)
    {c : Controller ℚ} (h : run ⟨s⟩ ops = .ok c)
    (hb : (Controller.haltedBatches ⟨s⟩).at? b = some false)
    (hp : ∀ p, s.probabilities.at? b = some p → (F s.probabilities.dtype).rnd p = p)
    (hacc : ∀ name k ta i a, leaf? s.accumulators name k = some (.tensor ta) →
      ta.at? (b ++ i) = some a → (F ta.dtype).rnd a = a) :
    c.probabilities.at? b = s.probabilities.at? b ∧ c.residuals.at? b = s.residuals.at? b ∧
    c.haltedBatches.at? b = some false ∧
    (∀ n, s.iterations.at? b = some n →
      c.iterations.at? b = some (counted s.iterations.dtype n (countIterates ops))) ∧
    ∀ (name : String) (k : Nat) (i : List Nat),
      entry? c.accumulators name k (b ++ i) = entry? s.accumulators name k (b ++ i) := by
  refine silent_entries (.rounded hA) hwf hnr (.rounded hA hs) h hb (fun p hp' => ?_)
    (fun name k ta i a h1 h2 => ?_)
  · rw [Spec.roundTo_float hwf.floating]; exact hp p hp'
  · obtain ⟨t, e, ht, -⟩ := hwf.leaf_tensor h1
    cases e
    rw [Spec.roundTo_float ht]; exact hacc name k ta i a h1 h2

/-- C105 for `execute_act` with rounding. -/
theorem C105_execute_act_rounded (hA : A = Arith.rounded F) (make : PyTree (Leaf ℚ) → ℚ → Res (Made ℚ))
    (rounds : PyTree (Leaf ℚ) → Round ℚ) (next : PyTree (Leaf ℚ) → PyTree (Leaf ℚ))
    (s0 : PyTree (Leaf ℚ)) (dep : ℚ) (max : Int) (check : Bool) {c0 : Controller ℚ}
    (hmake : make s0 dep = .ok (.ctrl c0)) (hwf : c0.state.WF) (hd : c0.state.DictsWF)
    (hops : ∀ t, ∀ nu ∈ (rounds (loopStates next s0 t)).updates, nu.2.WF)
    (hdep : c0.state.depression_constant = 0) (hb : ∃ b, c0.haltedBatches.at? b = some false)
    (hp : ∀ b p, c0.probabilities.at? b = some p → (F c0.probabilities.dtype).rnd p = p)
    (hacc : ∀ name k ta i a, leaf? c0.accumulators name k = some (.tensor ta) →
      ta.at? i = some a → (F ta.dtype).rnd a = a)
    {c : Controller ℚ} {s : PyTree (Leaf ℚ)}
    (hr : (callLayer make (fun s => (rounds s).ops) next).ExecuteAct s0 dep max check (.ok (c, s))) :
    s = loopStates next s0 max.toNat ∧ ∀ b, c0.haltedBatches.at? b = some false →
      c.probabilities.at? b = c0.probabilities.at? b ∧ c.residuals.at? b = c0.residuals.at? b ∧
      c.haltedBatches.at? b = some false ∧
      (∀ n, c0.iterations.at? b = some n →
        c.iterations.at? b = some (counted c0.iterations.dtype n max.toNat)) ∧
      ∀ (name : String) (k : Nat) (i : List Nat),
        entry? c.accumulators name k (b ++ i) = entry? c0.accumulators name k (b ++ i) := by
  refine silent_loop (.rounded hA) hmake hwf hd hops hr (fun _ _ => .rounded hA (.inl hdep)) hb
    (fun b p hp' => ?_) (fun name k ta i a h1 h2 => ?_)
  · exact (Spec.roundTo_float hwf.floating p).trans (hp b p hp')
  · obtain ⟨t, e, ht, -⟩ := hwf.leaf_tensor h1
    cases e
    rw [Spec.roundTo_float ht]; exact hacc name k ta i a h1 h2

end Rounded

section Example
open Fixtures

/-- The controller of the fixtures with a depression constant of zero. -/
def stuck : ACTStates ℚ := { simple with depression_constant := 0 }

theorem stuck_wf : stuck.WF := { simple_wf with }

/-- The layer of C80 with it. -/
def stuckLayer [Arith ℚ] : Layer ℚ :=
  callLayer (fun _ _ => .ok (.ctrl ⟨stuck⟩)) (fun s => (demoRound s).ops) grow

theorem stuck_executes [Arith ℚ] {x y : ℚ} (max : Int) (check : Bool)
    (hok : succeeds (run ⟨stuck⟩ (demoRound (bare (vec [x, y]))).ops) = true) :
    ∃ c s, stuckLayer.ExecuteAct (bare (vec [x, y])) 1 max check (.ok (c, s)) := by
  cases hr : run ⟨stuck⟩ (demoRound (bare (vec [x, y]))).ops with
  | error e => rw [hr] at hok; cases hok
  | ok c1 =>
    exact C50_execute_act_succeeds _ demoRound grow check ⟨stuck⟩ c1 _ 1 max rfl stuck_wf rfl
      (by simp [stuck, simple]) simple_idle (vec_tensors _) (grow_typed x y) hr

section
attribute [local instance] Arith.exact

/-- Twenty iterations for nothing, although the halting probabilities are one half and more. -/
example : ∃ c s, stuckLayer.ExecuteAct (bare (vec [1/2, 3/4])) 1 20 true (.ok (c, s)) ∧
    s = loopStates grow (bare (vec [1/2, 3/4])) 20 ∧ c.probabilities.at? [1] = some 0 ∧
    c.iterations.at? [1] = some 20 ∧ entry? c.accumulators "out" 0 [1, 0] = some 0 := by
  obtain ⟨c, s, h⟩ := stuck_executes (x := 1/2) (y := 3/4) 20 true (by decide +kernel)
  obtain ⟨h1, h2⟩ := C105_execute_act (c0 := ⟨stuck⟩) _ demoRound grow _ 1 20 true rfl stuck_wf
    { simple_dictsWF with } (fun t nu hnu => (grow_ops _ _ t (.cache nu.1 nu.2) (by
      unfold Round.ops
      exact List.mem_append_left _ (List.mem_map.2 ⟨nu, hnu, rfl⟩))).1) rfl ⟨[1], by decide +kernel⟩ h
  obtain ⟨a1, -, -, a4, a5⟩ := h2 [1] (by decide +kernel)
  refine ⟨c, s, h, h1, a1.trans (by decide +kernel), ?_, (a5 "out" 0 [0]).trans (by decide +kernel)⟩
  have := a4 0 (by decide +kernel)
  norm_num at this
  exact this

/-- A silent round of one element in between: only its counter changes. -/
example :
    let ops := (round [1/2, -1] 4 6).ops
    obs (run ⟨fresh⟩ ops) (fun c => some (c.probabilities.at? [1], c.iterations.at? [1],
      entry? c.accumulators "out" 0 [1, 0])) = some (some 0, some 1, entry? fresh.accumulators "out" 0 [1, 0]) ∧
    (Controller.haltedBatches ⟨fresh⟩).at? [1] = some false := by decide +kernel

end

section
attribute [local instance] ieee

/-- The same in IEEE arithmetic. -/
example : ∃ c s, stuckLayer.ExecuteAct (bare (vec [1/2, 3/4])) 1 20 true (.ok (c, s)) ∧
    s = loopStates grow (bare (vec [1/2, 3/4])) 20 ∧ c.probabilities.at? [1] = some 0 ∧
    c.iterations.at? [1] = some 20 ∧ entry? c.accumulators "out" 0 [1, 0] = some 0 := by
  obtain ⟨c, s, h⟩ := stuck_executes (x := 1/2) (y := 3/4) 20 true (by decide +kernel)
  obtain ⟨h1, h2⟩ := C105_execute_act_rounded (F := DType.fmt) rfl (c0 := ⟨stuck⟩) _ demoRound grow _ 1 20
    true rfl stuck_wf { simple_dictsWF with } (fun t nu hnu => (grow_ops _ _ t (.cache nu.1 nu.2) (by
      unfold Round.ops
      exact List.mem_append_left _ (List.mem_map.2 ⟨nu, hnu, rfl⟩))).1) rfl ⟨[1], by decide +kernel⟩
    (fun b p hb => by rcases vec_two hb with ⟨-, rfl⟩ | ⟨-, rfl⟩ <;> exact Fmt.rnd_zero _)
    (fun name k ta i a hl ha => by
      have : a = 0 := by
        obtain ⟨u, e1, e2⟩ := leaf?_eq_some.1 hl
        obtain ⟨-, rfl⟩ := get?_one e1
        simp only [bare, treeLeaves, PyTree.canon, leaves] at e2
        obtain ⟨_, e3⟩ := List.getElem?_eq_some_iff.1 e2
        simp only [List.getElem_singleton, Leaf.tensor.injEq] at e3
        subst e3
        obtain ⟨hi, rfl⟩ := Arr.at?_eq_some.1 ha
        simp [col]
      rw [this]
      exact Fmt.rnd_zero _) h
  obtain ⟨a1, -, -, a4, a5⟩ := h2 [1] (by decide +kernel)
  exact ⟨c, s, h, h1, a1.trans (by decide +kernel), (a4 0 (by decide +kernel)).trans (by decide +kernel),
    (a5 "out" 0 [0]).trans (by decide +kernel)⟩

end
end Example

end JaxAct
