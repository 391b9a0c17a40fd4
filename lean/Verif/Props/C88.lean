import Verif.Props.C77
import Verif.Props.C79
import Verif.Props.C80
import Verif.Props.C82

/-!
# C88 Gradients do not leak between batch elements, nor out of the iterations after halting

Both claims hold at every point, also at the ones where C77 says nothing because the library is not
differentiable there.
-/

namespace JaxAct
open ACTStates
variable {K : Type} [Field K] [LinearOrder K]

/-- The entries of a tree under batch index `b` have no tangent. -/
def PyTree.NoTangent (b : List Nat) (t : PyTree (Leaf (Dual K))) : Prop :=
  ∀ k i X, t.entry? k (b ++ i) = some X → X.im = 0

/-- The entries of the trees of a dictionary under batch index `b` have no tangent. -/
def DictNoTangent (b : List Nat) (d : Dict (PyTree (Leaf (Dual K)))) : Prop :=
  ∀ n k i X, entry? d n k (b ++ i) = some X → X.im = 0

/-- The two constants of a state and everything it holds for batch element `b` have no tangent.  Nothing
is said about the other elements. -/
structure ACTStates.NoTangent (b : List Nat) (s : ACTStates (Dual K)) : Prop where
  epsilon : s.epsilon.im = 0
  depression : s.depression_constant.im = 0
  probabilities : ∀ X, s.probabilities.at? b = some X → X.im = 0
  residuals : ∀ X, s.residuals.at? b = some X → X.im = 0
  iterations : ∀ X, s.iterations.at? b = some X → X.im = 0
  defaults : DictNoTangent b s.defaults
  accumulators : DictNoTangent b s.accumulators
  updates : DictNoTangent b s.updates

/-- What a call passes for batch element `b` has no tangent. -/
def Op.NoTangent (b : List Nat) : Op (Dual K) → Prop
  | .cache _ t => t.NoTangent b
  | .iterate h => ∀ X, h.at? b = some X → X.im = 0
  | .reset => True

attribute [local instance] Arith.exact Arith.dual

/-! ### Scalars -/

theorem clamp_im {X : Dual K} (h : X.im = 0) : (Spec.clamp X).im = 0 := by
  have hm : ∀ A B : Dual K, A.im = 0 → B.im = 0 → (Arith.max A B).im = 0 := by
    intro A B ha hb
    show (if A.re < B.re then B else if B.re < A.re then A else ⟨A.re, (A.im + B.im) / 2⟩ : Dual K).im = 0
    split
    · exact hb
    · split
      · exact ha
      · simp [ha, hb]
  have hn : ∀ A B : Dual K, A.im = 0 → B.im = 0 → (Arith.min A B).im = 0 := by
    intro A B ha hb
    show (if A.re < B.re then A else if B.re < A.re then B else ⟨A.re, (A.im + B.im) / 2⟩ : Dual K).im = 0
    split
    · exact ha
    · split
      · exact hb
      · simp [ha, hb]
  exact hn _ _ rfl (hm _ _ rfl h)

theorem weight_im (d : DType) (E : Dual K) {D P X : Dual K} (hD : D.im = 0) (hP : P.im = 0)
    (hX : X.im = 0) : (Spec.weight d E D P X).im = 0 := by
  unfold Spec.weight
  split
  · show 0 - P.im = 0
    simp [hP]
  · show D.im * (Spec.clamp X).re + D.re * (Spec.clamp X).im = 0
    simp [hD, clamp_im hX]

theorem ofBool_im (b : Bool) : (Arith.ofBool b : Dual K).im = 0 := by
  cases b <;> rfl

/-! ### Calls -/

theorem ACTStates.NoTangent.iterate {s s' : ACTStates (Dual K)} {h : Tensor (Dual K)} {b : List Nat}
    {p : Dual K} (hwf : s.WF) (st : IterStep s h s') (hb : s.probabilities.at? b = some p)
    (hs : s.NoTangent b) (hh : (Op.iterate h).NoTangent b) : s'.NoTangent b := by
  obtain ⟨r, n, x, hr, hn, hx, c1, c2, c3⟩ := st.cellAt hwf hb
  have ip := hs.probabilities _ hb
  have ix := hh _ hx
  have iw := weight_im (X := x) s.probabilities.dtype s.epsilon hs.depression ip ix
  refine ⟨by rw [st.epsilon]; exact hs.epsilon, by rw [st.depression]; exact hs.depression, ?_, ?_, ?_,
    by rw [st.defaults]; exact hs.defaults, ?_, ?_⟩
  · intro X hX
    cases c1.symm.trans hX
    simp only [Spec.step, convS_dual]
    show p.im + _ = 0
    rw [ip, iw, add_zero]
  · intro X hX
    cases c2.symm.trans hX
    simp only [Spec.step, convS_dual]
    split
    · show 0 - p.im = 0
      simp [ip]
    · exact hs.residuals _ hr
  · intro X hX
    cases c3.symm.trans hX
    simp only [Spec.step]
    have := hs.iterations _ hn
    split
    · exact this
    · show n.im + 0 = 0
      simp [this]
  · intro m k i X hX
    cases ha : entry? s.accumulators m k (b ++ i) with
    | none => rw [st.entry_none ha] at hX; cases hX
    | some a =>
      obtain ⟨u, p', x', dA, dU, hu, hp', hx', e⟩ := st.entry hwf ha
      have hlen := length_of_at? hb
      have t1 : (b ++ i).take s.probabilities.shape.length = b := by rw [← hlen, List.take_left]
      rw [t1] at hp' hx'
      cases hb.symm.trans hp'
      cases hx.symm.trans hx'
      cases e.symm.trans hX
      have ia := hs.accumulators _ _ _ _ ha
      have iu := hs.updates _ _ _ _ hu
      simp only [Spec.accStep, convS_dual]
      split
      · exact ia
      · show a.im + (Dual.im (Spec.weight _ _ _ _ _) * u.re + _ * u.im) = 0
        rw [ia, iu, iw]
        simp
  · intro m k i X hX
    obtain ⟨l, h1, h2⟩ := entry?_eq_some.1 hX
    obtain ⟨t, h3, h4⟩ := leaf?_eq_some.1 h1
    have hm : m ∈ s.accumulators.keys := by
      rw [← hwf.upd_iff, ← st.ukeys]
      exact Dict.mem_keys_iff.2 ⟨_, h3⟩
    rw [st.cleared m hm] at h3
    cases h3
    cases h4

theorem ACTStates.NoTangent.reset {s s' : ACTStates (Dual K)} {b : List Nat}
    {p : Dual K} (hwf : s.WF) (st : ResetStep s s') (hb : s.probabilities.at? b = some p)
    (hs : s.NoTangent b) : s'.NoTangent b := by
  obtain ⟨r, n, hr, hn⟩ := hwf.cell hb
  obtain ⟨c1, c2, c3⟩ := st.cell b p r n hb hr hn
  have keep : ∀ (d : DType) (c : Bool) (x : Dual K), x.im = 0 → (Spec.keepIf d c x).im = 0 := by
    intro d c x hx
    simp only [Spec.keepIf, convS_dual]
    show x.im * _ + x.re * Dual.im (Arith.ofBool c) = 0
    rw [hx, ofBool_im]
    simp
  refine ⟨by rw [st.epsilon]; exact hs.epsilon, by rw [st.depression]; exact hs.depression, ?_, ?_, ?_,
    by rw [st.defaults]; exact hs.defaults, ?_, by rw [st.updates]; exact hs.updates⟩
  · intro X hX
    cases c1.symm.trans hX
    exact keep _ _ _ (hs.probabilities _ hb)
  · intro X hX
    cases c2.symm.trans hX
    exact keep _ _ _ (hs.residuals _ hr)
  · intro X hX
    cases c3.symm.trans hX
    exact keep _ _ _ (hs.iterations _ hn)
  · intro m k i X hX
    cases ha : entry? s.accumulators m k (b ++ i) with
    | none => rw [st.entry_none ha] at hX; cases hX
    | some a =>
      obtain ⟨x, p', hx, hp', e⟩ := st.entry hwf ha
      cases e.symm.trans hX
      simp only [Spec.resetEntry]
      split
      · exact hs.defaults _ _ _ _ hx
      · exact hs.accumulators _ _ _ _ ha

/-- C88, no leakage: if the constants and everything given for batch element `b` have tangent zero, then
after any calls everything held for `b` has tangent zero, whatever values and tangents the other elements
have. -/
theorem C88_no_leak {s : ACTStates (Dual K)} (hwf : s.WF) {b : List Nat} {p : Dual K}
    (hb : s.probabilities.at? b = some p) (hs : s.NoTangent b) {ops : List (Op (Dual K))}
    (hops : ∀ op ∈ ops, op.NoTangent b) {c : Controller (Dual K)} (h : run ⟨s⟩ ops = .ok c) :
    c.state.NoTangent b := by
  induction ops generalizing s p with
  | nil => cases h; exact hs
  | cons op ops ih =>
    simp only [run, bind_ok] at h
    obtain ⟨⟨s1⟩, h1, h2⟩ := h
    have hrest := fun o (ho : o ∈ ops) => hops o (by simp [ho])
    have hop := hops op (by simp)
    cases op with
    | cache n t =>
      have st := Controller.cacheUpdate_ok_iff.1 h1
      have w1 := Controller.CacheStep.wf hwf st
      have e := st.eq
      simp only at e
      subst e
      refine ih w1 hb { hs with updates := ?_ } hrest h2
      intro m k i X hX
      rw [entry?_set] at hX
      split at hX
      · exact hop _ _ _ hX
      · exact hs.updates _ _ _ _ hX
    | iterate g =>
      have st := Controller.iterateAct_ok hwf h1
      obtain ⟨r, n, x, -, -, -, c1, -, -⟩ := st.cellAt hwf hb
      exact ih (Controller.IterStep.wf hwf st) c1 (hs.iterate hwf st hb hop) hrest h2
    | reset =>
      have st := Controller.resetBatches_ok hwf h1
      obtain ⟨r, n, hr, hn⟩ := hwf.cell hb
      obtain ⟨c1, -, -⟩ := st.cell b p r n hb hr hn
      exact ih (Controller.ResetStep.wf hwf st) c1 (hs.reset hwf st hb) hrest h2

/-- C88, no leakage out of `execute_act`: for a layer that passes nothing with a tangent for batch element
`b`, in any iteration, the returned controller has tangent zero in everything it holds for `b`. -/
theorem C88_execute_act_no_leak (make : PyTree (Leaf (Dual K)) → Dual K → Res (Made (Dual K)))
    (calls : PyTree (Leaf (Dual K)) → List (Op (Dual K)))
    (next : PyTree (Leaf (Dual K)) → PyTree (Leaf (Dual K))) (s0 : PyTree (Leaf (Dual K))) (dep : Dual K)
    (max : Int) (check : Bool) {c0 : Controller (Dual K)} (hmake : make s0 dep = .ok (.ctrl c0))
    (hwf : c0.state.WF) (hd : c0.state.DictsWF) {b : List Nat} {p : Dual K}
    (hb : c0.probabilities.at? b = some p) (hs : c0.state.NoTangent b)
    (hops : ∀ t, ∀ op ∈ calls (loopStates next s0 t), op.DictsWF ∧ op.NoTangent b)
    {c : Controller (Dual K)} {s : PyTree (Leaf (Dual K))}
    (h : (callLayer make calls next).ExecuteAct s0 dep max check (.ok (c, s))) : c.state.NoTangent b := by
  obtain ⟨k, -, -, -, wd, ⟨c', r1, r2⟩, -, -⟩ := C61_loop_is_history make calls next s0 dep max check
    hmake hwf hd (fun t op ho => (hops t op ho).1) h
  have hmem : ∀ op ∈ loopCalls calls next s0 k, op.NoTangent b := by
    intro op ho
    obtain ⟨t, -, ht⟩ := List.mem_flatMap.1 ho
    exact (hops t op ht).2
  have key := C88_no_leak (s := c0.state) hwf hb hs hmem r1
  have wd' : c'.state.DictsWF := run_dictsWF (s := c0.state) hwf hd (fun op ho => by
    obtain ⟨t, -, ht⟩ := List.mem_flatMap.1 ho
    exact (hops t op ht).1) r1
  have dict : ∀ {d d' : Dict (PyTree (Leaf (Dual K)))}, DictWF d → DictWF d' → DictSame d d' →
      DictNoTangent b d' → DictNoTangent b d := by
    intro d d' w w' e hn n k i X hX
    rw [entry?_same w w' e n k _] at hX
    exact hn _ _ _ _ hX
  exact ⟨by rw [r2.epsilon]; exact key.epsilon, by rw [r2.depression_constant]; exact key.depression,
    by rw [r2.probabilities]; exact key.probabilities, by rw [r2.residuals]; exact key.residuals,
    by rw [r2.iterations]; exact key.iterations, dict wd.defaults wd'.defaults r2.defaults key.defaults,
    dict wd.accumulators wd'.accumulators r2.accumulators key.accumulators,
    dict wd.updates wd'.updates r2.updates key.updates⟩

/-! ### After halting -/

section Halting
variable [IsStrictOrderedRing K]

/-- Whether an element stays halted is a matter of the values. -/
theorem stays_halted_dual {c : Controller (Dual K)} (hwf : c.state.WF) (he : 0 < c.state.epsilon.re)
    (hdep : 0 ≤ c.state.depression_constant.re) : StaysHalted c := by
  intro ops c' b _ hr ops' c'' hn' hr' hb
  obtain ⟨w, h1, h2⟩ := run_induction (s := c.state)
    (Inv := fun t => 0 < t.epsilon.re ∧ 0 ≤ t.depression_constant.re)
    (fun _ _ _ _ _ st i => by obtain ⟨-, rfl⟩ := st; exact i)
    (fun _ _ _ _ st i => by rw [st.epsilon, st.depression]; exact i)
    (fun _ _ _ st i => by rw [st.epsilon, st.depression]; exact i) ops hwf ⟨he, hdep⟩ hr
  refine (run_induction_noReset (s := c'.state) (Inv := fun t => 0 < t.epsilon.re ∧
    0 ≤ t.depression_constant.re ∧ (Controller.haltedBatches ⟨t⟩).at? b = some true) ?_ ?_ ops' hn' w
    ⟨h1, h2, hb⟩ hr').2.2.2
  · rintro s n t s' - ⟨-, rfl⟩ h; exact h
  · rintro s h s' hwf st ⟨h1, h2, h3⟩
    refine ⟨by rw [st.epsilon]; exact h1, by rw [st.depression]; exact h2, ?_⟩
    rw [halted_iff hwf.floating] at h3
    obtain ⟨p, hp, hh⟩ := h3
    obtain ⟨r, n, x, -, -, -, hc, -, -⟩ := st.cellAt hwf hp
    rw [halted_iff (by rw [st.pdtype]; exact hwf.floating)]
    refine ⟨_, hc, ?_⟩
    rw [st.pdtype, st.epsilon, isHalted_re]
    rw [isHalted_re] at hh
    have e : (Spec.step s.probabilities.dtype s.iterations.dtype s.epsilon s.depression_constant
        ⟨p, r, n⟩ (convS h.dtype s.probabilities.dtype x)).prob.re =
        (Spec.step s.probabilities.dtype s.iterations.dtype s.epsilon.re s.depression_constant.re
        ⟨p.re, r.re, n.re⟩ x.re).prob := by
      rw [convS_dual]
      show p.re + Dual.re (Spec.weight _ _ _ _ _) = _
      rw [weight_re]
      rfl
    rw [e, Spec.halted_step_iff h1]
    exact Spec.crosses_of_halted h2 hh

/-- C88, after halting: values and tangents of the results of a halted element are those it had when it
was halted, whatever values and tangents are passed afterwards. -/
theorem C88_no_gradient_after_halting {s : ACTStates (Dual K)} (hwf : s.WF) (he : 0 < s.epsilon.re)
    (hdep : 0 ≤ s.depression_constant.re) {b : List Nat}
    (hb : (Controller.haltedBatches ⟨s⟩).at? b = some true) {ops : List (Op (Dual K))}
    (hops : ∀ op ∈ ops, op.NotReset) {c : Controller (Dual K)} (h : run ⟨s⟩ ops = .ok c) :
    SameResults b b c ⟨s⟩ :=
  frozen_of_stays (c := ⟨s⟩) hwf (stays_halted_dual hwf he hdep) hb hops h

/-- C88, `execute_act`: two batches that agree at an element, in values and tangents, give the same
results for it, in values and tangents, though the loop may run a different number of times. -/
theorem C88_rest_of_batch_irrelevant
    {make make' : PyTree (Leaf (Dual K)) → Dual K → Res (Made (Dual K))}
    {calls calls' : PyTree (Leaf (Dual K)) → List (Op (Dual K))}
    {next next' : PyTree (Leaf (Dual K)) → PyTree (Leaf (Dual K))} {s0 s0' : PyTree (Leaf (Dual K))}
    {dep dep' : Dual K} {max : Int} {check check' : Bool} {c0 d0 : Controller (Dual K)}
    (hmake : make s0 dep = .ok (.ctrl c0)) (hmake' : make' s0' dep' = .ok (.ctrl d0))
    (hc : c0.state.WF) (hcd : c0.state.DictsWF) (hd : d0.state.WF) (hdd : d0.state.DictsWF)
    (he : 0 < c0.state.epsilon.re) (hdep : 0 ≤ c0.state.depression_constant.re)
    {b b' : List Nat} {p : Dual K} (hb : c0.probabilities.at? b = some p)
    (hag : AgreeAt b b' c0.state d0.state)
    (hcalls : ∀ t, List.Forall₂ (OpAgree b b') (calls (loopStates next s0 t))
      (calls' (loopStates next' s0' t)))
    (hops : ∀ t, ∀ op ∈ calls (loopStates next s0 t), op.DictsWF ∧ op.NotReset)
    (hops' : ∀ t, ∀ op ∈ calls' (loopStates next' s0' t), op.DictsWF ∧ op.NotReset)
    {c d : Controller (Dual K)} {s s' : PyTree (Leaf (Dual K))}
    (h : (callLayer make calls next).ExecuteAct s0 dep max check (.ok (c, s)))
    (h' : (callLayer make' calls' next').ExecuteAct s0' dep' max check' (.ok (d, s'))) :
    SameResults b b' c d :=
  (same_results hmake hmake' hc hcd hd hdd hb hag hcalls hops hops' (stays_halted_dual hc he hdep)
    (stays_halted_dual hd (by rw [← hag.epsilon]; exact he) (by rw [← hag.depression]; exact hdep))
    h h').1

end Halting

/-! ### A controller with two batch elements -/

namespace TwoElements
variable {α : Type}

/-- A `float32` tensor with two entries. -/
def two (x y : α) : Tensor α := ⟨.f32, ⟨[2], fun i _ => if i.headD 0 = 0 then x else y⟩⟩

/-- The tree that is this tensor. -/
def tree (x y : α) : PyTree (Leaf α) := .leaf (.tensor (two x y))

/-- Fresh controller with one accumulator. -/
def start (eps z o : α) : ACTStates α where
  epsilon := eps
  iterations := two z z
  residuals := two z z
  probabilities := two z z
  defaults := [("out", tree z z)]
  accumulators := [("out", tree z z)]
  updates := [("out", .none)]
  depression_constant := o
  error_mode := Option.none

theorem start_wf (eps z o : α) : (start eps z o).WF where
  floating := rfl
  res_shape := rfl
  res_dtype := rfl
  it_shape := rfl
  it_dtype := by show DType.f32 ≠ DType.bool; decide
  acc_keys := List.nodup_singleton _
  def_keys := List.nodup_singleton _
  upd_keys := List.nodup_singleton _
  def_iff := by intro n; exact Iff.rfl
  upd_iff := by intro n; exact Iff.rfl
  batched := by
    intro n t h
    obtain ⟨-, rfl⟩ := Fixtures.get?_one h
    intro l hl
    have : (tree z z).treeLeaves = [.tensor (two z z)] := rfl
    rw [this, List.mem_singleton] at hl
    exact ⟨two z z, hl, rfl, ⟨[], rfl⟩⟩
  same := by
    intro n t u h1 h2
    obtain ⟨-, rfl⟩ := Fixtures.get?_one h1
    obtain ⟨-, rfl⟩ := Fixtures.get?_one h2
    exact ⟨rfl, .cons ⟨two z z, two z z, rfl, rfl, rfl, rfl⟩ .nil⟩

theorem start_dictsWF (eps z o : α) : (start eps z o).DictsWF := by
  have h : DictWF (start eps z o).accumulators := by
    refine ⟨(start_wf eps z o).acc_keys, fun n t h => ?_⟩
    rw [(Fixtures.get?_one h).2]; trivial
  refine ⟨h, h, (start_wf eps z o).upd_keys, fun n t h => ?_⟩
  rw [(Fixtures.get?_one h).2]; trivial

theorem two_at {x y v : α} {i : List Nat} (h : (two x y).at? ([0] ++ i) = some v) : v = x := by
  unfold Tensor.at? Arr.at? two at h
  simp only at h
  split at h
  · cases h; rfl
  · cases h

omit [LinearOrder K] in
theorem two_noTangent {x y : Dual K} (hx : x.im = 0) {i : List Nat} {X : Dual K}
    (h : (two x y).at? ([0] ++ i) = some X) : X.im = 0 := by rw [two_at h]; exact hx

omit [LinearOrder K] in
theorem tree_noTangent {x y : Dual K} (hx : x.im = 0) : (tree x y).NoTangent [0] := by
  intro k i X h
  cases k with
  | succ k => cases h
  | zero => exact two_noTangent (y := y) hx (i := i) h

omit [LinearOrder K] in
theorem start_noTangent {e z o : Dual K} (he : e.im = 0) (hz : z.im = 0) (ho : o.im = 0) :
    (start e z o).NoTangent [0] := by
  have d : DictNoTangent [0] [("out", tree z z)] := by
    intro n k i X h
    obtain ⟨l, h1, h2⟩ := entry?_eq_some.1 h
    obtain ⟨t, h3, h4⟩ := leaf?_eq_some.1 h1
    obtain ⟨-, rfl⟩ := Fixtures.get?_one h3
    exact tree_noTangent hz k i X (by unfold PyTree.entry?; rw [h4]; exact h2)
  refine ⟨he, ho, ?_, ?_, ?_, d, d, ?_⟩
  · exact fun X h => two_noTangent (i := []) hz h
  · exact fun X h => two_noTangent (i := []) hz h
  · exact fun X h => two_noTangent (i := []) hz h
  · intro n k i X h
    obtain ⟨l, h1, h2⟩ := entry?_eq_some.1 h
    obtain ⟨t, h3, h4⟩ := leaf?_eq_some.1 h1
    obtain ⟨-, rfl⟩ := Fixtures.get?_one h3
    cases h4

/-- The layer: a fresh controller; halting probabilities and update are the user state, which stays. -/
def loop [Arith α] (eps z : α) : Layer α :=
  callLayer (fun _ d => .ok (.ctrl ⟨start eps z d⟩)) (fun s => (OneElement.round z s).ops) id

theorem loop_typed [Arith α] (z x y : α) :
    TypedCalls (fun s => (OneElement.round z s).ops) id (tree x y) where
  calls s hs := by
    obtain ⟨l, rfl⟩ := hs.leaf_iff.1 ⟨_, rfl⟩
    obtain ⟨t, rfl, h3, h4⟩ := Leaf.type_some.1 (List.head_eq_of_cons_eq hs.2).symm
    exact .cons (.cache _ hs) (.cons (.iterate ⟨h3.symm, h4.symm⟩) .nil)
  next s hs := hs

theorem loop_states (x y : α) (t : Nat) : loopStates id (tree x y) t = tree x y := by
  induction t with
  | zero => rfl
  | succ t ih => unfold loopStates; rw [ih]; rfl

theorem loop_ok [Arith α] (eps z d x y : α) (max : Int) (check : Bool) {c : Controller α}
    (hr : run ⟨start eps z d⟩ (OneElement.round z (tree x y)).ops = .ok c) :
    ∃ C T, (loop eps z).ExecuteAct (tree x y) d max check (.ok (C, T)) := by
  refine C50_execute_act_succeeds _ (OneElement.round z) id check ⟨start eps z d⟩ c (tree x y) d max rfl
    (start_wf ..) rfl (List.cons_ne_nil _ _) (fun n u h => ?_) (fun l hl => ?_) (loop_typed z x y) hr
  · exact (Fixtures.get?_one h).2
  · have : (tree x y).treeLeaves = [.tensor (two x y)] := rfl
    rw [this, List.mem_singleton] at hl
    exact ⟨_, hl⟩

theorem loop_ops (z x y : α) (t : Nat) :
    ∀ op ∈ (OneElement.round z (loopStates id (tree x y) t)).ops, op.DictsWF ∧ op.NotReset := by
  rw [loop_states]
  intro op ho
  simp only [OneElement.round, Round.ops, List.map_cons, List.map_nil, List.cons_append, List.nil_append,
    List.mem_cons, List.not_mem_nil, or_false] at ho
  rcases ho with rfl | rfl
  · exact ⟨trivial, trivial⟩
  · exact ⟨trivial, trivial⟩

/-- Two user states that have element 0 in common pass the same for it. -/
theorem loop_calls (z x y y' : α) (t : Nat) : List.Forall₂ (OpAgree [0] [0])
    (OneElement.round z (loopStates id (tree x y) t)).ops
    (OneElement.round z (loopStates id (tree x y') t)).ops := by
  rw [loop_states, loop_states]
  have e : ∀ i, (two x y).at? ([0] ++ i) = (two x y').at? ([0] ++ i) := fun _ => rfl
  exact .cons (.cache (.cons ⟨_, _, rfl, rfl, rfl, e⟩ .nil)) (.cons (.iterate rfl (e [])) .nil)

theorem start_agree (e z o : α) : AgreeAt [0] [0] (start e z o) (start e z o) := by
  have one : ∀ x : PyTree (Leaf α), TreeAgree [0] [0] x x → DictAgree [0] [0] [("out", x)] [("out", x)] := by
    intro x hx n
    simp only [Dict.get?]
    split
    · exact .some hx
    · exact .none
  have t : TreeAgree [0] [0] (tree z z) (tree z z) := .cons ⟨_, _, rfl, rfl, rfl, fun _ => rfl⟩ .nil
  exact ⟨rfl, rfl, rfl, rfl, rfl, rfl, rfl, one _ t, one _ t, one _ .nil⟩

end TwoElements

open TwoElements

section Example

private def d (x y : ℚ) : Dual ℚ := ⟨x, y⟩

/-- What is observed of a batch element. -/
private def look (b : Nat) (c : Controller (Dual ℚ)) : List (Option (Dual ℚ)) :=
  [c.iterations.at? [b], c.probabilities.at? [b], c.residuals.at? [b],
    entry? c.accumulators "out" 0 [b]]

private def looks (r : Res (Controller (Dual ℚ))) :
    Option (List (Option (Dual ℚ)) × List (Option (Dual ℚ))) :=
  match r with
  | .ok c => some (look 0 c, look 1 c)
  | .error _ => Option.none

/-- No leakage, whatever is passed for element 1: the hypotheses hold. -/
example (x u y v : Dual K) (hx : x.im = 0) (hu : u.im = 0) {c : Controller (Dual K)}
    (h : run ⟨start ⟨1 / 10, 0⟩ ⟨0, 0⟩ ⟨1, 0⟩⟩ [.cache "out" (tree u v), .iterate (two x y)] = .ok c) :
    c.state.NoTangent [0] := by
  refine C88_no_leak (start_wf ..) (p := ⟨0, 0⟩) rfl (start_noTangent rfl rfl rfl) ?_ h
  intro op ho
  simp only [List.mem_cons, List.not_mem_nil, or_false] at ho
  rcases ho with rfl | rfl
  · exact tree_noTangent hu
  · exact fun X hX => two_noTangent (i := []) hx hX

/-- With numbers: element 0 is at a corner of the clip (`0`), element 1 has tangents. -/
example : looks (run ⟨start (d (1 / 10) 0) (d 0 0) (d 1 0)⟩
      [.cache "out" (tree (d 3 0) (d 4 7)), .iterate (two (d 0 0) (d (1 / 2) 1))]) =
    some ([some (d 1 0), some (d 0 0), some (d 0 0), some (d 0 0)],
      [some (d 1 0), some (d (1 / 2) 1), some (d 0 0), some (d 2 (15 / 2))]) := by decide +kernel

/-- After halting: element 0 is halted by the first round, with tangents in its results; what the second
round passes for it, with other tangents, changes neither. -/
example : looks (run ⟨start (d (1 / 10) 0) (d 0 0) (d 1 0)⟩
      [.cache "out" (tree (d 3 5) (d 4 0)), .iterate (two (d 1 1) (d (1 / 2) 0))]) =
    some ([some (d 1 0), some (d 1 0), some (d 1 0), some (d 3 5)],
      [some (d 1 0), some (d (1 / 2) 0), some (d 0 0), some (d 2 0)]) ∧
    looks (run ⟨start (d (1 / 10) 0) (d 0 0) (d 1 0)⟩
      [.cache "out" (tree (d 3 5) (d 4 0)), .iterate (two (d 1 1) (d (1 / 2) 0)),
        .cache "out" (tree (d 8 11) (d 4 0)), .iterate (two (d (1 / 3) 13) (d (1 / 2) 1))]) =
    some ([some (d 1 0), some (d 1 0), some (d 1 0), some (d 3 5)],
      [some (d 2 0), some (d 1 0), some (d (1 / 2) 0), some (d 4 0)]) := by decide +kernel

/-- `execute_act` for two batches that have element 0 in common (`3/5` with tangent `1`): beside `1` the
loop runs twice, beside `1/4` with tangent `9` it runs four times; element 0 comes out the same. -/
example : ∃ C S D T,
    (TwoElements.loop (d (1 / 10) 0) (d 0 0)).ExecuteAct (tree (d (3 / 5) 1) (d 1 0)) (d 1 0) 9 true
      (.ok (C, S)) ∧
    (TwoElements.loop (d (1 / 10) 0) (d 0 0)).ExecuteAct (tree (d (3 / 5) 1) (d (1 / 4) 9)) (d 1 0) 9 true
      (.ok (D, T)) ∧
    SameResults [0] [0] C D ∧
    look 0 C = [some (d 2 0), some (d 1 0), some (d (2 / 5) (-1)), some (d (3 / 5) 1)] ∧
    look 1 C = [some (d 1 0), some (d 1 0), some (d 1 0), some (d 1 0)] ∧
    look 1 D = [some (d 4 0), some (d 1 0), some (d (1 / 4) (-27)), some (d (1 / 4) 9)] := by
  have f1 : (whileFuel isActNotComplete
      (fun x => ((TwoElements.loop (d (1 / 10) 0) (d 0 0)).adapter true x).map Carry.rebuild) 9
      (Carry.rebuild ⟨⟨start (d (1 / 10) 0) (d 0 0) (d 1 0)⟩, tree (d (3 / 5) 1) (d 1 0), ⟨0, 9⟩⟩)).map
        (fun z => (look 0 z.controller, look 1 z.controller)) =
      some ([some (d 2 0), some (d 1 0), some (d (2 / 5) (-1)), some (d (3 / 5) 1)],
        [some (d 1 0), some (d 1 0), some (d 1 0), some (d 1 0)]) := by decide +kernel
  have f2 : (whileFuel isActNotComplete
      (fun x => ((TwoElements.loop (d (1 / 10) 0) (d 0 0)).adapter true x).map Carry.rebuild) 9
      (Carry.rebuild ⟨⟨start (d (1 / 10) 0) (d 0 0) (d 1 0)⟩, tree (d (3 / 5) 1) (d (1 / 4) 9),
        ⟨0, 9⟩⟩)).map (fun z => look 1 z.controller) =
      some [some (d 4 0), some (d 1 0), some (d (1 / 4) (-27)), some (d (1 / 4) 9)] := by decide +kernel
  obtain ⟨z, hz, o1⟩ := Option.map_eq_some_iff.1 f1
  obtain ⟨w, hw, o2⟩ := Option.map_eq_some_iff.1 f2
  have ok : ∀ y, (looks (run ⟨start (d (1 / 10) 0) (d 0 0) (d 1 0)⟩
      (OneElement.round (d 0 0) (tree (d (3 / 5) 1) y)).ops)).isSome = true →
      ∃ C S, (TwoElements.loop (d (1 / 10) 0) (d 0 0)).ExecuteAct (tree (d (3 / 5) 1) y) (d 1 0) 9 true
        (.ok (C, S)) := by
    intro y hy
    cases hr : run ⟨start (d (1 / 10) 0) (d 0 0) (d 1 0)⟩
      (OneElement.round (d 0 0) (tree (d (3 / 5) 1) y)).ops with
    | error e => rw [hr] at hy; cases hy
    | ok c => exact TwoElements.loop_ok _ _ _ _ _ 9 true hr
  have e1 := execute_of_fuel (ok (d 1 0) (by decide +kernel)) rfl hz
  have e2 := execute_of_fuel (ok (d (1 / 4) 9) (by decide +kernel)) rfl hw
  simp only [Prod.mk.injEq] at o1
  refine ⟨_, _, _, _, e1, e2, ?_, o1.1, o1.2, o2⟩
  exact C88_rest_of_batch_irrelevant (c0 := ⟨start (d (1 / 10) 0) (d 0 0) (d 1 0)⟩)
    (d0 := ⟨start (d (1 / 10) 0) (d 0 0) (d 1 0)⟩) rfl rfl (start_wf ..) (start_dictsWF ..) (start_wf ..)
    (start_dictsWF ..) (by decide +kernel) (by decide +kernel) (p := d 0 0) rfl (start_agree ..)
    (loop_calls _ _ _ _) (TwoElements.loop_ops _ _ _) (TwoElements.loop_ops _ _ _) e1 e2

end Example

end JaxAct
