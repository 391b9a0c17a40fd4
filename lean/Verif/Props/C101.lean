import Verif.Props.C73

/-! # C101 an interrupted execute_act can be resumed -/

namespace JaxAct
open PyTree
variable {α : Type}

private theorem dict_sorted_sorted (d : Dict (PyTree (Leaf α))) : d.sorted.sorted = d.sorted := by
  have h : (d.sorted.map fun kv => (kv.1, kv.2.canon)) = d.sorted := by
    conv_rhs => rw [← List.map_id d.sorted]
    refine List.map_congr_left fun kv hkv => ?_
    have := (sortKV_perm (d.map fun kv => (kv.1, kv.2.canon))).mem_iff.1 hkv
    obtain ⟨x, -, rfl⟩ := List.mem_map.1 this
    simp
  show sortKV (d.sorted.map fun kv => (kv.1, kv.2.canon)) = d.sorted
  rw [h]
  exact sortKV_of_sorted (sortKV_sorted _)

private theorem rebuild_rebuild (x : Carry α) : x.rebuild.rebuild = x.rebuild := by
  unfold Carry.rebuild ACTStates.sorted
  simp [dict_sorted_sorted]

variable [Arith α]

/-- The carry with its counter and its maximum moved. -/
def Carry.later (a : Int) (x : Carry α) : Carry α :=
  ⟨x.controller, x.state, ⟨x.metadata.num_iterations + a, x.metadata.max_num_iterations + a⟩⟩

private theorem adapter_later (l : Layer α) (check : Bool) (a : Int) (x : Carry α) :
    l.adapter check (x.later a) = (l.adapter check x).map (Carry.later a) := by
  have hm : (x.later a).metadata.increaseCounter =
      ⟨x.metadata.increaseCounter.num_iterations + a,
        x.metadata.increaseCounter.max_num_iterations + a⟩ := by
    simp only [Carry.later, ACTMetaData.increaseCounter]
    congr 1
    omega
  unfold Layer.adapter
  rw [hm]
  show (l.wrappedRun check x.controller x.state >>= _) = _
  cases l.wrappedRun check x.controller x.state with
  | error e => rfl
  | ok u =>
    simp only [ok_bind]
    cases u.unpack with
    | error e => rfl
    | ok p =>
      obtain ⟨a, b⟩ := p
      cases a <;> cases b <;> rfl

private theorem cond_later (a : Int) (x : Carry α) :
    isActNotComplete (x.later a) = isActNotComplete x := by
  unfold isActNotComplete Carry.later
  simp

private theorem steps_later {l : Layer α} {check : Bool} (a : Int) {x z : Carry α}
    (h : WhileSteps isActNotComplete (fun x => (l.adapter check x).map Carry.rebuild) x z) :
    WhileSteps isActNotComplete (fun x => (l.adapter check x).map Carry.rebuild)
      (x.later a) (z.later a) := by
  induction h with
  | stop x hc => exact .stop _ ((cond_later a x).trans hc)
  | next x y z hc hs _ ih =>
    refine .next _ _ _ ((cond_later a x).trans hc) ?_ ih
    simp only [adapter_later]
    cases ha : l.adapter check x with
    | error e => simp only [ha] at hs; cases hs
    | ok w => simp only [ha] at hs; cases hs; rfl

private theorem steps_rebuilt {l : Layer α} {check : Bool} {x z : Carry α}
    (h : WhileSteps isActNotComplete (fun x => (l.adapter check x).map Carry.rebuild) x z)
    (hx : x.rebuild = x) : z.rebuild = z := by
  induction h with
  | stop x hc => exact hx
  | next x y z hc hs _ ih =>
    apply ih
    cases ha : l.adapter check x with
    | error e => simp only [ha] at hs; cases hs
    | ok w => simp only [ha] at hs; cases hs; exact rebuild_rebuild w

/-- C101: if `execute_act` with at most `m` iterations returned a controller and a state, and a layer
with the same `run_iteration` whose `make_controller` returns that controller is run from that state with
at most `m'` iterations, the result is that of the first layer with at most `m + m'` iterations. -/
theorem C101_resume (l l' : Layer α) (hl : l'.runIteration = l.runIteration)
    {s0 s s' : PyTree (Leaf α)} {dep dep' : α} {m m' : Int} (hm : 0 ≤ m) (hm' : 0 ≤ m') {check : Bool}
    {c c' : Controller α} (h : l.ExecuteAct s0 dep m check (.ok (c, s)))
    (hmake : l'.makeController s dep' = .ok (.ctrl c))
    (h' : l'.ExecuteAct s dep' m' check (.ok (c', s'))) :
    l.ExecuteAct s0 dep (m + m') check (.ok (c', s')) := by
  obtain ⟨c0, n, hp, hq⟩ := Layer.execute_ok_iff.1 h
  obtain ⟨c1, n', hp', hq'⟩ := Layer.execute_ok_iff.1 h'
  obtain rfl : c1 = c := by
    have := (Layer.prepare_ok hp').1
    rw [hmake] at this
    cases this
    rfl
  have had : l'.adapter check = l.adapter check := by
    funext x
    unfold Layer.adapter Layer.wrappedRun
    rw [hl]
  have hs := (WhileLoop.ok_iff.1 hq).2
  have hs' := (WhileLoop.ok_iff.1 hq').2
  rw [had] at hs'
  have hr : (⟨c1, s, ⟨n, m⟩⟩ : Carry α).rebuild = ⟨c1, s, ⟨n, m⟩⟩ :=
    steps_rebuilt hs (rebuild_rebuild _)
  have hr' : (⟨c1, s, ⟨0, m'⟩⟩ : Carry α).rebuild = ⟨c1, s, ⟨0, m'⟩⟩ := by
    have e1 := congrArg Carry.controller hr
    have e2 := congrArg Carry.state hr
    simp only [Carry.rebuild] at e1 e2 ⊢
    rw [e1, e2]
  rw [hr'] at hs'
  obtain ⟨e1, -, e3⟩ := Layer.steps_end hs
  by_cases hh : c1.isCompletelyHalted = true
  · -- nothing more is run
    obtain ⟨rfl, rfl⟩ : c' = c1 ∧ s' = s := by
      cases hs' with
      | stop => exact ⟨rfl, rfl⟩
      | next _ _ _ hc =>
        unfold isActNotComplete at hc
        rw [hh] at hc
        cases hc
    refine Layer.execute_ok_iff.2 ⟨c0, n, hp, Layer.loop_withMax (by omega) hq (.stop _ ?_)⟩
    unfold isActNotComplete
    rw [show (Carry.withMax (m + m') (⟨c', s', ⟨n, m⟩⟩ : Carry α)).controller = c' from rfl, hh]
    rfl
  · have hn : n = m := by
      unfold isActNotComplete at e1
      simp only [hh, Bool.not_false, Bool.true_and, decide_eq_false_iff_not, not_lt] at e1
      exact le_antisymm (e3 hm) e1
    subst hn
    have key := steps_later n hs'
    have k1 : Carry.withMax (n + m') (⟨c1, s, ⟨n, n⟩⟩ : Carry α) =
        (⟨c1, s, ⟨0, m'⟩⟩ : Carry α).later n := by
      simp only [Carry.withMax, Carry.later, zero_add, add_comm n m']
    have k2 : (⟨c', s', ⟨n', m'⟩⟩ : Carry α).later n = ⟨c', s', ⟨n' + n, n + m'⟩⟩ := by
      simp only [Carry.later, add_comm n m']
    rw [← k1, k2] at key
    exact Layer.execute_ok_iff.2 ⟨c0, n' + n, hp, Layer.loop_withMax (by omega) hq key⟩

private theorem steps_sig {l : Layer α} {check : Bool} {init x z : Carry α} {out : Carry α}
    (hj : l.Jittable check init) (ha : l.adapter check init.rebuild = .ok out)
    (ho : out.sig = init.sig)
    (h : WhileSteps isActNotComplete (fun x => (l.adapter check x).map Carry.rebuild) x z)
    (hx : x.sig = init.sig) : z.sig = init.sig := by
  have h2 := hj init.rebuild (Carry.rebuild_sig init)
  rw [ha] at h2
  induction h with
  | stop x hc => exact hx
  | next x y z hc hs _ ih =>
    apply ih
    have h1 := hj x hx
    rw [← h2] at h1
    cases hy : l.adapter check x with
    | error e => rw [hy] at h1; cases h1
    | ok w =>
      rw [hy] at h1
      simp only [hy] at hs
      cases hs
      rw [Carry.rebuild_sig]
      exact (Except.ok.inj h1).trans ho

/-- C101: for jittable code the resumed computation also succeeds, and its results are exactly those of
the uninterrupted one. -/
theorem C101_resume_iff (l l' : Layer α) (hl : l'.runIteration = l.runIteration)
    {s0 s s' : PyTree (Leaf α)} {dep dep' : α} {m m' : Int} (hm : 0 ≤ m) (hm' : 0 ≤ m') {check : Bool}
    {c0 c c' : Controller α} (hmake0 : l.makeController s0 dep = .ok (.ctrl c0))
    (hj : l.Jittable check ⟨c0, s0, ⟨0, m⟩⟩) (h : l.ExecuteAct s0 dep m check (.ok (c, s)))
    (hmake : l'.makeController s dep' = .ok (.ctrl c))
    (hlazy : l'.setupLazyParameters c s = .ok ()) (hne : check = true → c.state.accumulators ≠ []) :
    (∃ r, l'.ExecuteAct s dep' m' check (.ok r)) ∧
      (l'.ExecuteAct s dep' m' check (.ok (c', s')) ↔
        l.ExecuteAct s0 dep (m + m') check (.ok (c', s'))) := by
  obtain ⟨c0', n, hp, hq⟩ := Layer.execute_ok_iff.1 h
  obtain rfl : c0' = c0 := by
    have := (Layer.prepare_ok hp).1
    rw [hmake0] at this
    cases this
    rfl
  have had : l'.adapter check = l.adapter check := by
    funext x
    unfold Layer.adapter Layer.wrappedRun
    rw [hl]
  obtain ⟨⟨t, out, h1, h2, h3⟩, h4⟩ := WhileLoop.ok_iff.1 hq
  have hsig : (⟨c, s, ⟨0, m'⟩⟩ : Carry α).sig = (⟨c0', s0, ⟨0, m⟩⟩ : Carry α).sig :=
    steps_sig (z := ⟨c, s, ⟨n, m⟩⟩) hj h2 (h3.trans h1.symm) h4 (Carry.rebuild_sig _)
  have hj' : l'.Jittable check ⟨c, s, ⟨0, m'⟩⟩ := by
    intro x hx
    rw [had, hj x (hx.trans hsig), hj _ hsig]
  have hex : ∃ r, l'.ExecuteAct s dep' m' check (.ok r) := by
    obtain ⟨r, hr⟩ := C20_terminates l' s dep' m' check (by
      intro d hd
      rw [hmake] at hd
      cases hd
      exact hj')
    cases r with
    | ok r => exact ⟨r, hr⟩
    | error e =>
      exfalso
      have hprep : l'.prepare check s dep' = .ok c := by
        unfold Layer.prepare Layer.wrappedMake
        cases check with
        | false => simp [hmake, hlazy]
        | true =>
          have := hne rfl
          simp [hmake, hlazy, validateMade, validateNotEmpty, this]
      have hb := hj' (Carry.rebuild ⟨c, s, ⟨0, m'⟩⟩) (Carry.rebuild_sig _)
      have hb0 := hj (Carry.rebuild ⟨c0', s0, ⟨0, m⟩⟩) (Carry.rebuild_sig _)
      rw [had, hj _ hsig, ← hb0, h2] at hb
      rcases (C20_exceptions l' s dep' m' check e).1 hr with h5 | ⟨d, h5, h6⟩
      · rw [hprep] at h5; cases h5
      · rw [hprep] at h5
        cases h5
        rcases h6 with ⟨h7, -⟩ | ⟨-, h7 | ⟨o, h7, h8, -⟩⟩
        · rw [hsig, h1] at h7; cases h7
        · rw [had] at h7; rw [h7] at hb; cases hb
        · rw [had] at h7
          rw [h7] at hb
          have : o.sig = out.sig := Except.ok.inj hb
          exact h8 (by rw [this, h3, hsig, h1])
  refine ⟨hex, C101_resume l l' hl hm hm' h hmake, fun hw => ?_⟩
  obtain ⟨⟨d, u⟩, hr⟩ := hex
  have := C20_unique l s0 dep (m + m') check _ _ hw (C101_resume l l' hl hm hm' h hmake hr)
  cases this
  exact hr

section Example
open Fixtures
attribute [local instance] Arith.exact

/-- The example layer, whose computation takes two iterations, stopped after the first, its state saved,
loaded and resumed: the result is that of the uninterrupted computation. -/
example : ∃ c s c' s', demoLayer.ExecuteAct (bare (vec [1/2, 2/3])) 1 1 true (.ok (c, s)) ∧
    ¬ AllHalted c ∧ AllHalted c' ∧
    (Layer.mk (fun _ _ => .ok (.ctrl (.load c.save))) demoLayer.runIteration
      demoLayer.setupLazyParameters).ExecuteAct s 0 1 true (.ok (c', s')) ∧
    demoLayer.ExecuteAct (bare (vec [1/2, 2/3])) 1 (1 + 1) true (.ok (c', s')) := by
  have h1 : (whileFuel isActNotComplete
      (fun x => (demoLayer.adapter true x).map Carry.rebuild) 5
      (Carry.rebuild ⟨⟨simple⟩, bare (vec [1/2, 2/3]), ⟨0, 1⟩⟩)).map
        (fun z => (z.controller.isCompletelyHalted, z.controller.state.accumulators.length)) =
      some (false, 1) := by decide +kernel
  have h2 : (whileFuel isActNotComplete
      (fun x => (demoLayer.adapter true x).map Carry.rebuild) 5
      (Carry.rebuild ⟨⟨simple⟩, bare (vec [1/2, 2/3]), ⟨0, 1 + 1⟩⟩)).map
        (fun z => z.controller.isCompletelyHalted) = some true := by decide +kernel
  obtain ⟨z, hz, hobs⟩ := Option.map_eq_some_iff.1 h1
  obtain ⟨z', hz', hobs'⟩ := Option.map_eq_some_iff.1 h2
  have hx := execute_of_fuel (demo_executes 1 true) rfl hz
  have hx' := execute_of_fuel (demo_executes (1 + 1) true) rfl hz'
  have hb : z.controller.isCompletelyHalted = false := congrArg Prod.fst hobs
  have hlen : z.controller.state.accumulators.length = 1 := congrArg Prod.snd hobs
  refine ⟨z.controller, z.state, z'.controller, z'.state, hx, ?_, isCompletelyHalted_iff.1 hobs',
    ?_, hx'⟩
  · intro h
    rw [isCompletelyHalted_iff.2 h] at hb
    cases hb
  · exact (C101_resume_iff demoLayer (Layer.mk (fun _ _ => .ok (.ctrl (.load z.controller.save)))
      demoLayer.runIteration demoLayer.setupLazyParameters) rfl (c0 := ⟨simple⟩) (by decide) (by decide) rfl
      (C50_layer_jittable _ _ _ true ⟨simple⟩ _ 1 simple_wf rfl simple_idle (vec_tensors _) demo_typed)
      hx rfl rfl (fun _ h => by rw [h] at hlen; cases hlen)).2.2 hx'

end Example
end JaxAct
