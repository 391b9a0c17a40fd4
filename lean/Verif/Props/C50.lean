import Verif.Lemmas.Rounds
import Verif.Lemmas.Sig
import Verif.Props.C12
import Verif.Props.C20
import Verif.Props.C53

/-! # C50 A jitted ACT loop accepts the controller -/

namespace JaxAct
open PyTree
variable {α : Type}

theorem wf_all_tensors {s : ACTStates α} (hwf : s.WF) :
    (∀ kv ∈ s.accumulators, AllTensors kv.2) ∧ ∀ kv ∈ s.defaults, AllTensors kv.2 := by
  refine ⟨?_, ?_⟩
  · rintro ⟨n, t⟩ hm l hl
    obtain ⟨a, ha, -⟩ := hwf.batched n t (Dict.get?_of_mem hwf.acc_keys hm) l hl
    exact ⟨a, ha⟩
  · rintro ⟨n, u⟩ hm l hl
    have hu := Dict.get?_of_mem hwf.def_keys hm
    obtain ⟨t, ht⟩ := Dict.mem_keys_iff.1 ((hwf.def_iff n).1 (Dict.mem_keys_iff.2 ⟨u, hu⟩))
    obtain ⟨k, hk, he⟩ := List.mem_iff_getElem.1 hl
    have hs := (hwf.same n t u ht hu).2
    obtain ⟨a, b, -, hb, -⟩ := (List.forall₂_iff_get.1 hs).2 k (hs.length_eq ▸ hk) hk
    exact ⟨b, by rw [← he]; exact hb⟩

/-- C50, leaves: `while_loop` accepts a well-formed controller without pending updates, with a user
state of arrays, exactly if its `error_mode` is `None`. -/
theorem C50_accepted_iff_partial {c : Controller α} (hwf : c.state.WF)
    (hidle : ∀ n u, c.state.updates.get? n = some u → u = .none) {s : PyTree (Leaf α)}
    (hs : AllTensors s) (m : ACTMetaData) :
    (∃ g, Carry.sig ⟨c, s, m⟩ = some g) ↔ c.state.error_mode = Option.none := by
  rw [Carry.sig_some_iff]
  refine ⟨fun h => h.1, fun h => ⟨h, (wf_all_tensors hwf).2, (wf_all_tensors hwf).1, ?_, hs⟩⟩
  rintro ⟨n, u⟩ hm l hl
  have hu := hidle n u (Dict.get?_of_mem hwf.upd_keys hm)
  simp only at hl
  rw [hu] at hl
  cases hl

variable [Arith α]

/-- C50 is false of a controller with a string `error_mode`: every loop with it raises `TypeError`,
whatever the layer does. -/
theorem C50_string_error_mode (l : Layer α) (s0 : PyTree (Leaf α)) (dep : α) (max : Int)
    (check : Bool) (c0 : Controller α) (mode : String) (hc : l.prepare check s0 dep = .ok c0)
    (hmode : c0.state.error_mode = some mode) (r : Res (Controller α × PyTree (Leaf α))) :
    l.ExecuteAct s0 dep max check r ↔ r = .error .typeError := by
  have hsig : Carry.sig ⟨c0, s0, ⟨0, max⟩⟩ = Option.none := by
    by_contra h
    obtain ⟨g, hg⟩ := Option.ne_none_iff_exists'.1 h
    have := (Carry.sig_some_iff.1 ⟨g, hg⟩).1
    simp only [hmode] at this
    cases this
  unfold Layer.ExecuteAct WhileLoop
  rw [hc]
  simp only [hsig]
  constructor
  · rintro ⟨q, rfl, rfl⟩; rfl
  · rintro rfl; exact ⟨_, rfl, rfl⟩

/-- A round leaves a controller without pending updates with all its types. -/
theorem round_types {c c' : Controller α} (hwf : c.state.WF)
    (hidle : ∀ n u, c.state.updates.get? n = some u → u = .none) (r : Round α)
    (hr : run c r.ops = .ok c') : StatesAlike c.state c'.state ∧ c'.state.WF := by
  refine ⟨?_, run_wf (s := c.state) hwf hr⟩
  unfold Round.ops at hr
  rw [run_append, bind_ok] at hr
  obtain ⟨⟨s1⟩, h1, h2⟩ := hr
  obtain ⟨f1, ⟨U, f2⟩, -⟩ := caches_ok (s := c.state) _ hwf h1
  have hk : ∀ (us : List (String × PyTree (Leaf α))) (s s' : ACTStates α),
      run ⟨s⟩ (us.map fun nu => Op.cache nu.1 nu.2) = .ok ⟨s'⟩ →
      ∀ n, n ∈ s'.updates.keys ↔ n ∈ s.updates.keys := by
    intro us
    induction us with
    | nil => intro s s' h n; cases h; rfl
    | cons u us ih =>
      intro s s' h n
      simp only [List.map_cons, run, bind_ok, Op.call] at h
      obtain ⟨⟨s2⟩, g1, g2⟩ := h
      have := ((C10_cache_success (⟨s⟩ : Controller α) u.1 u.2).2 _ g1).2.1
      rw [ih s2 s' g2 n]
      simp only at this
      rw [this]
  have hk := hk r.updates c.state s1 h1
  have h3 : Controller.iterateAct ⟨s1⟩ r.halting = .ok c' := by
    simp only [run, Op.call, bind_ok] at h2
    obtain ⟨c2, g1, g2⟩ := h2
    cases g2
    exact g1
  refine StatesAlike.trans ?_ (iterate_types f1 h3)
  have f2 : s1 = { c.state with updates := U } := f2
  subst f2
  refine ⟨⟨rfl, rfl⟩, ⟨rfl, rfl⟩, ⟨rfl, rfl⟩, .refl _, .refl _, fun n => ?_, rfl⟩
  simp only [Dict.get?_map_none]
  have hk := hk n
  rw [Dict.mem_keys_iff, Dict.mem_keys_iff] at hk
  simp only at hk
  cases hu : c.state.updates.get? n with
  | none =>
    cases hU : U.get? n with
    | none => exact .none
    | some v =>
      obtain ⟨u, hu'⟩ := hk.1 ⟨v, hU⟩
      rw [hu] at hu'; cases hu'
  | some u =>
    obtain ⟨v, hv⟩ := hk.2 ⟨u, hu⟩
    rw [hv, hidle n u hu]
    exact .some .none

/-- C50, types: a complete round (cache every update, iterate) preserves the tree structure and leaf
types of the carry, if the user's state keeps its types. -/
theorem C50_round_preserves {c c' : Controller α} (hwf : c.state.WF)
    (hidle : ∀ n u, c.state.updates.get? n = some u → u = .none) (r : Round α)
    (hr : run c r.ops = .ok c') {s s' : PyTree (Leaf α)} (hs : TreesAlike s s') (m m' : ACTMetaData)
    {g : CarrySig} (hg : Carry.sig ⟨c, s, m⟩ = some g) : Carry.sig ⟨c', s', m'⟩ = some g := by
  obtain ⟨h1, h2⟩ := round_types hwf hidle r hr
  exact Carry.sig_of_alike (x := ⟨c, s, m⟩) hg hwf h2 h1 hs

/-! ### Whole layers -/

omit [Arith α] in
theorem sig_congr {x y : Carry α} (hwf : x.controller.state.WF) (hwf' : y.controller.state.WF)
    (hs : StatesAlike x.controller.state y.controller.state) (ht : TreesAlike x.state y.state) :
    x.sig = y.sig := by
  cases hx : x.sig with
  | some g => exact (Carry.sig_of_alike hx hwf hwf' hs ht).symm
  | none =>
    cases hy : y.sig with
    | none => rfl
    | some g => rw [Carry.sig_of_alike hy hwf' hwf hs.symm ht.symm] at hx; cases hx

omit [Arith α] in
theorem pending_alike {c c' : Controller α} (hwf : c.state.WF) (hwf' : c'.state.WF)
    (h : StatesAlike c.state c'.state) :
    c.hasCachedUpdates = c'.hasCachedUpdates ∧ c.updatesReadyToCommit = c'.updatesReadyToCommit := by
  have e1 : ∀ {c : Controller α}, c.state.WF → (c.hasCachedUpdates = false ↔
      ∀ n u, c.state.updates.get? n = some u → u = .none) := by
    intro c hwf
    unfold Controller.hasCachedUpdates
    rw [Controller.any_pending hwf.upd_keys]
    simp only [PyTree.isNone_iff]
  have e2 : ∀ {c : Controller α}, c.state.WF → (c.updatesReadyToCommit = true ↔
      ∀ n u, c.state.updates.get? n = some u → u ≠ .none) := by
    intro c hwf
    unfold Controller.updatesReadyToCommit
    rw [List.all_eq_true]
    constructor
    · intro h n u hu
      have := h _ (Dict.mem_of_get? hu)
      simp only [Bool.not_eq_true', isNone_false_iff] at this
      exact this
    · rintro h ⟨n, u⟩ hm
      simp only [Bool.not_eq_true', isNone_false_iff]
      exact h n u (Dict.get?_of_mem hwf.upd_keys hm)
  have tr : ∀ {c c' : Controller α}, StatesAlike c.state c'.state → ∀ {P : Prop → Prop},
      (∀ n u, c.state.updates.get? n = some u → P (u = .none)) →
      ∀ n u, c'.state.updates.get? n = some u → P (u = .none) := by
    intro c c' h P hp n u' hu'
    obtain ⟨u, hu, huu⟩ := optionRel_some_right (hu' ▸ h.updates n)
    have := hp n u hu
    rwa [huu.none_iff] at this
  refine ⟨?_, ?_⟩
  · rw [Bool.eq_iff_iff, ← not_iff_not, Bool.not_eq_true, Bool.not_eq_true, e1 hwf, e1 hwf']
    exact ⟨tr h (P := id), tr h.symm (P := id)⟩
  · rw [Bool.eq_iff_iff, e2 hwf, e2 hwf']
    exact ⟨tr h (P := Not), tr h.symm (P := Not)⟩

/-- One iteration of such a layer. -/
theorem callLayer_adapter (make : PyTree (Leaf α) → α → Res (Made α))
    (calls : PyTree (Leaf α) → List (Op α)) (next : PyTree (Leaf α) → PyTree (Leaf α)) (check : Bool)
    (x : Carry α) : (callLayer make calls next).adapter check x =
      (do
        let c' ← run x.controller (calls x.state)
        if check then validateAllCommitted x.controller
        pure (Carry.mk c' (next x.state) x.metadata.increaseCounter) : Res (Carry α)) := by
  have hrun : (callLayer make calls next).runIteration x.controller x.state = (do
      let c' ← run x.controller (calls x.state)
      pure (.tuple [.ctrl c', .value (next x.state)])) := rfl
  unfold Layer.adapter Layer.wrappedRun
  rw [hrun]
  cases hr : run x.controller (calls x.state) with
  | error e => rfl
  | ok c' =>
    cases check with
    | false => rfl
    | true =>
      show (do
        let update ← (do
          validateUpdate x.controller (.tuple [.ctrl c', .value (next x.state)])
          pure (Ret.tuple [Item.ctrl c', .value (next x.state)]))
        let items ← update.unpack
        asCarry x.controller x.metadata.increaseCounter items) = (do
          validateAllCommitted x.controller
          pure ⟨c', next x.state, x.metadata.increaseCounter⟩)
      have : validateUpdate x.controller (.tuple [.ctrl c', .value (next x.state)]) =
          validateAllCommitted x.controller := rfl
      rw [this]
      cases validateAllCommitted x.controller with
      | error e => rfl
      | ok => rfl

/-- C50: a layer made of controller calls is jittable, for a well-formed controller. -/
theorem C50_layer_jittable (make : PyTree (Leaf α) → α → Res (Made α))
    (calls : PyTree (Leaf α) → List (Op α)) (next : PyTree (Leaf α) → PyTree (Leaf α))
    (check : Bool) (c0 : Controller α) (s0 : PyTree (Leaf α)) (max : Int) (hwf : c0.state.WF)
    (hmode : c0.state.error_mode = Option.none)
    (hidle : ∀ n u, c0.state.updates.get? n = some u → u = .none) (hs : AllTensors s0)
    (ht : TypedCalls calls next s0) :
    (callLayer make calls next).Jittable check ⟨c0, s0, ⟨0, max⟩⟩ := by
  obtain ⟨g, hg⟩ := (C50_accepted_iff_partial hwf hidle hs ⟨0, max⟩).2 hmode
  intro x hx
  rw [hg] at hx
  obtain ⟨h1, h2, h3⟩ := Carry.alike_of_sig hg hx hwf
  simp only at h1 h3
  rw [callLayer_adapter, callLayer_adapter]
  have hrun := C53_values_do_not_matter hwf h2 h1 (ht.calls _ h3)
  have hv : validateAllCommitted c0 = validateAllCommitted x.controller := by
    obtain ⟨a1, a2⟩ := pending_alike hwf h2 h1
    unfold validateAllCommitted
    rw [a1, a2]
  have e1 : (⟨c0.state⟩ : Controller α) = c0 := rfl
  have e2 : (⟨x.controller.state⟩ : Controller α) = x.controller := rfl
  rw [e1, e2] at hrun
  simp only [← hv]
  cases hr : run c0 (calls s0) with
  | error e =>
    cases hr' : run x.controller (calls x.state) with
    | ok c' => rw [hr, hr'] at hrun; cases hrun
    | error e' => rw [hr, hr'] at hrun; cases hrun; rfl
  | ok c =>
    cases hr' : run x.controller (calls x.state) with
    | error e' => rw [hr, hr'] at hrun; cases hrun
    | ok c' =>
      rw [hr, hr'] at hrun
      cases hrun with
      | ok hcc =>
        have w1 : c.state.WF := run_wf (s := c0.state) hwf hr
        have w2 : c'.state.WF := run_wf (s := x.controller.state) h2 hr'
        have hsig := sig_congr (x := ⟨c, next s0, (⟨0, max⟩ : ACTMetaData).increaseCounter⟩)
          (y := ⟨c', next x.state, x.metadata.increaseCounter⟩) w1 w2 hcc
          ((ht.next s0 (.refl _)).symm.trans (ht.next _ h3))
        cases check with
        | false => exact congrArg Except.ok hsig.symm
        | true =>
          show Except.map Carry.sig (do
              validateAllCommitted c0
              pure ⟨c', next x.state, x.metadata.increaseCounter⟩) =
            Except.map Carry.sig (do
              validateAllCommitted c0
              pure ⟨c, next s0, (⟨0, max⟩ : ACTMetaData).increaseCounter⟩)
          cases validateAllCommitted c0 with
          | error e => rfl
          | ok => exact congrArg Except.ok hsig.symm

/-- C50: `execute_act` succeeds for such a layer with any maximal number of iterations, with or without
checks, as soon as one round from the initial controller and state does. -/
theorem C50_execute_act_succeeds (make : PyTree (Leaf α) → α → Res (Made α))
    (rounds : PyTree (Leaf α) → Round α) (next : PyTree (Leaf α) → PyTree (Leaf α))
    (check : Bool) (c0 c1 : Controller α) (s0 : PyTree (Leaf α)) (dep : α) (max : Int)
    (hmake : make s0 dep = .ok (.ctrl c0)) (hwf : c0.state.WF)
    (hmode : c0.state.error_mode = Option.none) (hne : c0.state.accumulators ≠ [])
    (hidle : ∀ n u, c0.state.updates.get? n = some u → u = .none) (hs : AllTensors s0)
    (ht : TypedCalls (fun s => (rounds s).ops) next s0) (hround : run c0 (rounds s0).ops = .ok c1) :
    ∃ c s, (callLayer make (fun s => (rounds s).ops) next).ExecuteAct s0 dep max check (.ok (c, s)) := by
  set l := callLayer make (fun s => (rounds s).ops) next with hl
  have hprep : l.prepare check s0 dep = .ok c0 := by
    unfold Layer.prepare Layer.wrappedMake
    have : l.makeController s0 dep = .ok (.ctrl c0) := hmake
    rw [this]
    cases check with
    | false => rfl
    | true =>
      show (do
        let made ← (do
          validateNotEmpty c0
          pure (Made.ctrl c0))
        match made with
        | .ctrl c => do
          l.setupLazyParameters c s0
          pure c
        | .other => raise .attributeError) = _
      have hv : validateNotEmpty c0 = .ok () := by
        unfold validateNotEmpty
        rw [if_neg (by simpa using hne)]
      rw [hv]
      rfl
  have hjit := C50_layer_jittable make (fun s => (rounds s).ops) next check c0 s0 max hwf hmode hidle
    hs ht
  obtain ⟨r, hr⟩ := C20_terminates l s0 dep max check (fun c hc => by
    have : make s0 dep = .ok (.ctrl c) := hc
    rw [hmake] at this
    cases this
    exact hjit)
  cases r with
  | ok cs => exact ⟨cs.1, cs.2, hr⟩
  | error e =>
    exfalso
    unfold Layer.ExecuteAct at hr
    rw [hprep] at hr
    obtain ⟨q, hq, hqe⟩ := hr
    have hqe' : q = .error e := by
      cases q with
      | ok z => cases hqe
      | error e' => cases hqe; rfl
    subst hqe'
    obtain ⟨g, hg⟩ := (C50_accepted_iff_partial hwf hidle hs ⟨0, max⟩).2 hmode
    obtain ⟨h1, h2⟩ := round_types hwf hidle _ hround
    -- the traced iteration
    have hcommit : validateAllCommitted c0 = .ok () := by
      have hcached : c0.hasCachedUpdates = false := by
        unfold Controller.hasCachedUpdates
        rw [Controller.any_pending hwf.upd_keys]
        intro n u hu
        rw [hidle n u hu]; rfl
      have hready : c0.updatesReadyToCommit = false := by
        cases hacc : c0.state.accumulators with
        | nil => exact absurd hacc hne
        | cons kv d =>
          have hk : kv.1 ∈ c0.state.updates.keys := by
            rw [hwf.upd_iff, hacc]; exact List.mem_cons_self
          obtain ⟨u, hu⟩ := Dict.mem_keys_iff.1 hk
          unfold Controller.updatesReadyToCommit
          rw [List.all_eq_false]
          refine ⟨(kv.1, u), Dict.mem_of_get? hu, ?_⟩
          simp [hidle _ _ hu, PyTree.isNone]
      unfold validateAllCommitted
      rw [hcached, hready]
      rfl
    have hinit : l.adapter check ⟨c0, s0, ⟨0, max⟩⟩ = .ok ⟨c1, next s0, ⟨1, max⟩⟩ := by
      rw [hl, callLayer_adapter]
      simp only [hround]
      cases check with
      | false => rfl
      | true =>
        show (do
          validateAllCommitted c0
          pure (⟨c1, next s0, _⟩ : Carry α)) = _
        rw [hcommit]
        rfl
    have hout : Carry.sig ⟨c1, next s0, ⟨1, max⟩⟩ = some g :=
      Carry.sig_of_alike (x := ⟨c0, s0, ⟨0, max⟩⟩) hg hwf h2 h1 (ht.next s0 (.refl _))
    have htr := hjit (Carry.rebuild ⟨c0, s0, ⟨0, max⟩⟩) (Carry.rebuild_sig _)
    rw [hinit] at htr
    rcases WhileLoop.error_iff.1 hq with ⟨h, -⟩ | ⟨t, h3, h4 | ⟨out, h4, h5, -⟩⟩
    · rw [hg] at h; cases h
    · rw [h4] at htr; cases htr
    · rw [h4] at htr
      have : out.sig = Carry.sig ⟨c1, next s0, ⟨1, max⟩⟩ := Except.ok.inj htr
      rw [this, hout] at h5
      rw [hg] at h3
      exact h5 h3

section Example
open Fixtures
attribute [local instance] Arith.exact

/-- A round whose halting probabilities are the user state. -/
def demoRound : PyTree (Leaf ℚ) → Round ℚ
  | .leaf (.tensor t) => ⟨[("out", bare (col 4 6))], t⟩
  | _ => ⟨[], vec []⟩

/-- A layer that starts from `simple` and uses it. -/
def demoLayer : Layer ℚ :=
  callLayer (fun _ _ => .ok (.ctrl ⟨simple⟩)) (fun s => (demoRound s).ops) id

theorem demo_typed : TypedCalls (fun s => (demoRound s).ops) id (bare (vec [1/2, 2/3])) := by
  refine ⟨fun s hs => ?_, fun s hs => hs⟩
  obtain ⟨l, rfl⟩ := hs.leaf_iff.1 ⟨_, rfl⟩
  have h2 := hs.2
  simp only [bare, treeLeaves, PyTree.canon, leaves, List.map_cons, List.map_nil, List.cons.injEq,
    and_true] at h2
  obtain ⟨t, rfl, h3, h4⟩ := Leaf.type_some.1 h2.symm
  exact .cons (.cache _ (.refl _)) (.cons (.iterate ⟨h3.symm, h4.symm⟩) .nil)

theorem simple_idle : ∀ n u, simple.updates.get? n = some u → u = .none := by
  intro n u h
  exact (get?_one h).2

theorem vec_tensors (xs : List ℚ) : AllTensors (bare (vec xs)) := by
  intro l hl
  exact ⟨vec xs, List.mem_singleton.1 hl⟩

/-- `execute_act` succeeds for it, whatever the maximal number of iterations. -/
theorem demo_executes (max : Int) (check : Bool) :
    ∃ c s, demoLayer.ExecuteAct (bare (vec [1/2, 2/3])) 1 max check (.ok (c, s)) := by
  have hok : succeeds (run ⟨simple⟩ (demoRound (bare (vec [1/2, 2/3]))).ops) = true := by
    decide +kernel
  cases hr : run ⟨simple⟩ (demoRound (bare (vec [1/2, 2/3]))).ops with
  | error e => rw [hr] at hok; cases hok
  | ok c1 =>
    exact C50_execute_act_succeeds _ demoRound id check ⟨simple⟩ c1 _ 1 max rfl simple_wf rfl
      (by simp [simple]) simple_idle (vec_tensors _) demo_typed hr

/-- And raises `TypeError` if the controller has an error mode. -/
example (max : Int) (check : Bool) : (callLayer (fun _ _ => .ok (.ctrl
    ⟨{ simple with error_mode := some "standard" }⟩)) (fun s => (demoRound s).ops) id).ExecuteAct
      (bare (vec [1/2, 2/3])) 1 max check (.error .typeError) :=
  (C50_string_error_mode _ _ _ _ _ ⟨{ simple with error_mode := some "standard" }⟩ "standard"
    (by cases check <;> rfl) rfl _).2 rfl

end Example

end JaxAct
