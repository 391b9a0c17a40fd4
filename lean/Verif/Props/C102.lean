import Verif.Props.C21
import Verif.Props.C20Demo

/-! # C102 the checks of execute_act only add exceptions -/

namespace JaxAct
open PyTree
variable {α : Type} [Arith α]

omit [Arith α] in
private theorem prepare_off {l : Layer α} {s : PyTree (Leaf α)} {dep : α} {c : Controller α} :
    l.prepare false s dep = .ok c ↔
      l.makeController s dep = .ok (.ctrl c) ∧ l.setupLazyParameters c s = .ok () := by
  constructor
  · intro h
    exact ⟨(Layer.prepare_ok h).1, (Layer.prepare_ok h).2.1⟩
  · rintro ⟨h1, h2⟩
    unfold Layer.prepare Layer.wrappedMake
    simp [h1, h2]

private theorem adapter_off {l : Layer α} {x : Carry α} {y : Carry α}
    (h : l.adapter true x = .ok y) : l.adapter false x = .ok y := by
  obtain ⟨u, h1, h2⟩ := bind_ok.1 h
  obtain ⟨u', h3, h4⟩ := bind_ok.1 h1
  obtain ⟨_, -, h5⟩ := bind_ok.1 h4
  cases h5
  unfold Layer.adapter Layer.wrappedRun
  rw [h3]
  exact h2

/-- C102: what `execute_act` returns with the checks on, it returns with the checks off.  Any layer. -/
theorem C102_checks_change_nothing (l : Layer α) (s0 : PyTree (Leaf α)) (dep : α) (max : Int)
    (c : Controller α) (s : PyTree (Leaf α)) (h : l.ExecuteAct s0 dep max true (.ok (c, s))) :
    l.ExecuteAct s0 dep max false (.ok (c, s)) := by
  unfold Layer.ExecuteAct at h ⊢
  cases hp : l.prepare true s0 dep with
  | error e => rw [hp] at h; cases h
  | ok c0 =>
    rw [hp] at h
    obtain ⟨q, hq, he⟩ := h
    rw [prepare_off.2 ⟨(Layer.prepare_ok hp).1, (Layer.prepare_ok hp).2.1⟩]
    cases q with
    | error e => cases he
    | ok z =>
      refine ⟨.ok z, ?_, he⟩
      rw [WhileLoop.ok_iff] at hq ⊢
      obtain ⟨⟨t, out, h1, h2, h3⟩, h4⟩ := hq
      refine ⟨⟨t, out, h1, adapter_off h2, h3⟩, ?_⟩
      clear h2
      generalize (Carry.rebuild ⟨c0, s0, ⟨0, max⟩⟩ : Carry α) = x at h4
      induction h4 with
      | stop x hc => exact .stop x hc
      | next x y z hc hs _ ih =>
        refine .next x y _ hc ?_ (ih he)
        cases ha : l.adapter true x with
        | error e => simp only [ha] at hs; cases hs
        | ok w => simp only [ha] at hs; simp only [adapter_off ha]; exact hs

omit [Arith α] in
private theorem pending_sorted (c : Controller α) :
    (∃ kv ∈ c.state.sorted.updates, kv.2 ≠ PyTree.none) ↔ ∃ kv ∈ c.state.updates, kv.2 ≠ PyTree.none := by
  have hn : ∀ t : PyTree (Leaf α), t.canon ≠ PyTree.none ↔ t ≠ PyTree.none := by
    intro t
    cases t with
    | leaf x => simp [PyTree.canon]
    | none => simp [PyTree.canon]
    | node k cs =>
      have : (PyTree.node k cs).canon ≠ PyTree.none := by
        rw [PyTree.canon]
        unfold sortNode
        split <;> simp
      simp [this]
  have hmem : ∀ kv, kv ∈ c.state.sorted.updates ↔ kv ∈ c.state.updates.map fun kv => (kv.1, kv.2.canon) :=
    fun kv => (sortKV_perm _).mem_iff
  constructor
  · rintro ⟨kv, h1, h2⟩
    obtain ⟨x, hx, rfl⟩ := List.mem_map.1 ((hmem kv).1 h1)
    exact ⟨x, hx, (hn _).1 h2⟩
  · rintro ⟨kv, h1, h2⟩
    exact ⟨(kv.1, kv.2.canon), (hmem _).2 (List.mem_map.2 ⟨kv, h1, rfl⟩), (hn _).2 h2⟩

private theorem committed_error {c : Controller α} {e : Err}
    (h : validateAllCommitted (⟨c.state.sorted⟩ : Controller α) = .error e) :
    e = .runtimeError ∧ ((∃ kv ∈ c.state.updates, kv.2 ≠ PyTree.none) ∨ c.state.updates = []) := by
  unfold validateAllCommitted at h
  split at h
  · rename_i hr
    cases h
    refine ⟨rfl, ?_⟩
    by_cases hu : c.state.updates = []
    · exact .inr hu
    · left
      rw [← pending_sorted]
      unfold Controller.updatesReadyToCommit at hr
      rw [List.all_eq_true] at hr
      obtain ⟨kv, hkv⟩ := List.exists_mem_of_ne_nil c.state.updates hu
      have hmem : (kv.1, kv.2.canon) ∈ c.state.sorted.updates :=
        (sortKV_perm _).mem_iff.2 (List.mem_map.2 ⟨kv, hkv, rfl⟩)
      refine ⟨_, hmem, ?_⟩
      have := hr _ hmem
      intro hn
      simp only at hn
      simp [hn, PyTree.isNone] at this
  · split at h
    · rename_i hc
      cases h
      refine ⟨rfl, .inl ?_⟩
      rw [← pending_sorted]
      unfold Controller.hasCachedUpdates at hc
      obtain ⟨kv, h1, h2⟩ := List.any_eq_true.1 hc
      refine ⟨kv, h1, ?_⟩
      intro hn
      simp [hn, PyTree.isNone] at h2
    · cases h

/-- C102: if `execute_act` returns with the checks off and raises with the checks on, the reason is one
of these four: the controller has no accumulators; the first iteration returned a list instead of a
tuple, or the controller it was given; or the controller made by `make_controller` already held an
update (or its updates do not belong to its accumulators at all). -/
theorem C102_what_checks_add (l : Layer α) (s0 : PyTree (Leaf α)) (dep : α) (max : Int)
    (c : Controller α) (s : PyTree (Leaf α)) (h : l.ExecuteAct s0 dep max false (.ok (c, s))) (e : Err)
    (he : l.ExecuteAct s0 dep max true (.error e)) :
    ∃ c0, l.makeController s0 dep = .ok (.ctrl c0) ∧
      (c0.state.accumulators = [] ∧ e = .runtimeError ∨
      (∃ a t, l.runIteration ⟨c0.state.sorted⟩ s0.canon = .ok (.list [a, .value t])) ∧
        e = .typeError ∨
      (∃ t, l.runIteration ⟨c0.state.sorted⟩ s0.canon = .ok (.tuple [.given, .value t])) ∧
        e = .runtimeError ∨
      ((∃ kv ∈ c0.state.updates, kv.2 ≠ PyTree.none) ∨ c0.state.updates = []) ∧ e = .runtimeError) := by
  unfold Layer.ExecuteAct at h
  cases hp : l.prepare false s0 dep with
  | error e' => rw [hp] at h; cases h
  | ok c0 =>
    rw [hp] at h
    obtain ⟨q, hq, hqe⟩ := h
    cases q with
    | error e' => cases hqe
    | ok z =>
      obtain ⟨hmake, hlazy⟩ := prepare_off.1 hp
      refine ⟨c0, hmake, ?_⟩
      obtain ⟨⟨t, out, h1, h2, h3⟩, h4⟩ := WhileLoop.ok_iff.1 hq
      by_cases hacc : c0.state.accumulators = []
      · left
        refine ⟨hacc, ?_⟩
        have := (C22_no_accumulators l s0 dep max c0 hmake hacc (.error e)).1 he
        cases this
        rfl
      · right
        have hprep : l.prepare true s0 dep = .ok c0 := by
          unfold Layer.prepare Layer.wrappedMake
          simp [hmake, hlazy, validateMade, validateNotEmpty, hacc]
        -- what the traced iteration returned
        obtain ⟨u, h5, h6⟩ := bind_ok.1 h2
        have h5' : l.runIteration ⟨c0.state.sorted⟩ s0.canon = .ok u := by
          obtain ⟨u', h7, h8⟩ := bind_ok.1 h5
          cases h8
          exact h7
        obtain ⟨p, h7, h8⟩ := bind_ok.1 h6
        have hadapt : l.adapter true (Carry.rebuild ⟨c0, s0, ⟨0, max⟩⟩) =
            (validateUpdate (⟨c0.state.sorted⟩ : Controller α) u).bind fun _ => .ok out := by
          unfold Layer.adapter Layer.wrappedRun
          show (l.runIteration ⟨c0.state.sorted⟩ s0.canon >>= _) >>= _ = _
          rw [h5']
          simp only [ok_bind, if_true]
          rw [show (Carry.rebuild ⟨c0, s0, ⟨0, max⟩⟩ : Carry α).controller = ⟨c0.state.sorted⟩ from rfl]
          cases validateUpdate (⟨c0.state.sorted⟩ : Controller α) u with
          | error e => rfl
          | ok _ => exact h6
        have hval : validateUpdate (⟨c0.state.sorted⟩ : Controller α) u = .error e := by
          rcases (C20_exceptions l s0 dep max true e).1 he with h9 | ⟨c1, h9, h10⟩
          · rw [hprep] at h9; cases h9
          · rw [hprep] at h9
            cases h9
            simp only [hadapt] at h10
            cases hv : validateUpdate (⟨c0.state.sorted⟩ : Controller α) u with
            | ok _ =>
              rw [hv] at h10
              rcases h10 with ⟨h11, -⟩ | ⟨-, h11 | ⟨o, h11, h12, -⟩⟩
              · rw [h1] at h11; cases h11
              · cases h11
              · cases h11
                exact absurd (h3.trans h1.symm) h12
            | error e' =>
              rw [hv] at h10
              rcases h10 with ⟨h11, -⟩ | ⟨-, h11 | ⟨o, h11, -, -⟩⟩
              · rw [h1] at h11; cases h11
              · cases h11; rfl
              · cases h11
        -- the second component is a pytree
        obtain ⟨a, b⟩ := p
        obtain ⟨t', rfl⟩ : ∃ t', b = Item.value t' := by
          cases a <;> cases b <;> first | exact ⟨_, rfl⟩ | cases h8
        cases u with
        | other => cases h7
        | list items =>
          left
          obtain ⟨rfl⟩ : items = [a, .value t'] := by
            unfold Ret.unpack at h7
            split at h7 <;> simp_all [raise]
          exact ⟨⟨a, t', h5'⟩, by cases hval; rfl⟩
        | tuple items =>
          right
          obtain ⟨rfl⟩ : items = [a, .value t'] := by
            unfold Ret.unpack at h7
            split at h7 <;> simp_all [raise]
          cases a with
          | given => left; exact ⟨⟨t', h5'⟩, by cases hval; rfl⟩
          | value t => cases h8
          | ctrl c' =>
            right
            have := committed_error (c := c0) (e := e) hval
            exact ⟨this.2, this.1⟩

/-- C102: conversely each of these makes `execute_act` raise with the checks on. -/
theorem C102_raises_iff (l : Layer α) (s0 : PyTree (Leaf α)) (dep : α) (max : Int)
    (c : Controller α) (s : PyTree (Leaf α)) (h : l.ExecuteAct s0 dep max false (.ok (c, s))) :
    (∃ e, l.ExecuteAct s0 dep max true (.error e)) ↔
    ∃ c0, l.makeController s0 dep = .ok (.ctrl c0) ∧
      (c0.state.accumulators = [] ∨
      (∃ a t, l.runIteration ⟨c0.state.sorted⟩ s0.canon = .ok (.list [a, .value t])) ∨
      (∃ t, l.runIteration ⟨c0.state.sorted⟩ s0.canon = .ok (.tuple [.given, .value t])) ∨
      (∃ kv ∈ c0.state.updates, kv.2 ≠ PyTree.none) ∨ c0.state.updates = []) := by
  constructor
  · rintro ⟨e, he⟩
    obtain ⟨c0, h1, h2⟩ := C102_what_checks_add l s0 dep max c s h e he
    refine ⟨c0, h1, ?_⟩
    rcases h2 with h2 | h2 | h2 | h2
    · exact .inl h2.1
    · exact .inr (.inl h2.1)
    · exact .inr (.inr (.inl h2.1))
    · exact .inr (.inr (.inr h2.1))
  · rintro ⟨c0, hmake, h2⟩
    by_cases hacc : c0.state.accumulators = []
    · exact ⟨_, (C22_no_accumulators l s0 dep max c0 hmake hacc _).2 rfl⟩
    have h' := h
    unfold Layer.ExecuteAct at h'
    cases hp : l.prepare false s0 dep with
    | error e' => rw [hp] at h'; cases h'
    | ok c1 =>
      obtain ⟨hm1, hlazy⟩ := prepare_off.1 hp
      rw [hmake] at hm1
      cases hm1
      rw [hp] at h'
      obtain ⟨q, hq, hqe⟩ := h'
      cases q with
      | error e' => cases hqe
      | ok z =>
        obtain ⟨⟨t, out, h4, h5, -⟩, -⟩ := WhileLoop.ok_iff.1 hq
        have hprep : l.prepare true s0 dep = .ok c0 := by
          unfold Layer.prepare Layer.wrappedMake
          simp [hmake, hlazy, validateMade, validateNotEmpty, hacc]
        obtain ⟨u, h6, h7⟩ := bind_ok.1 h5
        have hret : l.runIteration ⟨c0.state.sorted⟩ s0.canon = .ok u := by
          obtain ⟨u', h8, h9⟩ := bind_ok.1 h6
          cases h9
          exact h8
        -- every violation is found when the first iteration is traced
        obtain ⟨e, he⟩ : ∃ e, validateUpdate (⟨c0.state.sorted⟩ : Controller α) u = .error e := by
          have hpend : ((∃ kv ∈ c0.state.updates, kv.2 ≠ PyTree.none) ∨ c0.state.updates = []) →
              validateAllCommitted (⟨c0.state.sorted⟩ : Controller α) = .error .runtimeError := by
            intro hx
            rw [← pending_sorted] at hx
            unfold validateAllCommitted
            rcases hx with ⟨kv, hk, hn⟩ | hx
            · have : (⟨c0.state.sorted⟩ : Controller α).hasCachedUpdates = true := by
                unfold Controller.hasCachedUpdates
                refine List.any_eq_true.2 ⟨kv, hk, ?_⟩
                cases hkv : kv.2 with
                | none => exact absurd hkv hn
                | leaf => rfl
                | node => rfl
              rw [this]
              split <;> rfl
            · have : (⟨c0.state.sorted⟩ : Controller α).updatesReadyToCommit = true := by
                unfold Controller.updatesReadyToCommit
                have : c0.state.sorted.updates = [] := by
                  show sortKV (c0.state.updates.map fun kv => (kv.1, kv.2.canon)) = []
                  rw [hx]
                  rfl
                show c0.state.sorted.updates.all _ = true
                rw [this]
                rfl
              rw [this]
              rfl
          have hall : validateAllCommitted (⟨c0.state.sorted⟩ : Controller α) = .error .runtimeError →
              ∃ e, validateUpdate (⟨c0.state.sorted⟩ : Controller α) u = .error e := by
            intro hv
            unfold validateUpdate
            cases validateIsTuple u with
            | error e => exact ⟨e, rfl⟩
            | ok items =>
              simp only [ok_bind]
              cases validateLengthTwo items with
              | error e => exact ⟨e, rfl⟩
              | ok p =>
                simp only [ok_bind]
                cases validateIsController p.1 with
                | error e => exact ⟨e, rfl⟩
                | ok _ =>
                  simp only [ok_bind]
                  cases validateIsNovel p.1 with
                  | error e => exact ⟨e, rfl⟩
                  | ok _ => exact ⟨_, hv⟩
          rcases h2 with h2 | ⟨a, b, h2⟩ | ⟨b, h2⟩ | h2
          · exact absurd h2 hacc
          · rw [h2] at hret
            cases hret
            exact ⟨_, reported_validate (.list _)⟩
          · rw [h2] at hret
            cases hret
            exact ⟨_, reported_validate (.given _)⟩
          · exact hall (hpend h2)
        refine ⟨e, (execute_error_of_traced hprep ⟨t, h4⟩ ?_ _).2 rfl⟩
        unfold Layer.adapter Layer.wrappedRun
        show (l.runIteration ⟨c0.state.sorted⟩ s0.canon >>= _) >>= _ = _
        rw [hret]
        simp only [ok_bind, if_true]
        rw [show (Carry.rebuild ⟨c0, s0, ⟨0, max⟩⟩ : Carry α).controller = ⟨c0.state.sorted⟩ from rfl, he]
        rfl

section Example
open Fixtures
attribute [local instance] Arith.exact

/-- The example layer runs with the checks on, so with the same result with the checks off. -/
example : ∃ c s, demoLayer.ExecuteAct (bare (vec [1/2, 2/3])) 1 5 true (.ok (c, s)) ∧
    demoLayer.ExecuteAct (bare (vec [1/2, 2/3])) 1 5 false (.ok (c, s)) := by
  obtain ⟨c, s, h⟩ := demo_executes 5 true
  exact ⟨c, s, h, C102_checks_change_nothing _ _ _ _ _ _ h⟩

/-- The example layer, but it returns a list. -/
def listLayer : Layer ℚ where
  makeController := demoLayer.makeController
  runIteration c s := do
    let c' ← run c (demoRound s).ops
    pure (Ret.list [.ctrl c', .value s])
  setupLazyParameters := demoLayer.setupLazyParameters

/-- It runs with the checks off and raises with the checks on. -/
example : (∃ c s, listLayer.ExecuteAct (bare (vec [1/2, 2/3])) 1 5 false (.ok (c, s))) ∧
    ∃ e, listLayer.ExecuteAct (bare (vec [1/2, 2/3])) 1 5 true (.error e) := by
  have ha : listLayer.adapter false = demoLayer.adapter false := by
    funext x
    unfold Layer.adapter Layer.wrappedRun
    simp only [listLayer, demoLayer, callLayer, id]
    cases run x.controller (demoRound x.state).ops <;> rfl
  obtain ⟨c, s, h⟩ := demo_executes 5 false
  have h' : listLayer.ExecuteAct (bare (vec [1/2, 2/3])) 1 5 false (.ok (c, s)) := by
    unfold Layer.ExecuteAct at h ⊢
    rw [ha]
    exact h
  refine ⟨⟨c, s, h'⟩, (C102_raises_iff _ _ _ _ _ _ h').2 ⟨⟨simple⟩, rfl, .inr (.inl ?_)⟩⟩
  have hok : succeeds (run (⟨simple.sorted⟩ : Controller ℚ)
      (demoRound (bare (vec [1/2, 2/3])).canon).ops) = true := by decide +kernel
  cases hr : run (⟨simple.sorted⟩ : Controller ℚ) (demoRound (bare (vec [1/2, 2/3])).canon).ops with
  | error e => rw [hr] at hok; cases hok
  | ok c1 =>
    refine ⟨.ctrl c1, (bare (vec [1/2, 2/3])).canon, ?_⟩
    show (do
      let c' ← run (⟨simple.sorted⟩ : Controller ℚ) (demoRound (bare (vec [1/2, 2/3])).canon).ops
      pure (.list [.ctrl c', .value (bare (vec [1/2, 2/3])).canon]) : Res (Ret ℚ)) = _
    rw [hr]
    rfl

end Example
end JaxAct
