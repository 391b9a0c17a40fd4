import Verif.Props.C22

/-! # C21 Contract violations in run_iteration are reported -/

namespace JaxAct
open PyTree
variable {α : Type} [Arith α]

/-- `run_iteration` may return: a tuple of a new controller without pending updates and a pytree. -/
def KeepsContract (ret : Ret α) : Prop :=
  ∃ c t, ret = .tuple [.ctrl c, .value t] ∧ ∀ n u, c.state.updates.get? n = some u → u = .none

/-- Violations that the wrapper itself finds, with the exception it raises. -/
inductive Reported : Ret α → Err → Prop
  | list (items : List (Item α)) : Reported (.list items) .typeError
  | other : Reported .other .typeError
  | length (items : List (Item α)) : items.length ≠ 2 → Reported (.tuple items) .runtimeError
  | notController (t : PyTree (Leaf α)) (b : Item α) : Reported (.tuple [.value t, b]) .typeError
  | given (b : Item α) : Reported (.tuple [.given, b]) .runtimeError

omit [Arith α] in
theorem lengthTwo_error {items : List (Item α)} (h : items.length ≠ 2) :
    validateLengthTwo items = .error .runtimeError := by
  unfold validateLengthTwo
  split
  · simp at h
  · rfl

theorem reported_validate {c : Controller α} {ret : Ret α} {e : Err} (h : Reported ret e) :
    validateUpdate c ret = .error e := by
  cases h with
  | list => rfl
  | other => rfl
  | length items hl =>
    show (do
      let (new, _) ← validateLengthTwo items
      validateIsController new
      validateIsNovel new
      validateAllCommitted c) = _
    rw [lengthTwo_error hl]
    rfl
  | notController => rfl
  | given => rfl

/-- The exception of the first (traced) iteration is that of `execute_act`. -/
theorem execute_error_of_traced {l : Layer α} {s0 : PyTree (Leaf α)} {dep : α} {max : Int}
    {check : Bool} {c0 : Controller α} (hp : l.prepare check s0 dep = .ok c0)
    (hv : ∃ g, Carry.sig ⟨c0, s0, ⟨0, max⟩⟩ = some g) {e : Err}
    (he : l.adapter check (Carry.rebuild ⟨c0, s0, ⟨0, max⟩⟩) = .error e)
    (r : Res (Controller α × PyTree (Leaf α))) :
    l.ExecuteAct s0 dep max check r ↔ r = .error e := by
  obtain ⟨g, hg⟩ := hv
  unfold Layer.ExecuteAct WhileLoop
  rw [hp]
  simp only [hg, he]
  constructor
  · rintro ⟨q, rfl, rfl⟩; rfl
  · rintro rfl; exact ⟨_, rfl, rfl⟩

/-- C21, checks on, violations found by the wrapper: `run_iteration` returns something that is not a
tuple (`TypeError`), a tuple of a length other than two (`RuntimeError`), something else than a
controller in first place (`TypeError`), or the controller it was given (`RuntimeError`). -/
theorem C21_reported (l : Layer α) (s0 : PyTree (Leaf α)) (dep : α) (max : Int) (c0 : Controller α)
    (hp : l.prepare true s0 dep = .ok c0) (hv : ∃ g, Carry.sig ⟨c0, s0, ⟨0, max⟩⟩ = some g)
    (ret : Ret α) (hret : l.runIteration ⟨c0.state.sorted⟩ s0.canon = .ok ret) (e : Err)
    (h : Reported ret e) (r : Res (Controller α × PyTree (Leaf α))) :
    l.ExecuteAct s0 dep max true r ↔ r = .error e := by
  refine execute_error_of_traced hp hv ?_ r
  have hr : l.runIteration (Carry.rebuild ⟨c0, s0, ⟨0, max⟩⟩ : Carry α).controller
      (Carry.rebuild ⟨c0, s0, ⟨0, max⟩⟩ : Carry α).state = .ok ret := hret
  unfold Layer.adapter Layer.wrappedRun
  rw [hr]
  show (do
    let update ← (do
      validateUpdate _ ret
      pure ret)
    let items ← Ret.unpack update
    asCarry _ _ items) = _
  rw [reported_validate h]
  rfl

/-- C21, checks on: whenever the first iteration does not keep the contract, in any of these ways or by
returning a controller with uncommitted updates, `execute_act` raises. -/
theorem C21_violation_raises (l : Layer α) (s0 : PyTree (Leaf α)) (dep : α) (max : Int)
    (c0 : Controller α) (hp : l.prepare true s0 dep = .ok c0) (hu : c0.state.updates.WF)
    (ret : Ret α) (hret : l.runIteration ⟨c0.state.sorted⟩ s0.canon = .ok ret)
    (hbad : ¬ KeepsContract ret) :
    ∃ e, (e = .typeError ∨ e = .runtimeError) ∧
      ∀ r, l.ExecuteAct s0 dep max true r ↔ r = .error e := by
  by_cases hv : ∃ g, Carry.sig ⟨c0, s0, ⟨0, max⟩⟩ = some g
  swap
  · refine ⟨.typeError, .inl rfl, fun r => ?_⟩
    have hv' : Carry.sig ⟨c0, s0, ⟨0, max⟩⟩ = Option.none := by
      cases h : Carry.sig ⟨c0, s0, ⟨0, max⟩⟩ with
      | none => rfl
      | some g => exact absurd ⟨g, h⟩ hv
    unfold Layer.ExecuteAct WhileLoop
    rw [hp]
    simp only [hv']
    constructor
    · rintro ⟨q, rfl, rfl⟩; rfl
    · rintro rfl; exact ⟨_, rfl, rfl⟩
  by_cases hrep : ∃ e, Reported ret e
  · obtain ⟨e, he⟩ := hrep
    refine ⟨e, ?_, C21_reported l s0 dep max c0 hp hv ret hret e he⟩
    cases he <;> simp
  -- what is left: a tuple of a new controller and something
  obtain ⟨c', b, rfl⟩ : ∃ c' b, ret = .tuple [.ctrl c', b] := by
    cases ret with
    | list items => exact absurd ⟨_, .list items⟩ hrep
    | other => exact absurd ⟨_, .other⟩ hrep
    | tuple items =>
      by_cases hl : items.length = 2
      · match items, hl with
        | [.ctrl c', b], _ => exact ⟨c', b, rfl⟩
        | [.value t, b], _ => exact absurd ⟨_, .notController t b⟩ hrep
        | [.given, b], _ => exact absurd ⟨_, .given b⟩ hrep
      · exact absurd ⟨_, .length items hl⟩ hrep
  set x : Carry α := Carry.rebuild ⟨c0, s0, ⟨0, max⟩⟩ with hx
  have hr : l.runIteration x.controller x.state = .ok (.tuple [.ctrl c', b]) := hret
  have had : l.adapter true x = (do
      validateAllCommitted x.controller
      asCarry x.controller x.metadata.increaseCounter (.ctrl c', b)) := by
    unfold Layer.adapter Layer.wrappedRun
    rw [hr]
    have : validateUpdate x.controller (.tuple [.ctrl c', b]) = validateAllCommitted x.controller := by
      cases b <;> rfl
    show (do
      let update ← (do
        validateUpdate x.controller (.tuple [.ctrl c', b])
        pure (Ret.tuple [.ctrl c', b]))
      let items ← Ret.unpack update
      asCarry x.controller x.metadata.increaseCounter items) = _
    rw [this]
    cases validateAllCommitted x.controller <;> rfl
  cases hc : validateAllCommitted x.controller with
  | error e =>
    refine ⟨e, ?_, execute_error_of_traced hp hv (by rw [← hx, had, hc]; rfl)⟩
    unfold validateAllCommitted at hc
    split at hc
    · cases hc; simp
    · split at hc
      · cases hc; simp
      · cases hc
  | ok =>
    cases b with
    | given =>
      exact ⟨.typeError, .inl rfl, execute_error_of_traced hp hv (by rw [← hx, had, hc]; rfl)⟩
    | ctrl d =>
      exact ⟨.typeError, .inl rfl, execute_error_of_traced hp hv (by rw [← hx, had, hc]; rfl)⟩
    | value t =>
      -- the new controller has a pending update, the old one has none
      refine ⟨.typeError, .inl rfl, fun r => ?_⟩
      have had' : l.adapter true x = .ok ⟨c', t, x.metadata.increaseCounter⟩ := by
        rw [had, hc]; rfl
      obtain ⟨g, hg⟩ := hv
      have hxg : x.sig = some g := by rw [hx, Carry.rebuild_sig]; exact hg
      have hcached : x.controller.hasCachedUpdates = false := by
        unfold validateAllCommitted at hc
        split at hc
        · cases hc
        · split at hc
          · cases hc
          · rename_i h; simpa using h
      have hsw : x.controller.state.updates.WF := by
        show Dict.WF (sortKV _)
        have hk : Dict.WF (c0.state.updates.map fun kv => (kv.1, kv.2.canon)) := by
          have : Dict.keys (c0.state.updates.map fun kv => (kv.1, kv.2.canon)) =
              c0.state.updates.keys := by simp [Dict.keys, Function.comp_def]
          unfold Dict.WF; rw [this]; exact hu
        unfold Dict.WF Dict.keys at hk ⊢
        exact ((sortKV_perm _).map Prod.fst).nodup_iff.2 hk
      have hout : Carry.sig ⟨c', t, x.metadata.increaseCounter⟩ ≠ some g := by
        intro ho
        have h1 := ((Carry.sig_eq_iff hxg).1 ho).1
        simp only [RawState.types, RawState.fields, RawState.asDict, ACTStates.raw, List.map_cons,
          List.map_nil, List.cons.injEq, Dict.tree_types_eq_iff] at h1
        have h2 := ((Dict.types_eq_iff hsw).1 h1.2.2.2.2.2.2.1).2
        refine hbad ⟨c', t, rfl, fun n u hu' => ?_⟩
        obtain ⟨v, hv', hvu⟩ := optionRel_some_right (hu' ▸ h2 n)
        unfold Controller.hasCachedUpdates at hcached
        rw [Controller.any_pending hsw] at hcached
        exact hvu.none_iff.1 (PyTree.isNone_iff.1 (hcached n v hv'))
      unfold Layer.ExecuteAct WhileLoop
      rw [hp]
      simp only [hg, ← hx, had', if_neg hout]
      constructor
      · rintro ⟨q, rfl, rfl⟩; rfl
      · rintro rfl; exact ⟨_, rfl, rfl⟩

/-- C21, checks off: the wrapper passes everything through, so none of these checks runs. -/
theorem C21_off (l : Layer α) (s : PyTree (Leaf α)) (dep : α) (c : Controller α) :
    l.wrappedMake false s dep = l.makeController s dep ∧
    l.wrappedRun false c s = l.runIteration c s := by
  refine ⟨?_, ?_⟩
  · unfold Layer.wrappedMake
    cases l.makeController s dep <;> rfl
  · unfold Layer.wrappedRun
    cases l.runIteration c s <;> rfl

/-! ### What the wrapper's last check really tests -/

/-- The check for uncommitted updates is made on the controller that was passed in: it accepts every new
controller, whatever updates it has pending ... -/
theorem C21_check_misses_new_controller (c c' : Controller α) (t : PyTree (Leaf α))
    (h1 : c.hasCachedUpdates = false) (h2 : c.state.updates ≠ []) :
    validateUpdate c (.tuple [.ctrl c', .value t]) = .ok () := by
  show validateAllCommitted c = _
  unfold validateAllCommitted
  have : c.updatesReadyToCommit = false := by
    unfold Controller.updatesReadyToCommit
    unfold Controller.hasCachedUpdates at h1
    cases hu : c.state.updates with
    | nil => exact absurd hu h2
    | cons kv d =>
      rw [hu, List.any_cons, Bool.or_eq_false_iff] at h1
      rw [List.all_cons, h1.1, Bool.false_and]
  rw [this, h1]
  rfl

/-- ... and rejects every new controller if the old one has updates pending, even if the new one has
committed them. -/
theorem C21_check_blames_old_controller (c c' : Controller α) (t : PyTree (Leaf α))
    (h : c.hasCachedUpdates = true) :
    validateUpdate c (.tuple [.ctrl c', .value t]) = .error .runtimeError := by
  show validateAllCommitted c = _
  unfold validateAllCommitted
  rw [h]
  split <;> rfl

section Example
open Fixtures
attribute [local instance] Arith.exact

/-- A layer on `simple` returning `ret c s`. -/
def badLayer (ret : Controller ℚ → PyTree (Leaf ℚ) → Res (Ret ℚ)) : Layer ℚ :=
  ⟨fun _ _ => .ok (.ctrl ⟨simple⟩), ret, fun _ _ => .ok ()⟩

theorem badLayer_prepare (ret : Controller ℚ → PyTree (Leaf ℚ) → Res (Ret ℚ)) (s : PyTree (Leaf ℚ)) :
    (badLayer ret).prepare true s 1 = .ok ⟨simple⟩ :=
  prepare_ok_iff.2 ⟨rfl, by simp [simple], rfl⟩

/-- A layer that forgets to iterate: `RuntimeError` or `TypeError`, and nothing else. -/
example : ∃ e, (e = .typeError ∨ e = .runtimeError) ∧
    ∀ r, (badLayer fun c s => do
      let c' ← c.cacheUpdate "out" (bare (col 4 6))
      pure (.tuple [.ctrl c', .value s])).ExecuteAct (bare (vec [1, 2])) 1 5 true r ↔ r = .error e := by
  refine C21_violation_raises _ _ _ _ ⟨simple⟩ (badLayer_prepare _ _) simple_wf.upd_keys
    (.tuple [.ctrl ⟨{ simple.sorted with updates := [("out", bare (col 4 6))] }⟩,
      .value (bare (vec [1, 2]))]) rfl ?_
  rintro ⟨c, t, h, h'⟩
  cases h
  have := h' "out" (bare (col 4 6)) rfl
  cases this

/-- Returning the given controller: `RuntimeError`. -/
example (r : Res (Controller ℚ × PyTree (Leaf ℚ))) :
    (badLayer fun _ s => .ok (.tuple [.given, .value s])).ExecuteAct (bare (vec [1, 2])) 1 5 true r ↔
      r = .error .runtimeError :=
  C21_reported _ _ _ _ ⟨simple⟩ (badLayer_prepare _ _)
    ((C50_accepted_iff_partial simple_wf simple_idle (vec_tensors _) _).2 rfl) _ rfl _ (.given _) r

/-- The same with the checks off returns normally. -/
example : (badLayer fun _ s => .ok (.tuple [.given, .value s])).ExecuteAct (bare (vec [1, 2])) 1 0
    false (.ok (⟨simple.sorted⟩, bare (vec [1, 2]))) := by
  obtain ⟨g, hg⟩ := (C50_accepted_iff_partial simple_wf simple_idle (vec_tensors [1, 2]) ⟨0, 0⟩).2 rfl
  refine ⟨.ok ⟨⟨simple.sorted⟩, bare (vec [1, 2]), ⟨0, 0⟩⟩, WhileLoop.ok_iff.2
    ⟨⟨g, ⟨⟨simple.sorted⟩, bare (vec [1, 2]), ⟨1, 0⟩⟩, hg, rfl, ?_⟩, .stop _ ?_⟩, rfl⟩
  · rw [← hg, ← Carry.rebuild_sig]
    rfl
  · simp [isActNotComplete, Carry.rebuild]

end Example

end JaxAct
