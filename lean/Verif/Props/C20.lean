import Verif.Lemmas.Flatten
import Verif.Lemmas.Layers
import Verif.Props.Fixtures

/-! # C20 execute_act runs the documented loop -/

namespace JaxAct
open PyTree
variable {α : Type} [Arith α]

omit [Arith α] in
theorem Layer.prepare_ok {l : Layer α} {check : Bool} {s : PyTree (Leaf α)} {dep : α}
    {c : Controller α} (h : l.prepare check s dep = .ok c) :
    l.makeController s dep = .ok (.ctrl c) ∧ l.setupLazyParameters c s = .ok () ∧
      (check = true → c.state.accumulators ≠ []) := by
  obtain ⟨made, h1, h2⟩ := bind_ok.1 h
  obtain ⟨made', h3, h4⟩ := bind_ok.1 h1
  have hm : made' = made := by
    cases check
    · cases h4; rfl
    · obtain ⟨_, _, h4⟩ := bind_ok.1 h4
      obtain ⟨_, _, h4⟩ := bind_ok.1 h4
      cases h4; rfl
  subst hm
  cases made' with
  | other => cases h2
  | ctrl c' =>
    obtain ⟨⟨⟩, h5, h6⟩ := bind_ok.1 h2
    cases h6
    refine ⟨h3, h5, fun hc => ?_⟩
    subst hc
    obtain ⟨c'', h7, h8⟩ := bind_ok.1 h4
    cases h7
    obtain ⟨_, h8, -⟩ := bind_ok.1 h8
    intro he
    simp [validateNotEmpty, he] at h8

theorem isCompletelyHalted_iff {c : Controller α} : c.isCompletelyHalted = true ↔ AllHalted c := by
  unfold Controller.isCompletelyHalted
  rw [Arr.all_iff]
  rfl

/-- C20, the result: if `execute_act` returns, then `make_controller` returned a controller, and for
some number `k` of iterations, at most `max_iterations`, the result is reached from it and the initial
state by `k` calls of `run_iteration`, each made because some batch element was not halted and
fewer than `max_iterations` iterations had been run; after the `k`-th one of the two fails, and nothing
more is run.  (JAX hands dicts to each call in key order.) -/
theorem C20_result (l : Layer α) (s0 : PyTree (Leaf α)) (dep : α) (max : Int) (check : Bool)
    (c : Controller α) (s : PyTree (Leaf α)) (h : l.ExecuteAct s0 dep max check (.ok (c, s))) :
    ∃ (c0 : Controller α) (k : Nat), l.makeController s0 dep = .ok (.ctrl c0) ∧ k ≤ max.toNat ∧
      Documented (fun x y => ∃ y', l.Runs x y' ∧ y = y'.keyOrder) max
        (LoopState.mk c0 s0).keyOrder k ⟨c, s⟩ := by
  unfold Layer.ExecuteAct at h
  cases hp : l.prepare check s0 dep with
  | error e => rw [hp] at h; cases h
  | ok c0 =>
    rw [hp] at h
    obtain ⟨q, hq, he⟩ := h
    obtain ⟨z, rfl, hz⟩ : ∃ z, q = .ok z ∧ (z.controller, z.state) = (c, s) := by
      cases q with
      | error => cases he
      | ok z => exact ⟨z, rfl, (Except.ok.inj he).symm⟩
    cases hz
    obtain ⟨-, hsteps⟩ := WhileLoop.ok_iff.1 hq
    obtain ⟨hstop, k, f, h0, hk, hf⟩ := hsteps.trajectory
    -- the metadata counts the iterations
    have hm : ∀ i ≤ k, (f i).metadata = ⟨i, max⟩ := by
      intro i
      induction i with
      | zero => intro _; rw [h0]; rfl
      | succ i ih =>
        intro hi
        have hi' := hf i (by omega)
        cases ha : l.adapter check (f i) with
        | error e => rw [ha] at hi'; cases hi'.2
        | ok y =>
          rw [ha] at hi'
          have hy : y.rebuild = f (i + 1) := Except.ok.inj hi'.2
          rw [← hy]
          show y.metadata = _
          rw [Layer.adapter_metadata ha, ih (by omega)]
          simp [ACTMetaData.increaseCounter]
    have hcond : ∀ i < k, (f i).controller.isCompletelyHalted = false ∧ (i : Int) < max := by
      intro i hi
      have := (hf i hi).1
      simp only [isActNotComplete, hm i (by omega), Bool.and_eq_true, Bool.not_eq_true',
        decide_eq_true_eq] at this
      exact this
    refine ⟨c0, k, (Layer.prepare_ok hp).1, ?_, ⟨fun i => ⟨(f i).controller, (f i).state⟩, ?_, ?_, ?_⟩,
      ?_⟩
    · cases k with
      | zero => omega
      | succ k => have := (hcond k (by omega)).2; omega
    · simp only [h0]; rfl
    · simp only [hk]
    · intro i hi
      have hcond' := (hcond i hi).1
      refine ⟨fun hall => ?_, (hcond i hi).2, ?_⟩
      · rw [isCompletelyHalted_iff.2 hall] at hcond'
        cases hcond'
      have hi' := (hf i hi).2
      cases ha : l.adapter check (f i) with
      | error e => rw [ha] at hi'; cases hi'
      | ok y =>
        rw [ha] at hi'
        have hy : y.rebuild = f (i + 1) := Except.ok.inj hi'
        exact ⟨_, (Layer.adapter_ok ha).1, by simp only [← hy]; rfl⟩
    · have := hstop
      rw [← hk] at this
      simp only [isActNotComplete, hm k le_rfl, Bool.and_eq_false_iff, Bool.not_eq_false',
        decide_eq_false_iff_not, not_lt] at this
      rw [hk] at this
      exact this.imp_left isCompletelyHalted_iff.1

omit [Arith α] in
/-- C20: putting the dicts in key order, which `C20_result` mentions, changes nothing else: controller and
user state are the same with dicts compared as mappings. -/
theorem C20_key_order (x : LoopState α) (hd : x.controller.state.DictsWF) (hs : x.state.WF) :
    x.keyOrder.controller.state.Same x.controller.state ∧ SameMapping x.keyOrder.state x.state :=
  ⟨ACTStates.sorted_same hd, sameMapping_canon hs⟩

/-- C20: `execute_act` has at most one outcome. -/
theorem C20_unique (l : Layer α) (s0 : PyTree (Leaf α)) (dep : α) (max : Int) (check : Bool)
    (r r' : Res (Controller α × PyTree (Leaf α))) (h : l.ExecuteAct s0 dep max check r)
    (h' : l.ExecuteAct s0 dep max check r') : r = r' := by
  unfold Layer.ExecuteAct at h h'
  cases hp : l.prepare check s0 dep with
  | error e => rw [hp] at h h'; rw [h, h']
  | ok c0 =>
    rw [hp] at h h'
    obtain ⟨q, hq, rfl⟩ := h
    obtain ⟨q', hq', rfl⟩ := h'
    rw [hq.unique hq']

/-- C20, termination: for jittable user code `execute_act` always has an outcome. -/
theorem C20_terminates (l : Layer α) (s0 : PyTree (Leaf α)) (dep : α) (max : Int) (check : Bool)
    (hj : ∀ c0, l.makeController s0 dep = .ok (.ctrl c0) →
      l.Jittable check ⟨c0, s0, ⟨0, max⟩⟩) :
    ∃ r, l.ExecuteAct s0 dep max check r := by
  unfold Layer.ExecuteAct
  cases hp : l.prepare check s0 dep with
  | error e => exact ⟨_, rfl⟩
  | ok c0 =>
    have hj := hj c0 (Layer.prepare_ok hp).1
    suffices ∃ q, WhileLoop Carry.sig Carry.rebuild isActNotComplete (l.adapter check)
        ⟨c0, s0, ⟨0, max⟩⟩ q by
      obtain ⟨q, hq⟩ := this
      exact ⟨_, q, hq, rfl⟩
    generalize hinit : (⟨c0, s0, ⟨0, max⟩⟩ : Carry α) = init at hj
    unfold WhileLoop
    cases hs : init.sig with
    | none => exact ⟨_, rfl⟩
    | some t =>
      cases ha : l.adapter check init.rebuild with
      | error e => exact ⟨_, rfl⟩
      | ok out =>
        by_cases ho : out.sig = some t
        · simp only [if_pos ho]
          suffices hw : ∀ (n : Nat) (x : Carry α), x.sig = some t → x.metadata.max_num_iterations -
              x.metadata.num_iterations ≤ n → ∃ z, WhileSteps isActNotComplete
                (fun x => (l.adapter check x).map Carry.rebuild) x z by
            obtain ⟨z, hz⟩ := hw (init.metadata.max_num_iterations -
              init.metadata.num_iterations).toNat init.rebuild (by rw [Carry.rebuild_sig, hs])
              (by show init.metadata.max_num_iterations - init.metadata.num_iterations ≤ _; omega)
            exact ⟨_, z, hz, rfl⟩
          intro n
          induction n with
          | zero =>
            intro x _ hx
            refine ⟨x, .stop x ?_⟩
            simp only [isActNotComplete, Bool.and_eq_false_iff, decide_eq_false_iff_not]
            right; omega
          | succ n ih =>
            intro x hx hn
            by_cases hc : isActNotComplete x = true
            · have h1 := hj x (by rw [hx, hs])
              have h2 := hj init.rebuild (Carry.rebuild_sig init)
              rw [ha] at h2
              rw [← h2] at h1
              cases hy : l.adapter check x with
              | error e => rw [hy] at h1; cases h1
              | ok y =>
                rw [hy] at h1
                have h3 : y.sig = out.sig := Except.ok.inj h1
                obtain ⟨z, hz⟩ := ih y.rebuild (by rw [Carry.rebuild_sig, h3, ho]) (by
                  show y.metadata.max_num_iterations - y.metadata.num_iterations ≤ _
                  rw [Layer.adapter_metadata hy]
                  simp only [ACTMetaData.increaseCounter]
                  omega)
                exact ⟨z, .next x y.rebuild z hc (by simp only [hy]; rfl) hz⟩
            · exact ⟨x, .stop x (by simpa using hc)⟩
        · simp only [if_neg ho]
          exact ⟨_, rfl⟩

/-- C20, exceptions: they come from the preparation, from a controller or state that is no valid carry,
from the first (traced) iteration, or from one that does not preserve the types; no later iteration can
raise. -/
theorem C20_exceptions (l : Layer α) (s0 : PyTree (Leaf α)) (dep : α) (max : Int) (check : Bool)
    (e : Err) : l.ExecuteAct s0 dep max check (.error e) ↔
      l.prepare check s0 dep = .error e ∨
      ∃ c0, l.prepare check s0 dep = .ok c0 ∧
        let init : Carry α := ⟨c0, s0, ⟨0, max⟩⟩
        (init.sig = Option.none ∧ e = .typeError ∨
          init.sig ≠ Option.none ∧ (l.adapter check init.rebuild = .error e ∨
            ∃ out, l.adapter check init.rebuild = .ok out ∧ out.sig ≠ init.sig ∧ e = .typeError)) := by
  unfold Layer.ExecuteAct
  cases hp : l.prepare check s0 dep with
  | error e' => simp [eq_comm]
  | ok c0 =>
    simp only [reduceCtorEq, Except.ok.injEq, exists_eq_left', false_or]
    have h1 : (∃ q, WhileLoop Carry.sig Carry.rebuild isActNotComplete (l.adapter check)
        ⟨c0, s0, ⟨0, max⟩⟩ q ∧ (.error e : Res (Controller α × PyTree (Leaf α))) =
          q.map fun x => (x.controller, x.state)) ↔
        WhileLoop Carry.sig Carry.rebuild isActNotComplete (l.adapter check)
          ⟨c0, s0, ⟨0, max⟩⟩ (.error e) := by
      constructor
      · rintro ⟨q, hq, he⟩
        cases q with
        | ok z => cases he
        | error e' => cases he; exact hq
      · intro h; exact ⟨_, h, rfl⟩
    rw [h1, WhileLoop.error_iff]
    cases hs : Carry.sig ⟨c0, s0, ⟨0, max⟩⟩ with
    | none => simp
    | some t => simp

end JaxAct
