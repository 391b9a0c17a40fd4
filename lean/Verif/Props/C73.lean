import Verif.Props.C20Demo

/-! # C73 max_iterations only truncates the loop -/

namespace JaxAct
variable {α : Type} [Arith α]

/-- The carry with another maximum. -/
def Carry.withMax (m : Int) (x : Carry α) : Carry α :=
  ⟨x.controller, x.state, ⟨x.metadata.num_iterations, m⟩⟩

theorem Layer.adapter_withMax (l : Layer α) (check : Bool) (m : Int) (x : Carry α) :
    l.adapter check (Carry.withMax m x) = (l.adapter check x).map (Carry.withMax m) := by
  unfold Layer.adapter
  show (l.wrappedRun check x.controller x.state >>= _) = _
  cases l.wrappedRun check x.controller x.state with
  | error e => rfl
  | ok u =>
    simp only [ok_bind]
    cases u.unpack with
    | error e => rfl
    | ok p =>
      obtain ⟨a, b⟩ := p
      cases a <;> cases b <;> rfl

theorem Layer.step_withMax {l : Layer α} {check : Bool} {m : Int} {x y : Carry α}
    (h : (l.adapter check x).map Carry.rebuild = .ok y) :
    (l.adapter check (Carry.withMax m x)).map Carry.rebuild = .ok (Carry.withMax m y) := by
  rw [Layer.adapter_withMax]
  cases ha : l.adapter check x with
  | error e => rw [ha] at h; cases h
  | ok z => rw [ha] at h; cases h; rfl

theorem Layer.step_metadata {l : Layer α} {check : Bool} {x y : Carry α}
    (h : (l.adapter check x).map Carry.rebuild = .ok y) :
    y.metadata = x.metadata.increaseCounter := by
  cases ha : l.adapter check x with
  | error e => rw [ha] at h; cases h
  | ok z => rw [ha] at h; cases h; exact (Layer.adapter_metadata ha :)

/-- What a larger maximum does after the smaller one was reached. -/
theorem Layer.steps_withMax {l : Layer α} {check : Bool} {m' : Int} {x z : Carry α}
    (h : WhileSteps isActNotComplete (fun x => (l.adapter check x).map Carry.rebuild) x z)
    (hm : x.metadata.max_num_iterations ≤ m') {w : Carry α}
    (hw : WhileSteps isActNotComplete (fun x => (l.adapter check x).map Carry.rebuild)
      (Carry.withMax m' z) w) :
    WhileSteps isActNotComplete (fun x => (l.adapter check x).map Carry.rebuild) (Carry.withMax m' x) w := by
  induction h with
  | stop x hc => exact hw
  | next x y z hc hs _ ih =>
    refine .next _ _ _ ?_ (Layer.step_withMax hs) (ih ?_ hw)
    · unfold isActNotComplete at hc ⊢
      simp only [Bool.and_eq_true, decide_eq_true_eq] at hc ⊢
      exact ⟨hc.1, lt_of_lt_of_le hc.2 hm⟩
    · rw [Layer.step_metadata hs]
      exact hm

theorem Layer.steps_end {l : Layer α} {check : Bool} {x z : Carry α}
    (h : WhileSteps isActNotComplete (fun x => (l.adapter check x).map Carry.rebuild) x z) :
    isActNotComplete z = false ∧ z.metadata.max_num_iterations = x.metadata.max_num_iterations ∧
      (x.metadata.num_iterations ≤ x.metadata.max_num_iterations →
        z.metadata.num_iterations ≤ x.metadata.max_num_iterations) := by
  induction h with
  | stop x hc => exact ⟨hc, rfl, id⟩
  | next x y z hc hs _ ih =>
    have hm := Layer.step_metadata hs
    refine ⟨ih.1, by rw [ih.2.1, hm]; rfl, fun hx => ?_⟩
    have := ih.2.2
    rw [hm] at this
    refine this ?_
    unfold isActNotComplete at hc
    simp only [Bool.and_eq_true, decide_eq_true_eq] at hc
    have := hc.2
    simp only [ACTMetaData.increaseCounter]
    omega

omit [Arith α] in
theorem Carry.sig_withMax (m : Int) (x : Carry α) : (Carry.withMax m x).sig = x.sig := rfl

theorem Layer.execute_ok_iff {l : Layer α} {s0 : PyTree (Leaf α)} {dep : α} {max : Int} {check : Bool}
    {c : Controller α} {s : PyTree (Leaf α)} :
    l.ExecuteAct s0 dep max check (.ok (c, s)) ↔ ∃ c0 n, l.prepare check s0 dep = .ok c0 ∧
      WhileLoop Carry.sig Carry.rebuild isActNotComplete (l.adapter check) ⟨c0, s0, ⟨0, max⟩⟩
        (.ok ⟨c, s, ⟨n, max⟩⟩) := by
  unfold Layer.ExecuteAct
  cases hp : l.prepare check s0 dep with
  | error e =>
    constructor
    · intro h; cases h
    · rintro ⟨c0, n, h, -⟩; cases h
  | ok c0 =>
    constructor
    · rintro ⟨q, hq, he⟩
      cases q with
      | error e => cases he
      | ok z =>
        obtain ⟨c', s', md⟩ := z
        cases he
        refine ⟨c0, md.num_iterations, rfl, ?_⟩
        have := (Layer.steps_end (WhileLoop.ok_iff.1 hq).2).2.1
        have e : md.max_num_iterations = max := this
        rw [← e]
        rw [← e] at hq
        exact hq
    · rintro ⟨c1, n, h, hq⟩
      cases h
      exact ⟨_, hq, rfl⟩

/-- C73: which exceptions are raised does not depend on `max_iterations`. -/
theorem C73_exceptions (l : Layer α) (s0 : PyTree (Leaf α)) (dep : α) (check : Bool) (e : Err)
    (m m' : Int) (h : l.ExecuteAct s0 dep m check (.error e)) :
    l.ExecuteAct s0 dep m' check (.error e) := by
  unfold Layer.ExecuteAct at h ⊢
  cases hp : l.prepare check s0 dep with
  | error e' => rw [hp] at h; exact h
  | ok c0 =>
    rw [hp] at h
    obtain ⟨q, hq, he⟩ := h
    cases q with
    | ok z => cases he
    | error e' =>
      cases he
      refine ⟨.error e, ?_, rfl⟩
      rw [WhileLoop.error_iff] at hq ⊢
      rcases hq with ⟨h1, h2⟩ | ⟨t, h1, h2⟩
      · exact .inl ⟨h1, h2⟩
      · refine .inr ⟨t, h1, ?_⟩
        have ha : l.adapter check (Carry.rebuild ⟨c0, s0, ⟨0, m'⟩⟩) =
            (l.adapter check (Carry.rebuild ⟨c0, s0, ⟨0, m⟩⟩)).map (Carry.withMax m') :=
          Layer.adapter_withMax l check m' (Carry.rebuild ⟨c0, s0, ⟨0, m⟩⟩)
        rcases h2 with h2 | ⟨out, h2, h3, h4⟩
        · left; rw [ha, h2]; rfl
        · right
          refine ⟨Carry.withMax m' out, by rw [ha, h2]; rfl, ?_, h4⟩
          rw [Carry.sig_withMax]
          exact h3

theorem Layer.loop_withMax {l : Layer α} {s0 : PyTree (Leaf α)} {check : Bool} {c0 : Controller α}
    {m m' : Int} {z w : Carry α} (hm : m ≤ m')
    (h : WhileLoop Carry.sig Carry.rebuild isActNotComplete (l.adapter check) ⟨c0, s0, ⟨0, m⟩⟩ (.ok z))
    (hw : WhileSteps isActNotComplete (fun x => (l.adapter check x).map Carry.rebuild)
      (Carry.withMax m' z) w) :
    WhileLoop Carry.sig Carry.rebuild isActNotComplete (l.adapter check) ⟨c0, s0, ⟨0, m'⟩⟩ (.ok w) := by
  rw [WhileLoop.ok_iff] at h ⊢
  obtain ⟨⟨t, out, h1, h2, h3⟩, h4⟩ := h
  refine ⟨⟨t, Carry.withMax m' out, h1, ?_, (Carry.sig_withMax m' out).trans h3⟩, ?_⟩
  · have : l.adapter check (Carry.rebuild ⟨c0, s0, ⟨0, m'⟩⟩) =
        (l.adapter check (Carry.rebuild ⟨c0, s0, ⟨0, m⟩⟩)).map (Carry.withMax m') :=
      Layer.adapter_withMax l check m' (Carry.rebuild ⟨c0, s0, ⟨0, m⟩⟩)
    rw [this, h2]
    rfl
  · exact Layer.steps_withMax h4 hm hw

/-- C73: once every batch element is halted within `m` iterations, every larger maximum gives the same
result. -/
theorem C73_enough (l : Layer α) (s0 : PyTree (Leaf α)) (dep : α) (check : Bool) {m m' : Int}
    (hm : m ≤ m') {c : Controller α} {s : PyTree (Leaf α)}
    (h : l.ExecuteAct s0 dep m check (.ok (c, s))) (hh : AllHalted c) :
    l.ExecuteAct s0 dep m' check (.ok (c, s)) := by
  obtain ⟨c0, n, hp, hq⟩ := Layer.execute_ok_iff.1 h
  refine Layer.execute_ok_iff.2 ⟨c0, n, hp, Layer.loop_withMax hm hq (.stop _ ?_)⟩
  unfold isActNotComplete
  rw [show (Carry.withMax m' (⟨c, s, ⟨n, m⟩⟩ : Carry α)).controller = c from rfl,
    isCompletelyHalted_iff.2 hh]
  rfl

/-- C73: with no iteration allowed the result is what `make_controller` returned, with the initial
state. -/
theorem C73_none (l : Layer α) (s0 : PyTree (Leaf α)) (dep : α) (check : Bool) {m : Int} (hm : m ≤ 0)
    {c : Controller α} {s : PyTree (Leaf α)} (h : l.ExecuteAct s0 dep m check (.ok (c, s))) :
    ∃ c0, l.makeController s0 dep = .ok (.ctrl c0) ∧
      (LoopState.mk c s) = (LoopState.mk c0 s0).keyOrder := by
  obtain ⟨c0, k, h1, h2, h3⟩ := C20_result l s0 dep m check c s h
  obtain rfl : k = 0 := by omega
  obtain ⟨traj, t0, t1, -⟩ := h3.path
  exact ⟨c0, h1, t1.symm.trans t0⟩

/-- C73: if some batch element is not halted after `m` iterations, one more iteration allowed means that
exactly one more is run, on the result of the first `m`. -/
theorem C73_one_more (l : Layer α) (s0 : PyTree (Leaf α)) (dep : α) (check : Bool) {m : Int}
    (hm : 0 ≤ m) {c c' : Controller α} {s s' : PyTree (Leaf α)}
    (h : l.ExecuteAct s0 dep m check (.ok (c, s))) (hh : ¬ AllHalted c)
    (h' : l.ExecuteAct s0 dep (m + 1) check (.ok (c', s'))) :
    ∃ y, l.Runs ⟨c, s⟩ y ∧ LoopState.mk c' s' = y.keyOrder := by
  obtain ⟨c0, n, hp, hq⟩ := Layer.execute_ok_iff.1 h
  obtain ⟨c1, n', hp', hq'⟩ := Layer.execute_ok_iff.1 h'
  rw [hp] at hp'
  cases hp'
  have hnh : c.isCompletelyHalted = false := by
    rw [Bool.eq_false_iff]; exact fun hc => hh (isCompletelyHalted_iff.1 hc)
  obtain ⟨e1, -, e3⟩ := Layer.steps_end (WhileLoop.ok_iff.1 hq).2
  have hn : n = m := by
    unfold isActNotComplete at e1
    simp only [hnh, Bool.not_false, Bool.true_and, decide_eq_false_iff_not, not_lt] at e1
    exact le_antisymm (e3 hm) e1
  subst hn
  -- the steps with the larger maximum
  have hs' := (WhileLoop.ok_iff.1 hq').2
  obtain ⟨-, k, f, f0, fk, hf⟩ := (WhileLoop.ok_iff.1 hq).2.trajectory
  have key : ∀ i ≤ k, WhileSteps isActNotComplete (fun x => (l.adapter check x).map Carry.rebuild)
      (Carry.withMax (n + 1) (f i)) ⟨c', s', ⟨n', n + 1⟩⟩ := by
    intro i
    induction i with
    | zero => intro _; rw [f0]; exact hs'
    | succ i ih =>
      intro hi
      have h1 := ih (by omega)
      have h2 := hf i (by omega)
      have h3 := Layer.step_withMax (m := n + 1) h2.2
      cases h1 with
      | stop _ hc =>
        exfalso
        have := h2.1
        unfold isActNotComplete at this hc
        simp only [Bool.and_eq_true, decide_eq_true_eq] at this
        have hmax : (f i).metadata.max_num_iterations = n := by
          have : ∀ j ≤ i, (f j).metadata.max_num_iterations = n := by
            intro j
            induction j with
            | zero => intro _; rw [f0]; rfl
            | succ j ihj =>
              intro hj
              rw [Layer.step_metadata (hf j (by omega)).2]
              exact ihj (by omega)
          exact this i le_rfl
        have h5 : (f i).metadata.num_iterations < n := hmax ▸ this.2
        have h6 : (Carry.withMax (n + 1) (f i)).metadata.num_iterations <
            (Carry.withMax (n + 1) (f i)).metadata.max_num_iterations :=
          show (f i).metadata.num_iterations < n + 1 by omega
        rw [show (Carry.withMax (n + 1) (f i)).controller = (f i).controller from rfl, this.1,
          decide_eq_true h6] at hc
        cases hc
      | next _ y _ _ hy h4 =>
        rw [h3] at hy
        cases hy
        exact h4
  have h1 := key k le_rfl
  rw [fk] at h1
  cases h1 with
  | stop _ hc =>
    unfold isActNotComplete at hc
    simp [Carry.withMax, hnh] at hc
  | next _ y _ _ hy h4 =>
    have hy' : (l.adapter check (Carry.withMax (n + 1) ⟨c, s, ⟨n, n⟩⟩)).map Carry.rebuild = .ok y := hy
    have hym := Layer.step_metadata hy'
    cases h4 with
    | next _ _ _ hc _ _ =>
      unfold isActNotComplete at hc
      rw [hym] at hc
      simp [Carry.withMax, ACTMetaData.increaseCounter] at hc
    | stop _ _ =>
      cases ha : l.adapter check (Carry.withMax (n + 1) ⟨c, s, ⟨n, n⟩⟩) with
      | error e => rw [ha] at hy'; cases hy'
      | ok y =>
        rw [ha] at hy'
        have hr : y.rebuild = ⟨c', s', ⟨n', n + 1⟩⟩ := Except.ok.inj hy'
        refine ⟨⟨y.controller, y.state⟩, (Layer.adapter_ok ha).1, ?_⟩
        have h1 : c' = (y.rebuild).controller := by rw [hr]
        have h2 : s' = (y.rebuild).state := by rw [hr]
        rw [h1, h2]
        rfl

section Example
open Fixtures
attribute [local instance] Arith.exact

/-- The example layer with at most one and at most two iterations; the first result is not halted, the
second is. -/
example : ∃ c s c' s', demoLayer.ExecuteAct (bare (vec [1/2, 2/3])) 1 1 true (.ok (c, s)) ∧
    ¬ AllHalted c ∧ demoLayer.ExecuteAct (bare (vec [1/2, 2/3])) 1 2 true (.ok (c', s')) ∧
    AllHalted c' := by
  have h1 : (whileFuel isActNotComplete
      (fun x => (demoLayer.adapter true x).map Carry.rebuild) 5
      (Carry.rebuild ⟨⟨simple⟩, bare (vec [1/2, 2/3]), ⟨0, 1⟩⟩)).map
        (fun z => z.controller.isCompletelyHalted) = some false := by decide +kernel
  have h2 : (whileFuel isActNotComplete
      (fun x => (demoLayer.adapter true x).map Carry.rebuild) 5
      (Carry.rebuild ⟨⟨simple⟩, bare (vec [1/2, 2/3]), ⟨0, 2⟩⟩)).map
        (fun z => z.controller.isCompletelyHalted) = some true := by decide +kernel
  obtain ⟨z, hz, hobs⟩ := Option.map_eq_some_iff.1 h1
  obtain ⟨z', hz', hobs'⟩ := Option.map_eq_some_iff.1 h2
  refine ⟨z.controller, z.state, z'.controller, z'.state,
    execute_of_fuel (demo_executes 1 true) rfl hz, ?_, execute_of_fuel (demo_executes 2 true) rfl hz',
    isCompletelyHalted_iff.1 hobs'⟩
  intro h
  rw [isCompletelyHalted_iff.2 h] at hobs
  cases hobs

end Example
end JaxAct
