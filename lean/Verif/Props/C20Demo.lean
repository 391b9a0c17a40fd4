import Verif.Props.C50

/-! # C20, a concrete loop -/

namespace JaxAct
open PyTree Fixtures
attribute [local instance] Arith.exact

/-- The loop with a bound on the number of iterations, to evaluate examples. -/
def whileFuel {σ : Type} (cond : σ → Bool) (step : σ → Res σ) : Nat → σ → Option σ
  | 0, x => if cond x then Option.none else some x
  | n + 1, x =>
    if cond x then
      match step x with
      | .ok y => whileFuel cond step n y
      | .error _ => Option.none
    else some x

theorem whileFuel_steps {σ : Type} {cond : σ → Bool} {step : σ → Res σ} : ∀ {n : Nat} {x z : σ},
    whileFuel cond step n x = some z → WhileSteps cond step x z
  | 0, x, z, h => by
    unfold whileFuel at h
    split at h
    · cases h
    · cases h; exact .stop _ (by rename_i hc; simpa using hc)
  | n + 1, x, z, h => by
    unfold whileFuel at h
    split at h
    · split at h
      · exact .next _ _ _ ‹_› ‹_› (whileFuel_steps h)
      · cases h
    · cases h; exact .stop _ (by rename_i hc; simpa using hc)

theorem execute_of_fuel {α : Type} [Arith α] {l : Layer α} {s0 : PyTree (Leaf α)} {dep : α} {max : Int}
    {check : Bool} {c0 : Controller α} {n : Nat} {z : Carry α}
    (h : ∃ c s, l.ExecuteAct s0 dep max check (.ok (c, s)))
    (hp : l.prepare check s0 dep = .ok c0)
    (hz : whileFuel isActNotComplete (fun x => (l.adapter check x).map Carry.rebuild) n
      (Carry.rebuild ⟨c0, s0, ⟨0, max⟩⟩) = some z) :
    l.ExecuteAct s0 dep max check (.ok (z.controller, z.state)) := by
  obtain ⟨c, s, h⟩ := h
  have h' := h
  unfold Layer.ExecuteAct at h
  rw [hp] at h
  obtain ⟨q, hq, he⟩ := h
  cases q with
  | error e => cases he
  | ok y =>
    have he' : (c, s) = (y.controller, y.state) := Except.ok.inj he
    rw [(WhileLoop.ok_iff.1 hq).2.unique (whileFuel_steps hz)] at he'
    rw [he'] at h'
    exact h'

/-- What is observed of a controller. -/
def Controller.observe (c : Controller ℚ) : List (Option ℚ) :=
  [c.iterations.at? [0], c.iterations.at? [1], c.probabilities.at? [0], c.residuals.at? [1],
   ACTStates.entry? c.accumulators "out" 0 [0, 0], ACTStates.entry? c.accumulators "out" 0 [1, 0]]

/-- The example layer with halting probabilities `1/2, 2/3` and at most five iterations: two are run, the
residual of the second element is `1/3`, and the accumulators hold the mean of the (constant)
updates. -/
example : ∃ c s, demoLayer.ExecuteAct (bare (vec [1/2, 2/3])) 1 5 true (.ok (c, s)) ∧
    c.observe = [some 2, some 2, some 1, some (1/3), some 4, some 6] := by
  have hfuel : (whileFuel isActNotComplete
      (fun x => (demoLayer.adapter true x).map Carry.rebuild) 5
      (Carry.rebuild ⟨⟨simple⟩, bare (vec [1/2, 2/3]), ⟨0, 5⟩⟩)).map (fun z => z.controller.observe) =
      some [some 2, some 2, some 1, some (1/3), some 4, some 6] := by decide +kernel
  obtain ⟨z, hz, hobs⟩ := Option.map_eq_some_iff.1 hfuel
  exact ⟨z.controller, z.state, execute_of_fuel (demo_executes 5 true) rfl hz, hobs⟩

end JaxAct
