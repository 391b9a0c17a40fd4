import Verif.Props.C01
import Verif.Props.C02
import Verif.Props.C03
import Verif.Props.C05
import Verif.Props.C06
import Verif.Props.C07
import Verif.Props.C08
import Verif.Props.C09
import Verif.Props.C10
import Verif.Props.C11
import Verif.Props.C12
import Verif.Props.C13
import Verif.Props.C14
import Verif.Props.C15
import Verif.Props.C17
import Verif.Props.C61

/-!
# The theorems applied, C01 to C17

Each theorem is applied to concrete objects, so its hypotheses can be met together.
-/

namespace JaxAct.Applied
open Fixtures ACTStates
attribute [local instance] Arith.exact

/-- A run that succeeds, and what a theorem says of it. -/
theorem applied {r : Res (Controller ℚ)} {P : Controller ℚ → Prop} (h : succeeds r = true)
    (hP : ∀ c, r = .ok c → P c) : ∃ c, r = .ok c ∧ P c := by
  cases r with
  | error e => cases h
  | ok c => exact ⟨c, rfl, hP c rfl⟩

theorem fresh_zero : ∀ b p, fresh.probabilities.at? b = some p → 0 ≤ p ∧ p ≤ 1 := by
  intro b p h
  rcases vec_two h with ⟨-, rfl⟩ | ⟨-, rfl⟩ <;> norm_num

/-- Rounds contain no reset. -/
theorem rounds_notReset (rs : List (Round ℚ)) : ∀ op ∈ roundOps rs, op.NotReset := by
  intro op h
  simp only [roundOps, Round.ops, List.mem_flatMap, List.mem_append, List.mem_map,
    List.mem_singleton] at h
  obtain ⟨r, -, ⟨u, -, rfl⟩ | rfl⟩ := h <;> trivial

/-- C01 -/
example : ∃ c, run ⟨fresh⟩ (roundOps [round [1/2, -1] 4 6, round [7, 2/3] 8 3]) = .ok c ∧
    ∀ b p, c.probabilities.at? b = some p → 0 ≤ p ∧ p ≤ 1 :=
  applied (by decide +kernel) fun _ h => C01_probabilities_in_unit_interval fresh_wf (by norm_num [fresh])
    (by norm_num [fresh]) fresh_zero _ h

/-- Element 0 is halted, element 1 half way. -/
def mixed : ACTStates ℚ := { fresh with probabilities := vec [1, 1/2], residuals := vec [1/4, 0] }

theorem mixed_wf : mixed.WF := { fresh_wf with }

/-- The same with only the bare tensor accumulator. -/
def smixed : ACTStates ℚ := { simple with probabilities := vec [1, 1/2], residuals := vec [1/4, 0] }

theorem smixed_wf : smixed.WF := { simple_wf with }

/-- C02 -/
example : ∃ c, run ⟨mixed⟩ (roundOps [round [-5, 1/3] 4 6, round [1, 1/9] 4 6]) = .ok c ∧
    c.haltedBatches.at? [0] = some true :=
  applied (by decide +kernel) fun _ h => C02_halted_stays_halted mixed_wf (by norm_num [mixed, fresh])
    (by norm_num [mixed, fresh]) (by decide +kernel) _ (rounds_notReset _) h

/-- C02, the converse -/
example : ∃ c, Controller.resetBatches ⟨smixed⟩ = .ok c ∧ c.haltedBatches.at? [0] = some false :=
  applied (by decide +kernel) fun _ h => C02_reset_clears smixed_wf (by norm_num [smixed, simple, fresh]) h
    (by decide +kernel)

/-- C03, over a history -/
example : ∃ c, run ⟨mixed⟩ (roundOps [round [-5, 1/3] 4 6, round [1, 1/9] 4 6]) = .ok c ∧
    c.residuals.at? [0] = some (1/4) ∧ entry? c.accumulators "tree" 1 [0, 0] = some 1 :=
  applied (by decide +kernel) fun c h => by
    have := C03_frozen_until_reset mixed_wf (by norm_num [mixed, fresh])
      (by norm_num [mixed, fresh]) (b := [0]) (by decide +kernel) _
      (rounds_notReset _) h
    exact ⟨this.1.trans (by decide +kernel), (this.2.2 "tree" 1 [0]).trans (by decide +kernel)⟩

/-- C05 -/
example : ∃ c, run ⟨fresh⟩ (roundOps [round [1/2, 2/3] 4 6, round [1/4, 2/3] 8 3]) = .ok c ∧
    (c.haltedBatches.at? [1] = some true → c.probabilities.at? [1] = some 1) :=
  applied (by decide +kernel) fun _ h => C05_halted_probability_is_one fresh_wf (by norm_num [fresh])
    (by norm_num [fresh]) (by norm_num [fresh]) (by decide +kernel) _ h

/-- C06: element 1 halts in the second round, with 1/3 left. -/
example : ∃ c, run ⟨fresh⟩ (roundOps [round [1/2, 2/3] 4 6, round [1/4, 2/3] 8 3]) = .ok c ∧
    ((c.haltedBatches.at? [1] = some false ∧ c.residuals.at? [1] = some 0) ∨
     (c.haltedBatches.at? [1] = some true ∧ ∃ pre h post before after p,
        roundOps [round [1/2, 2/3] 4 6, round [1/4, 2/3] 8 3] = pre ++ Op.iterate h :: post ∧
        (∀ op ∈ post, op.NotReset) ∧
        run ⟨fresh⟩ pre = .ok before ∧ before.haltedBatches.at? [1] = some false ∧
        before.iterateAct h = .ok after ∧ after.haltedBatches.at? [1] = some true ∧
        before.probabilities.at? [1] = some p ∧ c.residuals.at? [1] = some (1 - p))) :=
  applied (by decide +kernel) fun _ h => C06_residual_is_remainder fresh_wf (by norm_num [fresh])
    (by norm_num [fresh]) (by norm_num [fresh]) (by decide +kernel) (by decide +kernel) _ h

/-- C07 -/
example : ∃ c, run ⟨fresh⟩ (roundOps [round [1/2, 2/3] 4 6, round [1/4, 2/3] 8 3]) = .ok c ∧
    c.iterations.at? [1] = some (activeIterations [1] ⟨fresh⟩ 0
      (roundOps [round [1/2, 2/3] 4 6, round [1/4, 2/3] 8 3]) : ℚ) :=
  applied (by decide +kernel) fun _ h => C07_iterations_count_active fresh_wf (by decide +kernel) _ h

/-- C08 -/
example : Controller.iterateAct ⟨fresh⟩ (vec [-3, 9/2]).clip01 =
    Controller.iterateAct ⟨fresh⟩ (vec [-3, 9/2]) := C08_iterate_clip _ _

/-- C12 -/
example : Controller.iterateAct ⟨fresh⟩ (vec [1/2, 1/3]) = .error .runtimeError :=
  (C12_missing_update_raises fresh_wf (name := "tree") (by decide) rfl _).2 rfl rfl

/-- C14 -/
example : ∃ c, run ⟨fresh⟩ (roundOps [round [1/2, 2/3] 4 6, round [1/4, 2/3] 8 3]) = .ok c ∧
    c.accumulators.keys = ["out", "tree"] ∧ c.iterations.dtype = .f32 :=
  applied (by decide +kernel) fun _ h => by
    have := C14_types_invariant fresh_wf _ h
    exact ⟨this.1, this.2.2.2.2.2.2.2⟩

/-- C15 -/
example : ∃ c, Controller.resetBatches ⟨smixed⟩ = .ok c ∧ c.residuals.at? [0] = some 0 ∧
    c.probabilities.at? [1] = some (1/2) ∧ c.resetBatches = .ok c :=
  applied (by decide +kernel) fun _ h => by
    have := C15_reset_bookkeeping smixed_wf h
    exact ⟨(this.1 [0] (by decide +kernel)).2.1,
      (this.2.1 [1] (by decide +kernel)).1.trans (by decide +kernel),
      C15_reset_idempotent smixed_wf (by norm_num [smixed, simple, fresh]) h⟩

/-- C17 -/
example : ∃ c, run ⟨fresh⟩ (roundOps [round [1/2, 2/3] 4 6, round [1/2, 2/3] 8 3]) = .ok c ∧
    c.haltedBatches.at? [0] = some true :=
  applied (by decide +kernel) fun _ h => C17_halting_reached_sharp fresh_wf (by norm_num [fresh])
    (by norm_num [fresh]) (c := 1/2) (by norm_num) (rounds_notReset _)
    (by
      intro g hg
      simp only [roundOps, Round.ops, Fixtures.round, List.flatMap_cons, List.flatMap_nil,
        List.map_cons, List.map_nil, List.cons_append, List.nil_append, List.append_nil,
        List.mem_cons, List.not_mem_nil, or_false, reduceCtorEq, false_or, Op.iterate.injEq] at hg
      rcases hg with rfl | rfl <;>
      · intro b x hx
        rcases vec_two hx with ⟨-, rfl⟩ | ⟨-, rfl⟩ <;> norm_num)
    h (p := 0) (by decide +kernel) (by norm_num [fresh, roundOps, Round.ops, Fixtures.round, countIterates])

end JaxAct.Applied
