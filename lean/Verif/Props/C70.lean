import Verif.Lemmas.Restrict
import Verif.Props.Fixtures

/-! # C70 Accumulators do not influence each other

A controller with several accumulators behaves like several controllers with one accumulator each
that go through the same calls. -/

namespace JaxAct
variable {α : Type} [Arith α]

/-- C70: leaving out some accumulators.  If calls succeed on a controller, the calls that concern the
kept accumulators succeed on the controller without the others, and give the same controller without
the others: the same halting state and, entry by entry, the same values. -/
theorem C70_restriction (p : String → Bool) : ∀ {ops : List (Op α)} {s : ACTStates α}
    {c : Controller α}, run ⟨s⟩ ops = .ok c →
      run ⟨s.restrict p⟩ (ops.filter (Op.concerns p)) = .ok ⟨c.state.restrict p⟩
  | [], s, c, h => by cases h; rfl
  | op :: ops, s, c, h => by
    simp only [run, bind_ok] at h
    obtain ⟨c', h1, h2⟩ := h
    have ih := C70_restriction p (s := c'.state) h2
    cases hp : op.concerns p with
    | true =>
      rw [List.filter_cons_of_pos hp, run, call_restrict p hp h1]
      exact ih
    | false =>
      rw [List.filter_cons_of_neg (by simp [hp]), ← call_restrict_other p hp h1]
      exact ih

/-- C70: several accumulators are a product.  Calls succeed on a controller exactly when, for every
name, the calls that concern it succeed on the controller with only that accumulator. -/
theorem C70_product : ∀ {ops : List (Op α)} {s : ACTStates α}, s.Dicts →
    ((∃ c, run ⟨s⟩ ops = .ok c) ↔
      ∀ n, ∃ c, run ⟨s.restrict (· == n)⟩ (ops.filter (Op.concerns (· == n))) = .ok c) := by
  intro ops s hd
  refine ⟨fun ⟨c, h⟩ n => ⟨_, C70_restriction _ h⟩, ?_⟩
  induction ops generalizing s with
  | nil => exact fun _ => ⟨_, rfl⟩
  | cons op ops ih =>
    intro h
    obtain ⟨c', h1⟩ := call_of_restrict hd (op := op) fun n hn => by
      obtain ⟨c, h2⟩ := h n
      rw [List.filter_cons_of_pos hn] at h2
      simp only [run, bind_ok] at h2
      obtain ⟨c', h3, -⟩ := h2
      exact ⟨c', h3⟩
    obtain ⟨c, h4⟩ := ih (s := c'.state) (call_dicts h1 hd) fun n => by
      obtain ⟨c, h2⟩ := h n
      cases hp : op.concerns (· == n) with
      | true =>
        rw [List.filter_cons_of_pos hp, run, call_restrict _ hp h1] at h2
        exact ⟨c, h2⟩
      | false =>
        rw [List.filter_cons_of_neg (by simp [hp]), ← call_restrict_other _ hp h1] at h2
        exact ⟨c, h2⟩
    exact ⟨c, by simp only [run, bind_ok]; exact ⟨c', h1, h4⟩⟩

/-- C70: the value of an accumulator after any calls is determined by the calls without the updates
of the others. -/
theorem C70_value {ops : List (Op α)} {s : ACTStates α} {c c' : Controller α} (n : String)
    (h : run ⟨s⟩ ops = .ok c)
    (h' : run ⟨s.restrict (· == n)⟩ (ops.filter (Op.concerns (· == n))) = .ok c') :
    c'.getItem n = c.getItem n ∧ c'.probabilities = c.probabilities ∧
      c'.residuals = c.residuals ∧ c'.iterations = c.iterations := by
  rw [C70_restriction _ h] at h'
  cases h'
  refine ⟨?_, rfl, rfl, rfl⟩
  exact Dict.getItem_keep (p := (· == n)) (by simp) _

section Example
open Fixtures
attribute [local instance] Arith.exact

/-- The calls for the two-accumulator controller. -/
private def ops2 : List (Op ℚ) :=
  [.cache "out" (bare (col 1 2)), .cache "tree" (pair (vec [1, 2]) (col 3 4)),
    .iterate (vec [1/2, 1/4])]

example : fresh.Dicts ∧ succeeds (run ⟨fresh⟩ ops2) = true ∧
    (fresh.restrict (· == "out")).accumulators.keys = ["out"] ∧
    (ops2.filter (Op.concerns (· == "out"))).length = 2 :=
  ⟨⟨fresh_wf.acc_keys, fresh_wf.upd_keys⟩, by decide +kernel, by decide +kernel, by decide +kernel⟩

/-- A wrong update for one accumulator makes the whole run fail, and only the restriction to that
accumulator fails. -/
example :
    let bad : List (Op ℚ) := [.cache "out" (bare (col 1 2)), .cache "tree" (bare (col 3 4)),
      .iterate (vec [1/2, 1/4])]
    succeeds (run ⟨fresh⟩ bad) = false ∧
    succeeds (run ⟨fresh.restrict (· == "out")⟩ (bad.filter (Op.concerns (· == "out")))) = true ∧
    succeeds (run ⟨fresh.restrict (· == "tree")⟩ (bad.filter (Op.concerns (· == "tree")))) = false :=
  ⟨by decide +kernel, by decide +kernel, by decide +kernel⟩

end Example
end JaxAct
