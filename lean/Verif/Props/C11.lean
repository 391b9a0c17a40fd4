import Verif.Lemmas.History
import Verif.Props.Fixtures
import Mathlib.Data.List.Perm.Basic

/-! # C11 Caching order is irrelevant -/

namespace JaxAct
variable {α : Type} [Arith α]

/-- The calls caching a list of updates in the given order. -/
def cacheAll (us : List (String × PyTree (Leaf α))) : List (Op α) :=
  us.map fun nu => Op.cache nu.1 nu.2

private theorem swap_ok {c c' : Controller α} {a b : String × PyTree (Leaf α)} (hne : a.1 ≠ b.1)
    (us : List (String × PyTree (Leaf α))) (h : run c (cacheAll (a :: b :: us)) = .ok c') :
    run c (cacheAll (b :: a :: us)) = .ok c' := by
  simp only [cacheAll, List.map_cons, run, bind_ok, Op.call] at h ⊢
  obtain ⟨c1, h1, c2, h2, h3⟩ := h
  obtain ⟨e1, q1⟩ := Controller.cacheUpdate_ok_iff.1 h1
  obtain ⟨e2, q2⟩ := Controller.cacheUpdate_ok_iff.1 h2
  rw [q1] at e2 q2
  simp only at e2 q2
  rw [Dict.get?_set_ne _ hne] at e2
  refine ⟨⟨{ c.state with updates := c.state.updates.set b.1 b.2 }⟩,
    Controller.cacheUpdate_ok_iff.2 ⟨e2, rfl⟩, c2, Controller.cacheUpdate_ok_iff.2 ⟨?_, ?_⟩, h3⟩
  · simp only; rw [Dict.get?_set_ne _ (Ne.symm hne)]; exact e1
  · rw [q2]
    simp only
    rw [Dict.set_set_ne_of_mem _ _ hne (Dict.mem_keys_iff.2 ⟨_, e1⟩) (Dict.mem_keys_iff.2 ⟨_, e2⟩)]

/-- C11: caching updates for distinct accumulators in any order gives the very same controller, or
fails in every order. -/
theorem C11_cache_order {us us' : List (String × PyTree (Leaf α))} (hp : us.Perm us')
    (hnd : (us.map Prod.fst).Nodup) (c c' : Controller α) :
    run c (cacheAll us) = .ok c' ↔ run c (cacheAll us') = .ok c' := by
  induction hp generalizing c with
  | nil => exact Iff.rfl
  | cons a _ ih =>
    simp only [List.map_cons, List.nodup_cons] at hnd
    simp only [cacheAll, List.map_cons, run, bind_ok]
    constructor
    · rintro ⟨v, h1, h2⟩; exact ⟨v, h1, (ih hnd.2 v).1 h2⟩
    · rintro ⟨v, h1, h2⟩; exact ⟨v, h1, (ih hnd.2 v).2 h2⟩
  | swap a b us =>
    simp only [List.map_cons, List.nodup_cons, List.mem_cons, not_or] at hnd
    exact ⟨swap_ok hnd.1.1 us, swap_ok (Ne.symm hnd.1.1) us⟩
  | trans h1 _ ih1 ih2 =>
    exact (ih1 hnd c).trans (ih2 ((h1.map Prod.fst).nodup_iff.1 hnd) c)

/-- C11: the iteration that follows, and anything after it, gives the same result. -/
theorem C11_round_order {us us' : List (String × PyTree (Leaf α))} (hp : us.Perm us')
    (hnd : (us.map Prod.fst).Nodup) (rest : List (Op α)) (c c' : Controller α) :
    run c (cacheAll us ++ rest) = .ok c' ↔ run c (cacheAll us' ++ rest) = .ok c' := by
  rw [run_append, run_append, bind_ok, bind_ok]
  simp only [C11_cache_order hp hnd]

section Example
open Fixtures
attribute [local instance] Arith.exact

/-- Both orders succeed and agree on an entry; the hypotheses hold for two names. -/
example :
    let us : List (String × PyTree (Leaf ℚ)) :=
      [("out", bare (col 1 2)), ("tree", pair (vec [3, 4]) (col 5 6))]
    (us.map Prod.fst).Nodup ∧ us.Perm us.reverse ∧
    obs (run ⟨fresh⟩ (cacheAll us ++ [.iterate (vec [1/2, 1])]))
      (fun c => ACTStates.entry? c.accumulators "tree" 1 [0, 0]) = some (1 + 5/2) ∧
    obs (run ⟨fresh⟩ (cacheAll us.reverse ++ [.iterate (vec [1/2, 1])]))
      (fun c => ACTStates.entry? c.accumulators "tree" 1 [0, 0]) = some (1 + 5/2) := by
  refine ⟨by decide, (List.reverse_perm _).symm, by decide +kernel, by decide +kernel⟩

/-- Distinctness is needed: `None` may be cached before an update but not after. -/
example : succeeds (run ⟨fresh⟩ (cacheAll [("out", .none), ("out", bare (col 1 2))])) = true ∧
    succeeds (run ⟨fresh⟩ (cacheAll [("out", bare (col 1 2)), ("out", .none)])) = false := by
  decide +kernel

end Example
end JaxAct
