import Verif.Spec.History
import Verif.Spec.WellFormed
import Mathlib.Algebra.Order.Field.Rat
import Mathlib.Algebra.Order.Ring.Rat
import Mathlib.Data.Rat.Defs

/-!
# Concrete objects for the non-vacuity examples

A controller with batch shape `(2,)`, one bare tensor accumulator and one tree accumulator, over
exact rational arithmetic.
-/

namespace JaxAct.Fixtures

attribute [local instance] Arith.exact

/-- A rank one `float32` tensor. -/
def vec (xs : List ℚ) : Tensor ℚ := ⟨.f32, ⟨[xs.length], fun i _ => xs.getD (i.headD 0) 0⟩⟩

/-- A rank two `float32` tensor with two rows of one entry. -/
def col (x y : ℚ) : Tensor ℚ := ⟨.f32, ⟨[2, 1], fun i _ => if i.headD 0 = 0 then x else y⟩⟩

/-- Bare tensor tree. -/
def bare (t : Tensor ℚ) : PyTree (Leaf ℚ) := .leaf (.tensor t)

/-- Two-leaf list tree. -/
def pair (t u : Tensor ℚ) : PyTree (Leaf ℚ) := .node .list [bare t, bare u]

/-- Fresh state: epsilon 1/10, no depression, accumulators `out` (a tensor of shape `(2, 1)`) and
`tree` (a list of two tensors). -/
def fresh : ACTStates ℚ where
  epsilon := 1/10
  iterations := vec [0, 0]
  residuals := vec [0, 0]
  probabilities := vec [0, 0]
  defaults := [("out", bare (col 0 0)), ("tree", pair (vec [0, 0]) (col 1 1))]
  accumulators := [("out", bare (col 0 0)), ("tree", pair (vec [0, 0]) (col 1 1))]
  updates := [("out", .none), ("tree", .none)]
  depression_constant := 1
  error_mode := none

/-- The same with only the bare tensor accumulator. -/
def simple : ACTStates ℚ :=
  { fresh with
    defaults := [("out", bare (col 0 0))]
    accumulators := [("out", bare (col 0 0))]
    updates := [("out", .none)] }

theorem get?_two {V : Type} {a b : String} {x y : V} {n : String} {t : V}
    (h : Dict.get? [(a, x), (b, y)] n = some t) : (n = a ∧ t = x) ∨ (n = b ∧ t = y) := by
  simp only [Dict.get?] at h
  split at h
  · left; simp_all
  · split at h
    · right; simp_all
    · cases h

theorem get?_one {V : Type} {a : String} {x : V} {n : String} {t : V}
    (h : Dict.get? [(a, x)] n = some t) : n = a ∧ t = x := by
  simp only [Dict.get?] at h
  split at h
  · simp_all
  · cases h

theorem batched_bare (t : Tensor ℚ) (b : List Nat) (hd : t.dtype.isFloating = true)
    (hs : b <+: t.shape) : Batched b (bare t) := by
  intro l hl
  have : (bare t).treeLeaves = [.tensor t] := rfl
  rw [this, List.mem_singleton] at hl
  exact ⟨t, hl, hd, hs⟩

theorem batched_pair (t u : Tensor ℚ) (b : List Nat) (hd : t.dtype.isFloating = true)
    (hs : b <+: t.shape) (hd' : u.dtype.isFloating = true)
    (hs' : b <+: u.shape) : Batched b (pair t u) := by
  intro l hl
  have : (pair t u).treeLeaves = [.tensor t, .tensor u] := rfl
  rw [this] at hl
  simp only [List.mem_cons, List.not_mem_nil, or_false] at hl
  rcases hl with h | h
  · exact ⟨t, h, hd, hs⟩
  · exact ⟨u, h, hd', hs'⟩

theorem sameType_refl {b : List Nat} {t : PyTree (Leaf ℚ)} (h : Batched b t) : SameType t t := by
  refine ⟨rfl, ?_⟩
  rw [List.forall₂_same]
  intro l hl
  obtain ⟨a, ha, -⟩ := h l hl
  exact ⟨a, a, ha, ha, rfl, rfl⟩

theorem fresh_batched : ∀ n t, fresh.accumulators.get? n = some t → Batched [2] t := by
  intro n t h
  rcases get?_two h with ⟨-, rfl⟩ | ⟨-, rfl⟩
  · exact batched_bare _ _ rfl ⟨[1], rfl⟩
  · exact batched_pair _ _ _ rfl ⟨[], rfl⟩ rfl ⟨[1], rfl⟩

theorem fresh_wf : fresh.WF where
  floating := rfl
  res_shape := rfl
  res_dtype := rfl
  it_shape := rfl
  it_dtype := by decide
  acc_keys := by unfold Dict.WF; decide
  def_keys := by unfold Dict.WF; decide
  upd_keys := by unfold Dict.WF; decide
  def_iff := by intro n; exact Iff.rfl
  upd_iff := by intro n; exact Iff.rfl
  batched := fresh_batched
  same := by
    intro n t u h1 h2
    have : some t = some u := h1.symm.trans h2
    cases this
    exact sameType_refl (fresh_batched n t h1)

theorem simple_batched : ∀ n t, simple.accumulators.get? n = some t → Batched [2] t := by
  intro n t h
  obtain ⟨-, rfl⟩ := get?_one h
  exact batched_bare _ _ rfl ⟨[1], rfl⟩

theorem simple_wf : simple.WF where
  floating := rfl
  res_shape := rfl
  res_dtype := rfl
  it_shape := rfl
  it_dtype := by decide
  acc_keys := by unfold Dict.WF; decide
  def_keys := by unfold Dict.WF; decide
  upd_keys := by unfold Dict.WF; decide
  def_iff := by intro n; exact Iff.rfl
  upd_iff := by intro n; exact Iff.rfl
  batched := simple_batched
  same := by
    intro n t u h1 h2
    have : some t = some u := h1.symm.trans h2
    cases this
    exact sameType_refl (simple_batched n t h1)

/-- A round for `fresh`. -/
def round (h : List ℚ) (x y : ℚ) : Round ℚ :=
  ⟨[("tree", pair (vec [x, y]) (col y x)), ("out", bare (col x y))], vec h⟩

/-- A round for `simple`. -/
def sround (h : List ℚ) (x y : ℚ) : Round ℚ := ⟨[("out", bare (col x y))], vec h⟩

/-- Observation of a result: `none` if an exception was raised. -/
def obs {β : Type} (r : Res (Controller ℚ)) (f : Controller ℚ → Option β) : Option β :=
  match r with
  | .ok c => f c
  | .error _ => none

/-- No exception was raised. -/
def succeeds (r : Res (Controller ℚ)) : Bool :=
  match r with
  | .ok _ => true
  | .error _ => false

/-- The exception raised, if any. -/
def raised {β : Type} (r : Res β) : Option Err :=
  match r with
  | .ok _ => none
  | .error e => some e

example : obs (run ⟨fresh⟩ (roundOps [round [1/2, 2/3] 4 6, round [1/4, 2/3] 8 3]))
    (fun c => c.probabilities.at? [0]) = some (3/4) := by decide +kernel

example : obs (run ⟨fresh⟩ (roundOps [round [1/2, 2/3] 4 6, round [1/4, 2/3] 8 3]))
    (fun c => ACTStates.entry? c.accumulators "tree" 1 [1, 0]) = some (1 + 2/3 * 4 + 1/3 * 8) := by
  decide +kernel

end JaxAct.Fixtures
