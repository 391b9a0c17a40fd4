import Verif.Lemmas.Exact
import Verif.Lemmas.Entry
import Verif.Props.C02

/-! # C58 The status flags say what their names say -/

namespace JaxAct
open ACTStates

section AnyArith
variable {α : Type} [Arith α]

/-- Is an update pending under `name` after the calls, if it is (`b`) or is not before them?
Only a tree other than `None` counts as an update; an iteration consumes it. -/
def pendingAfter (name : String) (b : Bool) : List (Op α) → Bool
  | [] => b
  | .cache n x :: ops => pendingAfter name (if n = name then !x.isNone else b) ops
  | .iterate _ :: ops => pendingAfter name false ops
  | .reset :: ops => pendingAfter name b ops

theorem pending_run {name : String} : ∀ {ops : List (Op α)} {s : ACTStates α} {c : Controller α},
    s.WF → name ∈ s.accumulators.keys → run ⟨s⟩ ops = .ok c →
    ∀ u, s.updates.get? name = some u → ∃ v, c.state.updates.get? name = some v ∧
      (!v.isNone) = pendingAfter name (!u.isNone) ops
  | [], s, c, _, _, h, u, hu => by cases h; exact ⟨u, hu, rfl⟩
  | op :: ops, s, c, hs, hn, h, u, hu => by
    simp only [run, bind_ok] at h
    obtain ⟨⟨s1⟩, e1, e2⟩ := h
    cases op with
    | cache n x =>
      have ks := Controller.cacheUpdate_ok_iff.1 e1
      have w := Controller.CacheStep.wf hs ks
      have q := ks.eq
      simp only at q
      subst q
      simp only [pendingAfter]
      by_cases hnn : n = name
      · subst hnn
        rw [if_pos rfl]
        exact pending_run w hn e2 x (by simp)
      · rw [if_neg hnn]
        exact pending_run w hn e2 u (by rw [Dict.get?_set_ne _ hnn]; exact hu)
    | iterate h =>
      have st := Controller.iterateAct_ok hs e1
      exact pending_run (Controller.IterStep.wf hs st) (st.akeys ▸ hn) e2 .none (st.cleared name hn)
    | reset =>
      have st := Controller.resetBatches_ok hs e1
      exact pending_run (Controller.ResetStep.wf hs st) (st.akeys ▸ hn) e2 u (by
        rw [st.updates]; exact hu)

/-- C58, slots.  After any history from a controller without pending updates, `has_cached_updates` is
true exactly if some accumulator has had an update cached since the last iteration, and
`updates_ready_to_commit` exactly if all have. -/
theorem C58_pending_flags {s : ACTStates α} (hs : s.WF)
    (hidle : ∀ n u, s.updates.get? n = some u → u = .none) {ops : List (Op α)} {c : Controller α}
    (h : run ⟨s⟩ ops = .ok c) :
    (c.hasCachedUpdates = true ↔
      ∃ n ∈ s.accumulators.keys, pendingAfter n false ops = true) ∧
    (c.updatesReadyToCommit = true ↔
      ∀ n ∈ s.accumulators.keys, pendingAfter n false ops = true) := by
  have hw := run_wf hs h
  have keys : ∀ n, n ∈ c.state.updates.keys ↔ n ∈ s.accumulators.keys := by
    refine (run_induction (Inv := fun t => ∀ n, n ∈ t.updates.keys ↔ n ∈ s.accumulators.keys)
      ?_ ?_ ?_ ops hs hs.upd_iff h).2
    · rintro t n x t' w k hi m
      have := (Controller.CacheStep.wf w k).upd_iff m
      rw [this, ← hi, w.upd_iff, k.eq]
    · rintro t g t' - k hi m
      rw [k.ukeys]; exact hi m
    · rintro t t' - k hi m
      rw [k.updates]; exact hi m
  have slot : ∀ n v, c.state.updates.get? n = some v → n ∈ s.accumulators.keys ∧
      (!v.isNone) = pendingAfter n false ops := by
    intro n v hv
    have hn := (keys n).1 (Dict.mem_keys_iff.2 ⟨v, hv⟩)
    obtain ⟨u, hu⟩ := Dict.mem_keys_iff.1 ((hs.upd_iff n).2 hn)
    obtain ⟨v', h1, h2⟩ := pending_run hs hn h u hu
    rw [hv] at h1; cases h1
    rw [hidle n u hu] at h2
    exact ⟨hn, h2⟩
  constructor
  · unfold Controller.hasCachedUpdates
    rw [List.any_eq_true]
    constructor
    · rintro ⟨⟨n, v⟩, hm, hv⟩
      obtain ⟨h1, h2⟩ := slot n v (Dict.get?_of_mem hw.upd_keys hm)
      exact ⟨n, h1, h2 ▸ hv⟩
    · rintro ⟨n, hn, hp⟩
      obtain ⟨v, hv⟩ := Dict.mem_keys_iff.1 ((keys n).2 hn)
      exact ⟨(n, v), Dict.mem_of_get? hv, by rw [(slot n v hv).2]; exact hp⟩
  · unfold Controller.updatesReadyToCommit
    rw [List.all_eq_true]
    constructor
    · intro hall n hn
      obtain ⟨v, hv⟩ := Dict.mem_keys_iff.1 ((keys n).2 hn)
      rw [← (slot n v hv).2]
      exact hall _ (Dict.mem_of_get? hv)
    · rintro hall ⟨n, v⟩ hm
      obtain ⟨h1, h2⟩ := slot n v (Dict.get?_of_mem hw.upd_keys hm)
      rw [h2]
      exact hall n h1

/-- C58, empty batches (a batch dimension of size 0): `is_completely_halted` is true and
`is_any_halted` is false whatever has happened. -/
theorem C58_empty_batch (c : Controller α) (h : 0 ∈ c.probabilities.shape) :
    c.isCompletelyHalted = true ∧ c.isAnyHalted = false := by
  have hno : ∀ i x, c.haltedBatches.at? i ≠ some x := by
    intro i x hx
    unfold Controller.haltedBatches at hx
    rw [Tensor.at?_gtFloat, Option.map_eq_some_iff] at hx
    obtain ⟨y, hy, -⟩ := hx
    have hi : InB c.probabilities.shape i := Arr.at?_isSome.1 (by
      simp only [Tensor.at?] at hy; rw [hy]; rfl)
    clear hy
    generalize c.probabilities.shape = sh at h hi
    induction hi with
    | nil => cases h
    | cons hk _ ih =>
      rcases List.mem_cons.1 h with rfl | h
      · omega
      · exact ih h
  constructor
  · unfold Controller.isCompletelyHalted
    rw [Arr.all_iff]
    exact fun i x hx => absurd hx (hno i x)
  · rw [← Bool.not_eq_true]
    unfold Controller.isAnyHalted
    rw [Arr.any_iff]
    rintro ⟨i, x, hx, -⟩
    exact hno i x hx

end AnyArith

variable {K : Type} [Field K] [LinearOrder K] [IsStrictOrderedRing K]
attribute [local instance] Arith.exact

omit [IsStrictOrderedRing K] in
/-- C58, halting.  `is_completely_halted` is true exactly if every cumulative probability exceeds
`1 - epsilon`, `is_any_halted` exactly if one does. -/
theorem C58_halting_flags {s : ACTStates K} (hs : s.WF) :
    ((Controller.isCompletelyHalted ⟨s⟩) = true ↔
      ∀ b p, s.probabilities.at? b = some p → 1 - s.epsilon < p) ∧
    ((Controller.isAnyHalted ⟨s⟩) = true ↔
      ∃ b p, s.probabilities.at? b = some p ∧ 1 - s.epsilon < p) := by
  constructor
  · unfold Controller.isCompletelyHalted
    rw [Arr.all_iff]
    constructor
    · intro h b p hp
      have := h b _ ((halted_iff hs.floating).2 ⟨p, hp, rfl⟩)
      exact Spec.isHalted_iff.1 this
    · intro h b x hx
      obtain ⟨p, hp, rfl⟩ := (halted_iff hs.floating).1 hx
      exact Spec.isHalted_iff.2 (h b p hp)
  · unfold Controller.isAnyHalted
    rw [Arr.any_iff]
    constructor
    · rintro ⟨b, x, hx, hh⟩
      obtain ⟨p, hp, rfl⟩ := (halted_iff hs.floating).1 hx
      exact ⟨b, p, hp, Spec.isHalted_iff.1 hh⟩
    · rintro ⟨b, p, hp, hh⟩
      exact ⟨b, _, (halted_iff hs.floating).2 ⟨p, hp, rfl⟩, Spec.isHalted_iff.2 hh⟩

/-- C58: once complete, halting stays complete until a reset; and likewise for `is_any_halted`. -/
theorem C58_flags_persist {s : ACTStates K} (hs : s.WF) (heps : 0 < s.epsilon)
    (hdep : 0 ≤ s.depression_constant) {ops : List (Op K)} (hops : ∀ op ∈ ops, op.NotReset)
    {c : Controller K} (h : run ⟨s⟩ ops = .ok c) :
    ((Controller.isCompletelyHalted ⟨s⟩) = true → c.isCompletelyHalted = true) ∧
    ((Controller.isAnyHalted ⟨s⟩) = true → c.isAnyHalted = true) := by
  have hsh : c.state.probabilities.shape = s.probabilities.shape := by
    refine (run_induction (Inv := fun t => t.probabilities.shape = s.probabilities.shape)
      ?_ ?_ ?_ ops hs rfl h).2
    · rintro t n x t' - ⟨-, rfl⟩ h; exact h
    · rintro t h t' - st h'; exact st.pshape.trans h'
    · rintro t t' - st h'; exact st.pshape.trans h'
  constructor
  · intro hc
    unfold Controller.isCompletelyHalted at hc ⊢
    rw [Arr.all_iff] at hc ⊢
    intro b x hx
    obtain ⟨p', hp', -⟩ := (halted_iff (s := c.state) (run_wf hs h).floating).1 hx
    obtain ⟨p, hp⟩ := at?_of_shape_eq hsh hp'
    have h1 := (halted_iff hs.floating).2 ⟨p, hp, rfl⟩
    have h2 := hc b _ h1
    rw [id] at h2
    rw [h2] at h1
    have := C02_halted_stays_halted hs heps hdep h1 ops hops h
    rw [hx] at this; cases this; rfl
  · intro hc
    unfold Controller.isAnyHalted at hc ⊢
    rw [Arr.any_iff] at hc ⊢
    obtain ⟨b, x, hx, hh⟩ := hc
    rw [id] at hh
    subst hh
    exact ⟨b, true, C02_halted_stays_halted hs heps hdep hx ops hops h, rfl⟩

section Example
open Fixtures

/-- One element halted, then both; between the caches of a round, then after the iteration. -/
example :
    obs (run ⟨fresh⟩ (roundOps [round [1/2, 1] 4 6]))
      (fun c => some (c.isAnyHalted, c.isCompletelyHalted)) = some (true, false) ∧
    obs (run ⟨fresh⟩ (roundOps [round [1/2, 1] 4 6, round [1, 0] 4 6]))
      (fun c => some (c.isAnyHalted, c.isCompletelyHalted)) = some (true, true) ∧
    obs (run ⟨fresh⟩ [.cache "out" (bare (col 1 2))])
      (fun c => some (c.hasCachedUpdates, c.updatesReadyToCommit)) = some (true, false) ∧
    obs (run ⟨fresh⟩ ((roundOps [round [1/2, 1] 4 6]).take 2))
      (fun c => some (c.hasCachedUpdates, c.updatesReadyToCommit)) = some (true, true) ∧
    obs (run ⟨fresh⟩ (roundOps [round [1/2, 1] 4 6]))
      (fun c => some (c.hasCachedUpdates, c.updatesReadyToCommit)) = some (false, false) := by
  decide +kernel

/-- A controller with an empty batch. -/
example : 0 ∈ (Controller.probabilities (⟨{ fresh with probabilities := vec [] }⟩ : Controller ℚ)).shape :=
  by decide

end Example
end JaxAct
