import Verif.Props.C50
import Verif.Props.C58
import Mathlib.Data.Finset.Powerset

/-! # C104 A jitted function of the controller is compiled once -/

namespace JaxAct
open PyTree
variable {α : Type}

/-- What `jax.jit` looks up a compiled function by, for a controller as its argument: the structure and
the types of the leaves that `flatten_controller` (`controller.py:446-449`) gives. -/
def Controller.jitKey (c : Controller α) : ObjAux × List (Option Aval) :=
  ((flattenObj c.raw).2, (flattenObj c.raw).1.map Atom.aval)

theorem jitKey_iff_types {c d : Controller α} :
    c.jitKey = d.jitKey ↔ c.state.raw.types = d.state.raw.types := by
  have h2 := flatten_types (fs := c.state.raw.fields) (gs := d.state.raw.fields)
  unfold RawState.types
  rw [← h2]
  unfold Controller.jitKey
  simp only [flattenObj, Controller.raw, treeFlattenState_eq, Prod.mk.injEq, ObjAux.controller.injEq,
    StateDef.mk.injEq]

variable [Arith α]

/-- Everything but the update slots keeps its types. -/
theorem run_alike_but_updates : ∀ {ops : List (Op α)} {s : ACTStates α} {c : Controller α}, s.WF →
    run ⟨s⟩ ops = .ok c → StatesAlike { s with updates := [] } { c.state with updates := [] }
  | [], s, c, _, h => by
    cases h
    exact ⟨⟨rfl, rfl⟩, ⟨rfl, rfl⟩, ⟨rfl, rfl⟩, .refl _, .refl _, .refl _, rfl⟩
  | op :: ops, s, c, hs, h => by
    simp only [run, bind_ok] at h
    obtain ⟨⟨s1⟩, e1, e2⟩ := h
    have step : StatesAlike { s with updates := [] } { s1 with updates := [] } ∧ s1.WF := by
      cases op with
      | cache n x =>
        have k := Controller.cacheUpdate_ok_iff.1 e1
        refine ⟨?_, Controller.CacheStep.wf hs k⟩
        have q := k.eq
        simp only at q
        subst q
        exact ⟨⟨rfl, rfl⟩, ⟨rfl, rfl⟩, ⟨rfl, rfl⟩, .refl _, .refl _, .refl _, rfl⟩
      | iterate g =>
        have t := iterate_types hs e1
        exact ⟨⟨t.iterations, t.residuals, t.probabilities, t.defaults, t.accumulators, .refl _,
          t.error_mode⟩, Controller.IterStep.wf hs (Controller.iterateAct_ok hs e1)⟩
      | reset =>
        have t := reset_types hs e1
        exact ⟨⟨t.iterations, t.residuals, t.probabilities, t.defaults, t.accumulators, .refl _,
          t.error_mode⟩, Controller.ResetStep.wf hs (Controller.resetBatches_ok hs e1)⟩
    exact step.1.trans (run_alike_but_updates step.2 e2)

/-- C104: two controllers that come from the same one by any histories are the same to `jax.jit`
exactly if their pending updates are under the same names and of the same types. -/
theorem C104_same_key_iff {s : ACTStates α} (hs : s.WF) (hmode : s.error_mode = Option.none)
    {ops ops' : List (Op α)} {c c' : Controller α} (h : run ⟨s⟩ ops = .ok c)
    (h' : run ⟨s⟩ ops' = .ok c') :
    c.jitKey = c'.jitKey ↔ ∀ n, Option.Rel TreesAlike (c.state.updates.get? n)
      (c'.state.updates.get? n) := by
  have hw := run_wf hs h
  have hw' := run_wf hs h'
  have h1 := run_alike_but_updates hs h
  have h2 := h1.symm.trans (run_alike_but_updates hs h')
  have hm : c.state.error_mode = Option.none := by rw [← hmode]; exact h1.error_mode.symm
  rw [jitKey_iff_types, raw_types_iff hw.acc_keys hw.def_keys hw.upd_keys hm]
  exact ⟨fun g => g.1.updates, fun g => ⟨⟨h2.iterations, h2.residuals, h2.probabilities, h2.defaults,
    h2.accumulators, g, h2.error_mode⟩, hw'.acc_keys, hw'.def_keys, hw'.upd_keys⟩⟩

/-- The slots after a history. -/
theorem slots_run {s : ACTStates α} (hs : s.WF)
    (hidle : ∀ n u, s.updates.get? n = some u → u = .none) {ops : List (Op α)} {c : Controller α}
    (h : run ⟨s⟩ ops = .ok c) (n : String) :
    (n ∈ s.accumulators.keys → ∃ v, c.state.updates.get? n = some v ∧
      (!v.isNone) = pendingAfter n false ops) ∧
    (n ∉ s.accumulators.keys → c.state.updates.get? n = Option.none) := by
  constructor
  · intro hn
    obtain ⟨u, hu⟩ := Dict.mem_keys_iff.1 ((hs.upd_iff n).2 hn)
    obtain ⟨v, h1, h2⟩ := pending_run hs hn h u hu
    rw [hidle n u hu] at h2
    exact ⟨v, h1, h2⟩
  · intro hn
    cases hv : c.state.updates.get? n with
    | none => rfl
    | some v =>
      exfalso
      have h1 := ((run_wf hs h).upd_iff n).1 (Dict.mem_keys_iff.2 ⟨v, hv⟩)
      obtain ⟨a, ha⟩ := Dict.mem_keys_iff.1 h1
      obtain ⟨b, hb, -⟩ := optionRel_some_right (ha ▸ (run_alike_but_updates hs h).accumulators n)
      exact hn (Dict.mem_keys_iff.2 ⟨b, hb⟩)

/-- C104: with a controller that has no updates pending, `jax.jit` finds the function it compiled for
the controller before any history again exactly if all updates cached since have been consumed by an
iteration, i.e. exactly if `has_cached_updates` is false: complete rounds and resets never make it
compile again. -/
theorem C104_compiled_once {s : ACTStates α} (hs : s.WF) (hmode : s.error_mode = Option.none)
    (hidle : ∀ n u, s.updates.get? n = some u → u = .none) {ops : List (Op α)} {c : Controller α}
    (h : run ⟨s⟩ ops = .ok c) :
    (c.jitKey = (⟨s⟩ : Controller α).jitKey ↔ c.hasCachedUpdates = false) ∧
    (c.jitKey = (⟨s⟩ : Controller α).jitKey ↔
      ∀ n ∈ s.accumulators.keys, pendingAfter n false ops = false) := by
  have key : c.jitKey = (⟨s⟩ : Controller α).jitKey ↔
      ∀ n ∈ s.accumulators.keys, pendingAfter n false ops = false := by
    rw [C104_same_key_iff hs hmode h (ops' := []) rfl]
    constructor
    · intro g n hn
      obtain ⟨v, hv, e⟩ := (slots_run hs hidle h n).1 hn
      obtain ⟨u, hu, huv⟩ := optionRel_some_left (hv ▸ g n)
      rw [← e, huv.none_iff.2 (hidle n u hu)]
      rfl
    · intro g n
      by_cases hn : n ∈ s.accumulators.keys
      · obtain ⟨v, hv, e⟩ := (slots_run hs hidle h n).1 hn
        obtain ⟨u, hu⟩ := Dict.mem_keys_iff.1 ((hs.upd_iff n).2 hn)
        rw [g n hn] at e
        have e : v = .none := PyTree.isNone_iff.1 (by simpa using e)
        simp only [hv, hu, e, hidle n u hu]
        exact .some .none
      · rw [(slots_run hs hidle h n).2 hn, (slots_run (ops := []) hs hidle rfl n).2 hn]
        exact .none
  refine ⟨?_, key⟩
  rw [key, ← Bool.not_eq_true, (C58_pending_flags hs hidle h).1]
  push Not
  simp only [Bool.not_eq_true]

/-- What the slots hold has the types of what has been cached. -/
theorem slots_typed {T : String → PyTree (Leaf α)} : ∀ {ops : List (Op α)} {s : ACTStates α}
    {c : Controller α}, s.WF → (∀ n x, Op.cache n x ∈ ops → TreesAlike x (T n)) →
    (∀ n u, s.updates.get? n = some u → u = .none ∨ TreesAlike u (T n)) → run ⟨s⟩ ops = .ok c →
    ∀ n u, c.state.updates.get? n = some u → u = .none ∨ TreesAlike u (T n)
  | [], s, c, _, _, hi, h => by cases h; exact hi
  | op :: ops, s, c, hs, hT, hi, h => by
    simp only [run, bind_ok] at h
    obtain ⟨⟨s1⟩, e1, e2⟩ := h
    have step : s1.WF ∧ ∀ n u, s1.updates.get? n = some u → u = .none ∨ TreesAlike u (T n) := by
      cases op with
      | cache m x =>
        have k := Controller.cacheUpdate_ok_iff.1 e1
        refine ⟨Controller.CacheStep.wf hs k, fun n u hu => ?_⟩
        have q := k.eq
        simp only at q
        subst q
        simp only [Dict.get?_set] at hu
        split at hu
        · rename_i e
          subst e
          cases hu
          exact .inr (hT _ _ (by simp))
        · exact hi n u hu
      | iterate g =>
        have k := Controller.iterateAct_ok hs e1
        refine ⟨Controller.IterStep.wf hs k, fun n u hu => ?_⟩
        obtain ⟨v, hv, huv⟩ := optionRel_some_right (hu ▸ (iterate_types hs e1).updates n)
        simp only [Dict.get?_map_none] at hv
        refine .inl (huv.none_iff.1 ?_)
        cases h0 : s.updates.get? n with
        | none => rw [h0] at hv; cases hv
        | some w => rw [h0] at hv; cases hv; rfl
      | reset =>
        have k := Controller.resetBatches_ok hs e1
        refine ⟨Controller.ResetStep.wf hs k, fun n u hu => ?_⟩
        have q := k.updates
        simp only at q
        rw [q] at hu
        exact hi n u hu
    exact slots_typed step.1 (fun n x hx => hT n x (by simp [hx])) step.2 e2

/-- C104: if all updates cached under a name have the same types, two controllers that come from one
without updates pending are the same to `jax.jit` exactly if updates are pending under the same names.
-/
theorem C104_pending_names {s : ACTStates α} (hs : s.WF) (hmode : s.error_mode = Option.none)
    (hidle : ∀ n u, s.updates.get? n = some u → u = .none) (T : String → PyTree (Leaf α))
    {ops ops' : List (Op α)} (hT : ∀ n x, Op.cache n x ∈ ops ∨ Op.cache n x ∈ ops' → TreesAlike x (T n))
    {c c' : Controller α} (h : run ⟨s⟩ ops = .ok c) (h' : run ⟨s⟩ ops' = .ok c') :
    c.jitKey = c'.jitKey ↔
      ∀ n ∈ s.accumulators.keys, pendingAfter n false ops = pendingAfter n false ops' := by
  rw [C104_same_key_iff hs hmode h h']
  have t := slots_typed hs (T := T) (fun n x hx => hT n x (.inl hx)) (fun n u hu => .inl (hidle n u hu)) h
  have t' := slots_typed hs (T := T) (fun n x hx => hT n x (.inr hx)) (fun n u hu => .inl (hidle n u hu)) h'
  constructor
  · intro g n hn
    obtain ⟨v, hv, e⟩ := (slots_run hs hidle h n).1 hn
    obtain ⟨v', hv', e'⟩ := (slots_run hs hidle h' n).1 hn
    have gn := g n
    rw [hv, hv'] at gn
    cases gn with
    | some a =>
      rw [← e, ← e', Bool.eq_iff_iff]
      simp only [Bool.not_eq_true', ← Bool.not_eq_true, PyTree.isNone_iff, a.none_iff]
  · intro g n
    by_cases hn : n ∈ s.accumulators.keys
    · obtain ⟨v, hv, e⟩ := (slots_run hs hidle h n).1 hn
      obtain ⟨v', hv', e'⟩ := (slots_run hs hidle h' n).1 hn
      rw [hv, hv']
      refine .some ?_
      have gn := g n hn
      rw [← e, ← e', Bool.not_inj_iff, Bool.eq_iff_iff, PyTree.isNone_iff, PyTree.isNone_iff] at gn
      rcases t n v hv with hv0 | a
      · rw [hv0, gn.1 hv0]
        exact .refl _
      · rcases t' n v' hv' with hv0 | a'
        · rw [hv0, gn.2 hv0]
          exact .refl _
        · exact a.trans a'.symm
    · rw [(slots_run hs hidle h n).2 hn, (slots_run hs hidle h' n).2 hn]
      exact .none

/-- C104: so with updates of fixed types at most two to the number of accumulators functions are
compiled, however many histories there are and however long they are. -/
theorem C104_finitely_many {s : ACTStates α} (hs : s.WF) (hmode : s.error_mode = Option.none)
    (hidle : ∀ n u, s.updates.get? n = some u → u = .none) (T : String → PyTree (Leaf α)) :
    ∃ keys : Finset (ObjAux × List (Option Aval)), keys.card ≤ 2 ^ s.accumulators.length ∧
      ∀ (ops : List (Op α)) (c : Controller α), (∀ n x, Op.cache n x ∈ ops → TreesAlike x (T n)) →
        run ⟨s⟩ ops = .ok c → c.jitKey ∈ keys := by
  classical
  let From (P : Finset String) (k : ObjAux × List (Option Aval)) : Prop :=
    ∃ (ops : List (Op α)) (c : Controller α), (∀ n x, Op.cache n x ∈ ops → TreesAlike x (T n)) ∧
      run ⟨s⟩ ops = .ok c ∧ c.jitKey = k ∧
      P = s.accumulators.keys.toFinset.filter fun n => pendingAfter n false ops = true
  refine ⟨s.accumulators.keys.toFinset.powerset.image fun P =>
    if h : ∃ k, From P k then h.choose else (⟨s⟩ : Controller α).jitKey, ?_, ?_⟩
  · refine Finset.card_image_le.trans ?_
    rw [Finset.card_powerset]
    refine Nat.pow_le_pow_right (by norm_num) ((List.toFinset_card_le _).trans ?_)
    simp [Dict.keys]
  · intro ops c hT h
    refine Finset.mem_image.2 ⟨s.accumulators.keys.toFinset.filter fun n => pendingAfter n false ops = true,
      Finset.mem_powerset.2 (Finset.filter_subset _ _), ?_⟩
    have hk : ∃ k, From (s.accumulators.keys.toFinset.filter fun n => pendingAfter n false ops = true) k :=
      ⟨_, ops, c, hT, h, rfl, rfl⟩
    rw [dif_pos hk]
    obtain ⟨ops', c', hT', h', hkey, hP⟩ := hk.choose_spec
    rw [← hkey, C104_pending_names hs hmode hidle T (fun n x hx => hx.elim (hT' n x) (hT n x)) h' h]
    intro n hn
    have := Finset.ext_iff.1 hP n
    simp only [Finset.mem_filter, List.mem_toFinset, hn, true_and] at this
    exact Bool.eq_iff_iff.2 this.symm

section Example
open Fixtures
attribute [local instance] Arith.exact

/-- The keys before, between the caches of a round, after it, and after a reset. -/
example :
    obs (run ⟨fresh⟩ [.cache "out" (bare (col 1 2))])
      (fun c => some (decide (c.jitKey = (⟨fresh⟩ : Controller ℚ).jitKey), c.hasCachedUpdates)) =
        some (false, true) ∧
    obs (run ⟨fresh⟩ (roundOps [round [1/2, 1] 4 6]))
      (fun c => some (decide (c.jitKey = (⟨fresh⟩ : Controller ℚ).jitKey), c.hasCachedUpdates)) =
        some (true, false) ∧
    obs (run ⟨simple⟩ (roundOps [sround [1/2, 1] 4 6] ++ [.reset]))
      (fun c => some (decide (c.jitKey = (⟨simple⟩ : Controller ℚ).jitKey), c.hasCachedUpdates)) =
        some (true, false) := by
  decide +kernel

/-- The controller of the example meets the hypotheses. -/
example : fresh.WF ∧ fresh.error_mode = Option.none ∧ fresh.accumulators.length = 2 ∧
    (∀ n u, fresh.updates.get? n = some u → u = .none) :=
  ⟨fresh_wf, rfl, rfl, by
    intro n u hu
    have := Dict.mem_of_get? hu
    simp [fresh] at this
    rcases this with ⟨-, h⟩ | ⟨-, h⟩ <;> exact h⟩

end Example
end JaxAct
