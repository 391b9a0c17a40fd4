import Verif.Spec.Loop
import Verif.Lemmas.Flatten

/-! # Lemmas about `execute_act` -/

namespace JaxAct
open PyTree
variable {α σ S : Type}

/-! ### The loop -/

theorem WhileSteps.unique {cond : σ → Bool} {step : σ → Res σ} {x y z : σ}
    (h : WhileSteps cond step x y) (h' : WhileSteps cond step x z) : y = z := by
  induction h with
  | stop x hc =>
    cases h' with
    | stop => rfl
    | next _ _ _ hc' => rw [hc] at hc'; cases hc'
  | next x w y hc hs _ ih =>
    cases h' with
    | stop _ hc' => rw [hc] at hc'; cases hc'
    | next _ w' _ _ hs' h' =>
      rw [hs] at hs'
      cases hs'
      exact ih h'

theorem WhileSteps.trajectory {cond : σ → Bool} {step : σ → Res σ} {x y : σ}
    (h : WhileSteps cond step x y) : cond y = false ∧
    ∃ (k : Nat) (f : Nat → σ), f 0 = x ∧ f k = y ∧
      ∀ i < k, cond (f i) = true ∧ step (f i) = .ok (f (i + 1)) := by
  induction h with
  | stop x hc => exact ⟨hc, 0, fun _ => x, rfl, rfl, fun i hi => absurd hi (Nat.not_lt_zero i)⟩
  | next x w y hc hs _ ih =>
    obtain ⟨hy, k, f, h0, hk, hf⟩ := ih
    refine ⟨hy, k + 1, fun i => match i with | 0 => x | i + 1 => f i, rfl, hk, fun i hi => ?_⟩
    cases i with
    | zero => exact ⟨hc, by simpa [h0] using hs⟩
    | succ i => exact hf i (by omega)

theorem WhileSteps.of_trajectory {cond : σ → Bool} {step : σ → Res σ} (k : Nat) {x y : σ}
    (f : Nat → σ) (h0 : f 0 = x) (hk : f k = y) (hy : cond y = false)
    (hf : ∀ i < k, cond (f i) = true ∧ step (f i) = .ok (f (i + 1))) : WhileSteps cond step x y := by
  induction k generalizing x f with
  | zero => rw [← h0, hk]; exact .stop y hy
  | succ k ih =>
    have h1 := hf 0 (by omega)
    rw [h0] at h1
    exact .next x (f 1) y h1.1 h1.2
      (ih (x := f 1) (fun i => f (i + 1)) rfl hk fun i hi => hf (i + 1) (by omega))

theorem WhileLoop.unique [DecidableEq S] {sig : σ → Option S} {rebuild : σ → σ} {cond : σ → Bool}
    {body : σ → Res σ} {init : σ} {r r' : Res σ} (h : WhileLoop sig rebuild cond body init r)
    (h' : WhileLoop sig rebuild cond body init r') : r = r' := by
  unfold WhileLoop at h h'
  cases hs : sig init with
  | none => simp only [hs] at h h'; rw [h, h']
  | some t =>
    simp only [hs] at h h'
    cases hb : body (rebuild init) with
    | error e => simp only [hb] at h h'; rw [h, h']
    | ok out =>
      simp only [hb] at h h'
      split at h
      · rw [if_pos ‹_›] at h'
        obtain ⟨z, hz, rfl⟩ := h
        obtain ⟨z', hz', rfl⟩ := h'
        rw [hz.unique hz']
      · rw [if_neg ‹_›] at h'
        rw [h, h']

/-- What a successful loop means. -/
theorem WhileLoop.ok_iff [DecidableEq S] {sig : σ → Option S} {rebuild : σ → σ} {cond : σ → Bool}
    {body : σ → Res σ} {init z : σ} : WhileLoop sig rebuild cond body init (.ok z) ↔
    (∃ t out, sig init = some t ∧ body (rebuild init) = .ok out ∧ sig out = some t) ∧
      WhileSteps cond (fun x => (body x).map rebuild) (rebuild init) z := by
  unfold WhileLoop
  constructor
  · intro h
    split at h
    · cases h
    · rename_i t ht
      split at h
      · cases h
      · rename_i out ho
        split at h
        · obtain ⟨z', hz, he⟩ := h
          cases he
          exact ⟨⟨t, out, ht, ho, ‹_›⟩, hz⟩
        · cases h
  · rintro ⟨⟨t, out, h1, h2, h3⟩, hz⟩
    rw [h1]
    simp only [h2, if_pos h3]
    exact ⟨z, hz, rfl⟩

/-- Where an exception of the loop comes from. -/
theorem WhileLoop.error_iff [DecidableEq S] {sig : σ → Option S} {rebuild : σ → σ} {cond : σ → Bool}
    {body : σ → Res σ} {init : σ} {e : Err} : WhileLoop sig rebuild cond body init (.error e) ↔
    (sig init = Option.none ∧ e = .typeError) ∨
    ∃ t, sig init = some t ∧ (body (rebuild init) = .error e ∨
      ∃ out, body (rebuild init) = .ok out ∧ sig out ≠ some t ∧ e = .typeError) := by
  unfold WhileLoop
  cases hs : sig init with
  | none => simp
  | some t =>
    simp only [reduceCtorEq, false_and, Option.some.injEq, exists_eq_left', false_or]
    cases hb : body (rebuild init) with
    | error e' => simp [eq_comm]
    | ok out =>
      by_cases ho : sig out = some t
      · simp [ho]
      · simp [ho]

/-! ### Carries -/

theorem flattenObj_sorted (s : ACTStates α) :
    flattenObj (Controller.mk s.sorted).raw = flattenObj (Controller.mk s).raw := by
  simp only [flattenObj, Controller.raw]
  rw [← ACTStates.raw_canon, treeFlattenState_canon]

@[simp] theorem Carry.rebuild_sig (x : Carry α) : x.rebuild.sig = x.sig := by
  unfold Carry.sig Carry.rebuild
  rw [flattenObj_sorted]
  simp only [treeLeaves_canon, treeStructure_canon]

theorem avals_some_iff : ∀ {as : List (Atom α)} {vs : List Aval},
    avals as = some vs ↔ List.Forall₂ (fun a v => a.aval = some v) as vs
  | [], vs => by
    simp only [avals, Option.some.injEq]
    constructor
    · rintro rfl; exact .nil
    · intro h; cases h; rfl
  | a :: as, vs => by
    simp only [avals]
    constructor
    · intro h
      split at h
      · rename_i v vs' h1 h2
        cases h
        exact .cons h1 (avals_some_iff.1 h2)
      · cases h
    · intro h
      cases h with
      | cons h1 h2 => rw [h1, avals_some_iff.2 h2]

/-! ### `execute_act` -/

variable [Arith α]

theorem Layer.adapter_metadata {l : Layer α} {check : Bool} {x y : Carry α}
    (h : l.adapter check x = .ok y) : y.metadata = x.metadata.increaseCounter := by
  obtain ⟨u, -, h⟩ := bind_ok.1 h
  obtain ⟨⟨a, b⟩, -, h⟩ := bind_ok.1 h
  unfold asCarry at h
  split at h <;> cases h <;> rfl

/-- One loop iteration, in terms of `run_iteration`. -/
theorem Layer.adapter_ok {l : Layer α} {check : Bool} {x y : Carry α}
    (h : l.adapter check x = .ok y) :
    l.Runs ⟨x.controller, x.state⟩ ⟨y.controller, y.state⟩ ∧
      y.metadata = x.metadata.increaseCounter := by
  refine ⟨?_, adapter_metadata h⟩
  obtain ⟨u, hu, h2⟩ := bind_ok.1 h
  obtain ⟨⟨a, b⟩, hab, h3⟩ := bind_ok.1 h2
  clear h h2
  obtain ⟨u', hu', hc⟩ := bind_ok.1 hu
  have : u' = u := by
    cases check
    · cases hc; rfl
    · obtain ⟨_, _, hc⟩ := bind_ok.1 hc
      cases hc; rfl
  subst this
  have hr : u' = .tuple [a, b] ∨ u' = .list [a, b] := by
    unfold Ret.unpack at hab
    split at hab <;> cases hab
    · exact .inl rfl
    · exact .inr rfl
  unfold asCarry at h3
  split at h3
  · rename_i t heq
    cases heq
    cases h3
    exact ⟨u', .given, hu', hr, .inr ⟨rfl, rfl⟩⟩
  · rename_i c' t heq
    cases heq
    cases h3
    exact ⟨u', .ctrl c', hu', hr, .inl rfl⟩
  · cases h3

/-- Conversely, a run that returns a pair is an iteration if its checks pass. -/
theorem Layer.adapter_of_runs {l : Layer α} {check : Bool} {x : LoopState α} {y : LoopState α}
    {m : ACTMetaData} (h : l.Runs x y)
    (hv : check = true → ∀ ret, l.runIteration x.controller x.state = .ok ret →
      validateUpdate x.controller ret = .ok ()) :
    l.adapter check ⟨x.controller, x.state, m⟩ = .ok ⟨y.controller, y.state, m.increaseCounter⟩ := by
  obtain ⟨ret, first, h1, h2, h3⟩ := h
  have hw : l.wrappedRun check x.controller x.state = .ok ret := by
    unfold wrappedRun
    rw [h1]
    cases check with
    | false => rfl
    | true =>
      show (do validateUpdate x.controller ret; pure ret) = _
      rw [hv rfl ret h1]
      rfl
  have hu : ret.unpack = .ok (first, .value y.state) := by
    rcases h2 with rfl | rfl <;> rfl
  unfold adapter
  simp only [hw]
  show (do let items ← ret.unpack; asCarry x.controller m.increaseCounter items) = _
  rw [hu]
  rcases h3 with rfl | ⟨rfl, h4⟩
  · rfl
  · rw [h4]; rfl

end JaxAct
