import Verif.Lemmas.Entry
import Verif.Props.Fixtures
import Verif.Props.C02

/-! # C03 Halted batch elements are frozen -/

namespace JaxAct
open ACTStates

/-- C03.  For every scalar arithmetic (no law assumed): `iterate_act` leaves the residual, the
counter and all accumulator entries of a halted element as they are. -/
theorem C03_halted_elements_frozen {α : Type} [Arith α] {s : ACTStates α} (hwf : s.WF)
    {h : Tensor α} {c' : Controller α} (hit : Controller.iterateAct ⟨s⟩ h = .ok c')
    {b : List Nat} (hb : (Controller.haltedBatches ⟨s⟩).at? b = some true) :
    c'.residuals.at? b = s.residuals.at? b ∧
    c'.iterations.at? b = s.iterations.at? b ∧
    ∀ (name : String) (k : Nat) (i : List Nat),
      entry? c'.accumulators name k (b ++ i) = entry? s.accumulators name k (b ++ i) := by
  have st := Controller.iterateAct_ok hwf hit
  rw [halted_iff hwf.floating] at hb
  obtain ⟨p, hp, hh⟩ := hb
  obtain ⟨r, n, x, hr, hn, -, -, hr', hn'⟩ := st.cellAt hwf hp
  have hlen : b.length = s.probabilities.shape.length :=
    (Arr.at?_isSome.1 (by simp only [Tensor.at?] at hp; rw [hp]; rfl)).length
  refine ⟨?_, ?_, fun name k i => ?_⟩
  · rw [hr]
    show c'.state.residuals.at? b = _
    rw [hr']
    simp [Spec.step, hh]
  · rw [hn]
    show c'.state.iterations.at? b = _
    rw [hn']
    simp [Spec.step, hh]
  · cases ha : entry? s.accumulators name k (b ++ i) with
    | none => exact st.entry_none ha
    | some a =>
      obtain ⟨u, p', x', dA, dU, -, hp', -, he⟩ := st.entry hwf ha
      rw [← hlen, List.take_left, hp] at hp'
      cases hp'
      show entry? c'.state.accumulators name k (b ++ i) = _
      rw [he, Spec.accStep, if_pos hh]

section
variable {K : Type} [Field K] [LinearOrder K] [IsStrictOrderedRing K]
attribute [local instance] Arith.exact

/-- C03 over whole histories without reset (exact arithmetic, where halting persists). -/
theorem C03_frozen_until_reset {s : ACTStates K} (hwf : s.WF)
    (heps : 0 < s.epsilon) (hdep : 0 ≤ s.depression_constant)
    {b : List Nat} (hb : (Controller.haltedBatches ⟨s⟩).at? b = some true)
    (ops : List (Op K)) (hops : ∀ op ∈ ops, op.NotReset) {c' : Controller K}
    (hrun : run ⟨s⟩ ops = .ok c') :
    c'.residuals.at? b = s.residuals.at? b ∧
    c'.iterations.at? b = s.iterations.at? b ∧
    ∀ (name : String) (k : Nat) (i : List Nat),
      entry? c'.accumulators name k (b ++ i) = entry? s.accumulators name k (b ++ i) := by
  induction ops generalizing s with
  | nil => cases hrun; exact ⟨rfl, rfl, fun _ _ _ => rfl⟩
  | cons op ops ih =>
    simp only [run, bind_ok] at hrun
    obtain ⟨⟨s1⟩, h1, h2⟩ := hrun
    have hrest : ∀ op ∈ ops, op.NotReset := fun o ho => hops o (by simp [ho])
    have hb1 : (Controller.haltedBatches ⟨s1⟩).at? b = some true :=
      C02_halted_stays_halted hwf heps hdep hb [op] (by
        intro o ho; rw [List.mem_singleton] at ho; subst ho; exact hops _ (by simp))
        (c' := ⟨s1⟩) (by simp [run, h1])
    cases op with
    | cache n t =>
      obtain ⟨he, heq⟩ := Controller.cacheUpdate_ok_iff.1 h1
      have hwf1 := Controller.CacheStep.wf hwf (Controller.cacheUpdate_ok_iff.1 h1)
      simp only at heq
      subst heq
      have := ih hwf1 heps hdep hb1 hrest h2
      exact this
    | iterate h =>
      have st := Controller.iterateAct_ok hwf h1
      obtain ⟨e1, e2, e3⟩ := C03_halted_elements_frozen hwf h1 hb
      obtain ⟨f1, f2, f3⟩ := ih (Controller.IterStep.wf hwf st) (by rw [st.epsilon]; exact heps)
        (by rw [st.depression]; exact hdep) hb1 hrest h2
      exact ⟨f1.trans e1, f2.trans e2, fun name k i => (f3 name k i).trans (e3 name k i)⟩
    | reset => exact absurd (hops .reset (by simp)) (by simp [Op.NotReset])

end

section Example
open Fixtures
attribute [local instance] Arith.exact

/-- Element 0 is halted, element 1 is not; a round with large updates changes only element 1. -/
example :
    (Controller.haltedBatches ⟨{ fresh with probabilities := vec [1, 1/2] }⟩).at? [0] = some true ∧
    obs (run ⟨{ fresh with probabilities := vec [1, 1/2] }⟩ (roundOps [round [1/2, 1/4] 100 200]))
      (fun c => some (entry? c.accumulators "tree" 0 [0], entry? c.accumulators "tree" 0 [1],
        c.iterations.at? [0], c.iterations.at? [1])) =
      some (some 0, some 50, some 0, some 1) := by decide +kernel

end Example

end JaxAct
