import Verif.Lemmas.Entry
import Verif.Props.Fixtures

/-! # C55 Halting does not depend on the accumulated data -/

namespace JaxAct
open ACTStates
variable {α : Type}

/-- The call is not `cache_update`. -/
def Op.isStep : Op α → Bool
  | .cache _ _ => false
  | .iterate _ => true
  | .reset => true

/-- The bookkeeping of batch element `b` is the same in both states; nothing is said about
accumulators, defaults and updates. -/
structure SameBookkeeping (b : List Nat) (s t : ACTStates α) : Prop where
  epsilon : s.epsilon = t.epsilon
  depression : s.depression_constant = t.depression_constant
  pdtype : s.probabilities.dtype = t.probabilities.dtype
  idtype : s.iterations.dtype = t.iterations.dtype
  prob : s.probabilities.at? b = t.probabilities.at? b
  resid : s.residuals.at? b = t.residuals.at? b
  iter : s.iterations.at? b = t.iterations.at? b

variable [Arith α]

/-- Caches leave the bookkeeping alone. -/
theorem SameBookkeeping.caches {b : List Nat} {s : ACTStates α} :
    ∀ {ops : List (Op α)} {t : ACTStates α} {d : Controller α}, t.WF →
      (∀ op ∈ ops, ¬ op.isStep = true) → SameBookkeeping b s t → run ⟨t⟩ ops = .ok d →
      d.state.WF ∧ SameBookkeeping b s d.state
  | [], t, d, ht, _, h, hr => by cases hr; exact ⟨ht, h⟩
  | op :: ops, t, d, ht, hn, h, hr => by
    simp only [run, bind_ok] at hr
    obtain ⟨⟨t1⟩, e1, e2⟩ := hr
    cases op with
    | cache n x =>
      have st := Controller.cacheUpdate_ok_iff.1 e1
      have w := Controller.CacheStep.wf ht st
      obtain ⟨-, q⟩ := st
      simp only at q
      subst q
      exact SameBookkeeping.caches w (fun o ho => hn o (by simp [ho])) { h with } e2
    | iterate h => exact absurd rfl (hn (.iterate h) (by simp))
    | reset => exact absurd rfl (hn .reset (by simp))

/-- C55.  Two controllers start with the same bookkeeping at `b` (their accumulators need not have
anything in common) and go through histories with the same `iterate_act` and `reset_batches` calls,
with whatever updates cached in between.  Then probability, residual and iteration count of `b` are
the same at the end, and so is the halting decision.  Any arithmetic. -/
theorem C55_halting_ignores_data {b : List Nat} {p : α} {ops ops' : List (Op α)} :
    ∀ {s t : ACTStates α} {c d : Controller α}, s.WF → t.WF →
      s.probabilities.at? b = some p → SameBookkeeping b s t →
      ops.filter Op.isStep = ops'.filter Op.isStep →
      run ⟨s⟩ ops = .ok c → run ⟨t⟩ ops' = .ok d →
      SameBookkeeping b c.state d.state ∧ c.haltedBatches.at? b = d.haltedBatches.at? b := by
  suffices h : ∀ {ops ops' : List (Op α)} {p : α} {s t : ACTStates α} {c d : Controller α},
      s.WF → t.WF → s.probabilities.at? b = some p → SameBookkeeping b s t →
      ops.filter Op.isStep = ops'.filter Op.isStep →
      run ⟨s⟩ ops = .ok c → run ⟨t⟩ ops' = .ok d → SameBookkeeping b c.state d.state by
    intro s t c d hs ht hb hag hf h1 h2
    have r := h hs ht hb hag hf h1 h2
    refine ⟨r, ?_⟩
    obtain ⟨⟩ := c
    obtain ⟨⟩ := d
    rw [Controller.at?_haltedBatches _ (run_wf hs h1).floating,
      Controller.at?_haltedBatches _ (run_wf ht h2).floating]
    simp only [Controller.probabilities]
    rw [r.prob, r.pdtype, r.epsilon]
  clear ops ops' p
  intro ops
  induction ops with
  | nil =>
    intro ops' p s t c d hs ht hb hag hf h1 h2
    cases h1
    refine (SameBookkeeping.caches ht (fun op ho => ?_) hag h2).2
    exact List.filter_eq_nil_iff.1 hf.symm op ho
  | cons op ops ih =>
    intro ops' p s t c d hs ht hb hag hf h1 h2
    simp only [run, bind_ok] at h1
    obtain ⟨⟨s1⟩, e1, e2⟩ := h1
    cases op with
    | cache n x =>
      have st := Controller.cacheUpdate_ok_iff.1 e1
      have w := Controller.CacheStep.wf hs st
      obtain ⟨-, q⟩ := st
      simp only at q
      subst q
      exact ih w ht hb { hag with } (by simpa [Op.isStep] using hf) e2 h2
    | iterate h =>
      rw [List.filter_cons_of_pos rfl] at hf
      obtain ⟨l1, l2, rfl, hn, -, hf'⟩ := List.filter_eq_cons_iff.1 hf.symm
      rw [run_append, bind_ok] at h2
      obtain ⟨⟨t0⟩, f0, h2⟩ := h2
      obtain ⟨w0, hag0⟩ := SameBookkeeping.caches ht hn hag f0
      simp only [run, bind_ok] at h2
      obtain ⟨⟨t1⟩, f1, f2⟩ := h2
      have st := Controller.iterateAct_ok hs e1
      have st' := Controller.iterateAct_ok w0 f1
      obtain ⟨r, n, x, hr, hn, hx, c1, c2, c3⟩ := st.cellAt hs hb
      obtain ⟨r', n', x', hr', hn', hx', d1, d2, d3⟩ := st'.cellAt w0 (hag0.prob ▸ hb)
      have er : r = r' := Option.some.inj (hr.symm.trans (hag0.resid.trans hr'))
      have en : n = n' := Option.some.inj (hn.symm.trans (hag0.iter.trans hn'))
      have ex : x = x' := Option.some.inj (hx.symm.trans hx')
      subst er; subst en; subst ex
      simp only at d1 d2 d3
      rw [← hag0.pdtype, ← hag0.idtype, ← hag0.epsilon, ← hag0.depression] at d1 d2 d3
      exact ih (Controller.IterStep.wf hs st) (Controller.IterStep.wf w0 st') c1
        ⟨by rw [st.epsilon, st'.epsilon, hag0.epsilon],
          by rw [st.depression, st'.depression, hag0.depression],
          by rw [st.pdtype, st'.pdtype, hag0.pdtype], by rw [st.idtype, st'.idtype, hag0.idtype],
          c1.trans d1.symm, c2.trans d2.symm, c3.trans d3.symm⟩ hf'.symm e2 f2
    | reset =>
      rw [List.filter_cons_of_pos rfl] at hf
      obtain ⟨l1, l2, rfl, hn, -, hf'⟩ := List.filter_eq_cons_iff.1 hf.symm
      rw [run_append, bind_ok] at h2
      obtain ⟨⟨t0⟩, f0, h2⟩ := h2
      obtain ⟨w0, hag0⟩ := SameBookkeeping.caches ht hn hag f0
      simp only [run, bind_ok] at h2
      obtain ⟨⟨t1⟩, f1, f2⟩ := h2
      have st := Controller.resetBatches_ok hs e1
      have st' := Controller.resetBatches_ok w0 f1
      obtain ⟨r, n, hr, hn⟩ := hs.cell hb
      obtain ⟨c1, c2, c3⟩ := st.cell b p r n hb hr hn
      obtain ⟨d1, d2, d3⟩ := st'.cell b p r n (hag0.prob ▸ hb) (hag0.resid ▸ hr) (hag0.iter ▸ hn)
      simp only at d1 d2 d3
      rw [← hag0.pdtype, ← hag0.epsilon] at d1 d2 d3
      rw [← hag0.idtype] at d3
      exact ih (Controller.ResetStep.wf hs st) (Controller.ResetStep.wf w0 st') c1
        ⟨by rw [st.epsilon, st'.epsilon, hag0.epsilon],
          by rw [st.depression, st'.depression, hag0.depression],
          by rw [st.pdtype, st'.pdtype, hag0.pdtype], by rw [st.idtype, st'.idtype, hag0.idtype],
          c1.trans d1.symm, c2.trans d2.symm, c3.trans d3.symm⟩ hf'.symm e2 f2

section Example
open Fixtures
attribute [local instance] Arith.exact

/-- The same halting probabilities with different updates: the same bookkeeping (element 1 is halted
in the second round), different data. -/
example : obs (run ⟨fresh⟩ (roundOps [round [1/2, 2/3] 4 4, round [1/4, 2/3] 8 8]))
    (fun c => some (c.probabilities.at? [0], c.residuals.at? [1], entry? c.accumulators "tree" 0 [0]))
      = some (some (3/4), some (1/3), some 4) ∧
    obs (run ⟨fresh⟩ (roundOps [round [1/2, 2/3] 5 6, round [1/4, 2/3] 7 9]))
    (fun c => some (c.probabilities.at? [0], c.residuals.at? [1], entry? c.accumulators "tree" 0 [0]))
      = some (some (3/4), some (1/3), some (17/4)) := by decide +kernel

/-- The two histories have the same steps. -/
example : (roundOps [round [1/2, 2/3] 4 4]).filter Op.isStep =
    (roundOps [round [1/2, 2/3] 5 6]).filter Op.isStep := rfl

end Example
end JaxAct
