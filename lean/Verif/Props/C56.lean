import Verif.Lemmas.Slice

/-! # C56 Batching is transparent -/

namespace JaxAct
open ACTStates
variable {α : Type} [Arith α]

/-- Same halting decision for the elements compared. -/
theorem AgreeAt.halted {s t : ACTStates α} (hs : s.WF) (ht : t.WF) {b b' : List Nat}
    (h : AgreeAt b b' s t) :
    (Controller.haltedBatches ⟨s⟩).at? b = (Controller.haltedBatches ⟨t⟩).at? b' := by
  rw [Controller.at?_haltedBatches _ hs.floating, Controller.at?_haltedBatches _ ht.floating]
  simp only [Controller.probabilities]
  rw [h.prob, h.pdtype, h.epsilon]

/-- C56.  Whenever a history succeeds on a batch, the history of element `b` alone, run on the
controller of element `b` alone (batch shape `()`), succeeds as well, and everything observable about
element `b` in the batched result is what the unbatched run gives.  Any arithmetic, any batch shape. -/
theorem C56_batching_transparent {s : ACTStates α} (hs : s.WF) {b : List Nat} {p : α}
    (hb : s.probabilities.at? b = some p)
    (hupd : ∀ n x, s.updates.get? n = some x → Sliceable s.probabilities.shape x)
    {ops : List (Op α)}
    (hops : ∀ n x, Op.cache n x ∈ ops → Sliceable s.probabilities.shape x) {c : Controller α}
    (h : run ⟨s⟩ ops = .ok c) :
    ∃ d, run ⟨s.slice b⟩ (ops.map (Op.slice b)) = .ok d ∧
      d.state.probabilities.shape = [] ∧ AgreeAt b [] c.state d.state ∧
      c.haltedBatches.at? b = d.haltedBatches.at? [] := by
  suffices hk : ∀ {ops : List (Op α)} {s t : ACTStates α} {p : α}, s.WF →
      s.probabilities.at? b = some p → SliceOf b s t →
      (∀ n x, Op.cache n x ∈ ops → Sliceable s.probabilities.shape x) → run ⟨s⟩ ops = .ok c →
      ∃ d, run ⟨t⟩ (ops.map (Op.slice b)) = .ok d ∧ SliceOf b c.state d.state by
    obtain ⟨d, h1, h2⟩ := hk hs hb (SliceOf.slice hs hb hupd) hops h
    obtain ⟨⟩ := c
    obtain ⟨⟩ := d
    exact ⟨_, h1, h2.scalar, h2.agree, h2.agree.halted (run_wf hs h) h2.wf⟩
  clear h hops hupd hb hs p s ops
  intro ops
  induction ops with
  | nil => intro s t p hs hb sl _ h; cases h; exact ⟨_, rfl, sl⟩
  | cons op ops ih =>
    intro s t p hs hb sl hops h
    simp only [run, bind_ok] at h
    obtain ⟨⟨s1⟩, e1, e2⟩ := h
    simp only [List.map_cons, run]
    cases op with
    | cache n x =>
      have ks := Controller.cacheUpdate_ok_iff.1 e1
      have w1 := Controller.CacheStep.wf hs ks
      have hin : InB s.probabilities.shape b := Arr.at?_isSome.1 (by
        simp only [Tensor.at?] at hb; rw [hb]; rfl)
      obtain ⟨x1, x2⟩ := (hops n x (by simp)).spec hin
      have hc : Op.call ⟨t⟩ (Op.slice b (.cache n x)) =
          .ok ⟨{ t with updates := t.updates.set n (x.map (Leaf.slice b)) }⟩ := by
        refine Controller.cacheUpdate_ok_iff.2 ⟨?_, rfl⟩
        obtain ⟨y, hy⟩ := Dict.mem_keys_iff.1
          ((sl.agree.upd.keys_iff n).1 (Dict.mem_keys_iff.2 ⟨_, ks.empty⟩))
        rw [hy, (sl.upd n _ y ks.empty hy).2.1 rfl]
      have w2 := Controller.CacheStep.wf sl.wf (Controller.cacheUpdate_ok_iff.1 hc)
      have q := ks.eq
      simp only at q
      subst q
      have sl' : SliceOf b { s with updates := s.updates.set n x }
          { t with updates := t.updates.set n (x.map (Leaf.slice b)) } := by
        refine ⟨{ sl.agree with upd := ?_ }, w2, sl.scalar, sl.acc, ?_⟩
        · intro m
          simp only [Dict.get?_set]
          split
          · exact Option.Rel.some x2
          · exact sl.agree.upd m
        · intro m u v hu hv
          simp only [Dict.get?_set] at hu hv
          split at hu
          · rename_i hm
            rw [if_pos hm] at hv
            cases hu; cases hv
            exact ⟨x1, PyTree.map_eq_none_iff _ _⟩
          · rename_i hm
            rw [if_neg hm] at hv
            exact sl.upd m u v hu hv
      obtain ⟨d, g1, g2⟩ := ih w1 hb sl' (fun n x hx => hops n x (by simp [hx])) e2
      exact ⟨d, by rw [hc]; exact g1, g2⟩
    | iterate h =>
      obtain ⟨⟨t1⟩, f1, f2⟩ := sl.iterateAct hs hb e1
      have st := Controller.iterateAct_ok hs e1
      obtain ⟨r, n, x, -, -, -, c1, -, -⟩ := st.cellAt hs hb
      obtain ⟨d, g1, g2⟩ := ih (Controller.IterStep.wf hs st) c1 f2
        (fun n x hx => by rw [st.pshape]; exact hops n x (by simp [hx])) e2
      refine ⟨d, ?_, g2⟩
      show (Controller.iterateAct ⟨t⟩ (h.slice b) >>= fun c' => run c' _) = _
      rw [f1]; exact g1
    | reset =>
      obtain ⟨⟨t1⟩, f1, f2⟩ := sl.resetBatches hs hb e1
      have st := Controller.resetBatches_ok hs e1
      obtain ⟨r, n, hr, hn⟩ := hs.cell hb
      obtain ⟨c1, -, -⟩ := st.cell b p r n hb hr hn
      obtain ⟨d, g1, g2⟩ := ih (Controller.ResetStep.wf hs st) c1 f2
        (fun n x hx => by rw [st.pshape]; exact hops n x (by simp [hx])) e2
      refine ⟨d, ?_, g2⟩
      show (Controller.resetBatches ⟨t⟩ >>= fun c' => run c' _) = _
      rw [f1]; exact g1

/-- C56, position and batch shape do not matter: an element `b` of one controller and an element
`b'` of another (whatever the batch shapes, in particular a permuted batch) that start alike and
receive the same things end alike. -/
theorem C56_position_irrelevant {s t : ACTStates α} (hs : s.WF) (ht : t.WF) {b b' : List Nat}
    {p : α} (hb : s.probabilities.at? b = some p) (hag : AgreeAt b b' s t)
    {ops ops' : List (Op α)} (hops : List.Forall₂ (OpAgree b b') ops ops') {c d : Controller α}
    (h1 : run ⟨s⟩ ops = .ok c) (h2 : run ⟨t⟩ ops' = .ok d) :
    AgreeAt b b' c.state d.state ∧ c.haltedBatches.at? b = d.haltedBatches.at? b' := by
  obtain ⟨⟩ := c
  obtain ⟨⟩ := d
  have h := hag.run hs ht hb hops h1 h2
  exact ⟨h, h.halted (run_wf hs h1) (run_wf ht h2)⟩

section Example
open Fixtures
attribute [local instance] Arith.exact

/-- Element 1 of two rounds on `fresh`, batched and alone. -/
example : obs (run ⟨fresh⟩ (roundOps [round [1/2, 2/3] 4 6, round [1/4, 2/3] 8 3]))
    (fun c => some (c.residuals.at? [1], c.haltedBatches.at? [1],
      entry? c.accumulators "tree" 1 [1, 0])) = some (some (1/3), some true, some (19/3)) ∧
    obs (run ⟨fresh.slice [1]⟩
      ((roundOps [round [1/2, 2/3] 4 6, round [1/4, 2/3] 8 3]).map (Op.slice [1])))
    (fun c => some (c.residuals.at? [], c.haltedBatches.at? [],
      entry? c.accumulators "tree" 1 [0])) = some (some (1/3), some true, some (19/3)) := by
  decide +kernel

/-- The hypotheses hold for that run. -/
example : (∀ n x, fresh.updates.get? n = some x → Sliceable fresh.probabilities.shape x) ∧
    (∀ n x, Op.cache n x ∈ roundOps [round [1/2, 2/3] 4 6] →
      Sliceable fresh.probabilities.shape x) ∧
    fresh.probabilities.at? [1] = some 0 := by
  refine ⟨fun n x h => ?_, fun n x h => ?_, by decide +kernel⟩
  · rcases get?_two h with ⟨-, rfl⟩ | ⟨-, rfl⟩ <;>
    · intro l hl
      cases hl
  · simp only [roundOps, round, Round.ops, List.flatMap_cons, List.flatMap_nil, List.map_cons,
      List.map_nil, List.cons_append, List.nil_append, List.append_nil, List.mem_cons, Op.cache.injEq,
      List.not_mem_nil, or_false, reduceCtorEq] at h
    rcases h with ⟨-, rfl⟩ | ⟨-, rfl⟩
    · exact (batched_pair _ _ _ rfl ⟨[], rfl⟩ rfl ⟨[1], rfl⟩).sliceable
    · exact (batched_bare _ _ rfl ⟨[1], rfl⟩).sliceable

end Example
end JaxAct
