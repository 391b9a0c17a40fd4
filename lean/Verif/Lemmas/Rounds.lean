import Verif.Lemmas.Entry
import Mathlib.Data.List.Induction

/-! # Complete rounds: caches followed by one iteration -/

namespace JaxAct
variable {α : Type} [Arith α]
open ACTStates

/-- A filled slot survives further caches. -/
theorem caches_keep {n : String} {t : PyTree (Leaf α)} (ht : t ≠ .none) :
    ∀ (us : List (String × PyTree (Leaf α))) {s : ACTStates α} {c' : Controller α},
      s.updates.get? n = some t → run ⟨s⟩ (us.map fun nu => Op.cache nu.1 nu.2) = .ok c' →
      c'.state.updates.get? n = some t
  | [], s, c', h, hr => by cases hr; exact h
  | (m, x) :: us, s, c', h, hr => by
    simp only [List.map_cons, run, bind_ok, Op.call] at hr
    obtain ⟨⟨s1⟩, h1, h2⟩ := hr
    obtain ⟨e1, e2⟩ := Controller.cacheUpdate_ok_iff.1 h1
    simp only at e2
    subst e2
    have hne : m ≠ n := by
      rintro rfl
      rw [h] at e1
      exact ht (Option.some.inj e1)
    exact caches_keep ht us (by simp only; rw [Dict.get?_set_ne _ hne]; exact h) h2

/-- The state after the caches of a round. -/
theorem caches_ok : ∀ (us : List (String × PyTree (Leaf α))) {s : ACTStates α} {c' : Controller α},
    s.WF → run ⟨s⟩ (us.map fun nu => Op.cache nu.1 nu.2) = .ok c' →
    c'.state.WF ∧ (∃ U, c'.state = { s with updates := U }) ∧
    ∀ n t, Dict.get? us n = some t → t ≠ .none → c'.state.updates.get? n = some t
  | [], s, c', hwf, hr => by
    cases hr
    exact ⟨hwf, ⟨s.updates, rfl⟩, fun n t h => by cases h⟩
  | (m, x) :: us, s, c', hwf, hr => by
    simp only [List.map_cons, run, bind_ok, Op.call] at hr
    obtain ⟨⟨s1⟩, h1, h2⟩ := hr
    have st := Controller.cacheUpdate_ok_iff.1 h1
    have hwf1 := Controller.CacheStep.wf hwf st
    obtain ⟨e1, e2⟩ := st
    simp only at e2
    subst e2
    obtain ⟨f1, ⟨U, f2⟩, f3⟩ := caches_ok us hwf1 h2
    refine ⟨f1, ⟨U, f2⟩, fun n t hn ht => ?_⟩
    rw [Dict.get?_cons] at hn
    split at hn
    · rename_i hmn
      simp only at hmn hn
      subst hmn
      cases hn
      exact caches_keep ht us (by simp) h2
    · exact f3 n t hn ht

/-- A successful round: the state after the caches, then an iteration. -/
theorem round_ok_get {r : Round α} {s : ACTStates α} {c' : Controller α} (hwf : s.WF)
    (hr : run ⟨s⟩ r.ops = .ok c') :
    ∃ U, ({ s with updates := U } : ACTStates α).WF ∧
      IterStep { s with updates := U } r.halting c'.state ∧
      ∀ n t, Dict.get? r.updates n = some t → t ≠ .none → U.get? n = some t := by
  unfold Round.ops at hr
  rw [run_append, bind_ok] at hr
  obtain ⟨⟨s1⟩, h1, h2⟩ := hr
  obtain ⟨f1, ⟨U, f2⟩, f3⟩ := caches_ok _ hwf h1
  simp only [run, bind_ok, Op.call] at h2
  obtain ⟨c2, h3, h4⟩ := h2
  cases h4
  simp only at f1 f2 f3
  subst f2
  exact ⟨U, f1, Controller.iterateAct_ok f1 h3, f3⟩

omit [Arith α] in
theorem leaf?_transfer {d U : Dict (PyTree (Leaf α))}
    (h : ∀ n t, d.get? n = some t → t ≠ .none → U.get? n = some t) {n : String} {k : Nat}
    {l : Leaf α} (hl : leaf? d n k = some l) : leaf? U n k = some l := by
  obtain ⟨t, e3, e4⟩ := leaf?_eq_some.1 hl
  have : t ≠ .none := by rintro rfl; simp [PyTree.treeLeaves, PyTree.leaves, PyTree.canon] at e4
  exact leaf?_eq_some.2 ⟨t, h n t e3 this, e4⟩

/-- The same, read entry by entry. -/
theorem round_ok {r : Round α} {s : ACTStates α} {c' : Controller α} (hwf : s.WF)
    (hr : run ⟨s⟩ r.ops = .ok c') :
    ∃ U, ({ s with updates := U } : ACTStates α).WF ∧
      IterStep { s with updates := U } r.halting c'.state ∧
      ∀ n k i u, entry? r.updates n k i = some u → entry? U n k i = some u := by
  obtain ⟨U, h1, h2, h3⟩ := round_ok_get hwf hr
  refine ⟨U, h1, h2, fun n k i u hu => ?_⟩
  obtain ⟨l, e1, e2⟩ := entry?_eq_some.1 hu
  exact entry?_eq_some.2 ⟨l, leaf?_transfer h3 e1, e2⟩

/-- Caching one update per accumulator succeeds when none is pending. -/
theorem caches_of : ∀ (us : Dict (PyTree (Leaf α))) {s : ACTStates α}, us.WF →
    (∀ n, n ∈ us.keys → s.updates.get? n = some .none) →
    ∃ c', run ⟨s⟩ (us.map fun nu => Op.cache nu.1 nu.2) = .ok c'
  | [], s, _, _ => ⟨⟨s⟩, rfl⟩
  | (m, x) :: us, s, hwf, hn => by
    have hm := hn m (by simp [Dict.keys])
    have hc : Controller.cacheUpdate ⟨s⟩ m x =
        .ok (⟨{ s with updates := s.updates.set m x }⟩ : Controller α) :=
      Controller.cacheUpdate_ok_iff.2 ⟨hm, rfl⟩
    have hw : Dict.WF us ∧ m ∉ Dict.keys us := by
      unfold Dict.WF at hwf ⊢
      simp only [Dict.keys, List.map_cons, List.nodup_cons] at hwf ⊢
      exact ⟨hwf.2, hwf.1⟩
    obtain ⟨c', hc'⟩ := caches_of us (s := { s with updates := s.updates.set m x }) hw.1
      (fun n hmem => by
        have : n ≠ m := by rintro rfl; exact hw.2 hmem
        simp only
        rw [Dict.get?_set_ne _ this.symm]
        exact hn n (by simp only [Dict.keys, List.map_cons, List.mem_cons] at hmem ⊢; exact .inr hmem))
    refine ⟨c', ?_⟩
    simp only [List.map_cons, run, Op.call]
    rw [hc]
    exact hc'

/-- From an idle controller whose accumulator dtypes absorb the dtype of the probabilities, a complete
round can be made with any halting tensor of the right shape and dtype. -/
theorem exists_round {s : ACTStates α} (hwf : s.WF)
    (hidle : ∀ n u, s.updates.get? n = some u → u = .none)
    (habs : ∀ n t, s.accumulators.get? n = some t → ∀ a, Leaf.tensor a ∈ t.treeLeaves →
      DType.promote a.dtype (DType.promote s.probabilities.dtype a.dtype) = a.dtype)
    {h : Tensor α} (hs : h.shape = s.probabilities.shape)
    (hd : h.dtype.withFloat = s.probabilities.dtype) :
    ∃ r : Round α, r.halting = h ∧ ∃ c', run ⟨s⟩ r.ops = .ok c' := by
  let upd : PyTree (Leaf α) → PyTree (Leaf α) := fun t => if t.isNone then .node .list [] else t
  let us : Dict (PyTree (Leaf α)) := s.accumulators.map fun kv => (kv.1, upd kv.2)
  have hk : Dict.keys us = s.accumulators.keys := by
    simp [us, Dict.keys, List.map_map, Function.comp_def]
  have hwfu : Dict.WF us := by have := hwf.acc_keys; unfold Dict.WF at *; rw [hk]; exact this
  have hidle' : ∀ n, n ∈ Dict.keys us → s.updates.get? n = some .none := by
    intro n hn
    rw [hk, ← hwf.upd_iff] at hn
    obtain ⟨u, hu⟩ := Dict.mem_keys_iff.1 hn
    rw [hu, hidle n u hu]
  obtain ⟨⟨s1⟩, hc⟩ := caches_of us hwfu hidle'
  obtain ⟨f1, ⟨U, f2⟩, f3⟩ := caches_ok _ hwf hc
  simp only at f1 f2 f3
  subst f2
  have hnn : ∀ t, (upd t).isNone = false := by
    intro t
    simp only [upd]
    split
    · rfl
    · rename_i h; simpa using h
  have hlv : ∀ t, (upd t).treeLeaves = t.treeLeaves := by
    intro t
    simp only [upd]
    split
    · rename_i h
      rw [PyTree.isNone_iff.1 h]
      rfl
    · rfl
  obtain ⟨c2, hit⟩ := Controller.iterateAct_of f1 (h := h) hs hd (fun n a u ha hu => by
    have hm : (n, upd a) ∈ us :=
      List.mem_map.2 ⟨(n, a), Dict.mem_of_get? ha, rfl⟩
    have := f3 n (upd a) (Dict.get?_of_mem hwfu hm) (fun e => by
      have := hnn a; rw [e] at this; cases this)
    simp only at hu
    rw [this] at hu
    cases hu
    refine ⟨hnn a, by rw [hlv], fun k la lu hla hlu => ?_⟩
    rw [hlv, hla] at hlu
    cases hlu
    obtain ⟨t, e, -⟩ := hwf.batched n a ha la (List.mem_of_getElem? hla)
    subst e
    exact ⟨t, t, rfl, rfl, rfl, habs n a ha t (List.mem_of_getElem? hla)⟩)
  refine ⟨⟨us, h⟩, rfl, c2, ?_⟩
  unfold Round.ops
  rw [run_append]
  simp only
  rw [hc]
  show (do let c ← Controller.iterateAct _ h; run c []) = _
  rw [hit]
  rfl

omit [Arith α] in
theorem roundOps_append (rs : List (Round α)) (r : Round α) :
    roundOps (rs ++ [r]) = roundOps rs ++ r.ops := by
  simp [roundOps]

/-- Induction over rounds, with the cached trees. -/
theorem rounds_induction_get {s : ACTStates α} (hwf : s.WF)
    {Inv : List (Round α) → ACTStates α → Prop} (h0 : Inv [] s)
    (hstep : ∀ rs r t U t', t.WF → ({ t with updates := U } : ACTStates α).WF →
      IterStep { t with updates := U } r.halting t' →
      (∀ n t, Dict.get? r.updates n = some t → t ≠ .none → U.get? n = some t) →
      Inv rs t → Inv (rs ++ [r]) t')
    (rs : List (Round α)) {c' : Controller α} (hr : run ⟨s⟩ (roundOps rs) = .ok c') :
    c'.state.WF ∧ Inv rs c'.state := by
  induction rs using List.reverseRecOn generalizing c' with
  | nil => cases hr; exact ⟨hwf, h0⟩
  | append_singleton rs r ih =>
    rw [roundOps_append, run_append, bind_ok] at hr
    obtain ⟨⟨s1⟩, h1, h2⟩ := hr
    obtain ⟨w1, i1⟩ := ih h1
    obtain ⟨U, u1, u2, u3⟩ := round_ok_get w1 h2
    exact ⟨Controller.IterStep.wf u1 u2, hstep rs r s1 U c'.state w1 u1 u2 u3 i1⟩

/-- Induction over rounds. -/
theorem rounds_induction {s : ACTStates α} (hwf : s.WF) {Inv : List (Round α) → ACTStates α → Prop}
    (h0 : Inv [] s)
    (hstep : ∀ rs r t U t', t.WF → ({ t with updates := U } : ACTStates α).WF →
      IterStep { t with updates := U } r.halting t' →
      (∀ n k i u, entry? r.updates n k i = some u → entry? U n k i = some u) →
      Inv rs t → Inv (rs ++ [r]) t')
    (rs : List (Round α)) {c' : Controller α} (hr : run ⟨s⟩ (roundOps rs) = .ok c') :
    c'.state.WF ∧ Inv rs c'.state := by
  refine rounds_induction_get hwf h0 (fun rs r t U t' w1 u1 u2 u3 i1 =>
    hstep rs r t U t' w1 u1 u2 (fun n k i u hu => ?_) i1) rs hr
  obtain ⟨l, e1, e2⟩ := entry?_eq_some.1 hu
  exact entry?_eq_some.2 ⟨l, leaf?_transfer u3 e1, e2⟩

end JaxAct
