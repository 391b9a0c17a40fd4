import Verif.Lemmas.Mapping
import Verif.Lemmas.Reset
import Verif.Lemmas.Sorted
import Verif.Model.Editor
import Verif.Props.Fixtures

/-! # C35 Dictionary insertion order never matters -/

namespace JaxAct
open PyTree Utils
variable {α β γ δ : Type}

/-- C35, flattening: two pytrees have the same leaves and structure exactly if they are equal with
dicts compared as mappings. -/
theorem C35_same_flattening (s t : PyTree β) (hs : s.WF) (ht : t.WF) :
    SameMapping s t ↔ s.treeLeaves = t.treeLeaves ∧ s.treeStructure = t.treeStructure := by
  rw [← canon_eq_iff_sameMapping hs ht, canon_eq_iff_flatten]

/-- C35, utilities: no function of `core/utils.py` tells such trees apart. -/
theorem C35_utils (f : β → γ → Res δ) (op : Tensor α → Tensor α → Res (Tensor α))
    (close : α → α → Bool) (s s' : PyTree β) (t t' : PyTree γ) (a a' b b' : PyTree (Leaf α))
    (hs : s.WF) (hs' : s'.WF) (ht : t.WF) (ht' : t'.WF) (ha : a.WF) (ha' : a'.WF) (hb : b.WF)
    (hb' : b'.WF) (h : SameMapping s s') (h' : SameMapping t t') (k : SameMapping a a')
    (k' : SameMapping b b') :
    mergePytrees f s t = mergePytrees f s' t' ∧
    arePytreeStructureEqual s t = arePytreeStructureEqual s' t' ∧
    broadcastPytreeShape a b = broadcastPytreeShape a' b' ∧
    arePytreesEqual close a b = arePytreesEqual close a' b' ∧
    executeBinaryOperator op a b = executeBinaryOperator op a' b' := by
  obtain ⟨h1, h2⟩ := (C35_same_flattening s s' hs hs').1 h
  obtain ⟨h3, h4⟩ := (C35_same_flattening t t' ht ht').1 h'
  obtain ⟨k1, k2⟩ := (C35_same_flattening a a' ha ha').1 k
  obtain ⟨k3, k4⟩ := (C35_same_flattening b b' hb hb').1 k'
  have e1 : s.canon = s'.canon := canon_eq_iff_flatten.2 ⟨h1, h2⟩
  have e2 : t.canon = t'.canon := canon_eq_iff_flatten.2 ⟨h3, h4⟩
  have eb : broadcastPytreeShape a b = broadcastPytreeShape a' b' := by
    simp only [broadcastPytreeShape, k1, k2, k3, k4]
  have eb' : broadcastPytreeShape b a = broadcastPytreeShape b' a' := by
    simp only [broadcastPytreeShape, k1, k2, k3, k4]
  refine ⟨by simp only [mergePytrees, h1, h2, h3],
    by simp only [arePytreeStructureEqual, nullLeaves, e1, e2]; rfl, eb, ?_, ?_⟩
  · simp only [arePytreesEqual, mergePytrees, k1, k2, k3]
  · unfold executeBinaryOperator alignOperands
    rw [eb, eb']
    cases hc : broadcastPytreeShape a' b' with
    | ok x => simp only [wrapRuntime, ok_bind, k3]
    | error e =>
      cases e with
      | runtimeError =>
        simp only
        cases hc' : broadcastPytreeShape b' a' with
        | ok x => simp only [wrapRuntime, ok_bind, k1, k2]
        | error e => rfl
      | _ => rfl

/-! ### Controllers -/

theorem dictSame_iff {d d' : Dict (PyTree β)} (h : DictWF d) (h' : DictWF d') :
    DictSame d d' ↔ ∀ n, (d.get? n).map canon = (d'.get? n).map canon := by
  refine forall_congr' fun n => ?_
  have g := h.2 n
  have g' := h'.2 n
  cases hd : d.get? n with
  | none => cases d'.get? n <;> simp
  | some t =>
    cases hd' : d'.get? n with
    | none => simp
    | some u => simp [canon_eq_iff_sameMapping (g t hd) (g' u hd')]

theorem dictSame_keys {d d' : Dict (PyTree β)} (h : DictSame d d') (n : String) :
    n ∈ d.keys ↔ n ∈ d'.keys := by
  have := h n
  rw [Dict.mem_keys_iff, Dict.mem_keys_iff]
  cases hd : d.get? n <;> cases hd' : d'.get? n <;> simp_all

theorem sameMapping_refl (t : PyTree β) : SameMapping t t := fun _ => rfl

theorem isNone_canon (t : PyTree β) : t.canon.isNone = t.isNone := by
  cases t with
  | leaf _ => rfl
  | none => rfl
  | node k cs => cases k <;> rfl

theorem isNone_of_same {s t : PyTree β} (h : SameMapping s t) : s.isNone = t.isNone := by
  have h0 := h []
  simp only [atPath, Option.map_some, Option.some.injEq] at h0
  cases s with
  | leaf x => cases t with
    | leaf _ => rfl
    | none => cases h0
    | node k _ => rfl
  | none => cases t with
    | leaf _ => cases h0
    | none => rfl
    | node k _ => cases k <;> cases h0
  | node k _ => cases t with
    | leaf _ => rfl
    | none => cases k <;> cases h0
    | node k' _ => rfl

theorem mergePytrees_canon {f : β → γ → Res δ} {s s' : PyTree β} {t t' : PyTree γ}
    (h : s.canon = s'.canon) (h' : t.canon = t'.canon) :
    mergePytrees f s t = mergePytrees f s' t' := by
  simp only [mergePytrees, treeLeaves, treeStructure, h, h']; rfl


/-- Results that are the same: equal states up to insertion order, or the same exception. -/
def ResSame : Res (Controller α) → Res (Controller α) → Prop
  | .ok c, .ok c' => c.state.Same c'.state
  | .error e, .error e' => e = e'
  | _, _ => False

namespace Controller
variable [Arith α]

theorem updateAccumulator_congr {c c' : Controller α}
    (hp : c.state.probabilities = c'.state.probabilities) (he : c.state.epsilon = c'.state.epsilon)
    (a u : Leaf α) (h : Tensor α) : c.updateAccumulator a u h = c'.updateAccumulator a u h := by
  unfold updateAccumulator haltedBatches haltThreshold probabilities
  rw [hp, he]

theorem commitOne_same {c c' : Controller α} (hs : c.state.Same c'.state) (hh : Tensor α)
    {a a' u u' : Dict (PyTree (Leaf α))} {n : String}
    (ha : (a.get? n).map canon = (a'.get? n).map canon)
    (hu : (u.get? n).map canon = (u'.get? n).map canon) :
    c.commitOne hh a u n = c'.commitOne hh a' u' n := by
  unfold commitOne Dict.getItem
  have hf : (fun x y => c.updateAccumulator x y hh) = fun x y => c'.updateAccumulator x y hh :=
    funext fun x => funext fun y => updateAccumulator_congr hs.probabilities hs.epsilon x y hh
  cases h1 : a.get? n with
  | none =>
    have h1' : a'.get? n = Option.none := by rw [h1] at ha; simpa using ha.symm
    rw [h1']; rfl
  | some t =>
    rw [h1] at ha
    cases h1' : a'.get? n with
    | none => rw [h1'] at ha; cases ha
    | some t' =>
      rw [h1'] at ha
      simp only [Option.map_some, Option.some.injEq] at ha
      cases h2 : u.get? n with
      | none =>
        have h2' : u'.get? n = Option.none := by rw [h2] at hu; simpa using hu.symm
        rw [h2']; rfl
      | some v =>
        rw [h2] at hu
        cases h2' : u'.get? n with
        | none => rw [h2'] at hu; cases hu
        | some v' =>
          rw [h2'] at hu
          simp only [Option.map_some, Option.some.injEq] at hu
          have hv : v.isNone = v'.isNone := by rw [← isNone_canon v, hu, isNone_canon]
          simp only [ok_bind, hv, hf, mergePytrees_canon ha hu]

theorem commitLoop_same {c c' : Controller α} (hs : c.state.Same c'.state) (hh : Tensor α)
    {a a' u u' : Dict (PyTree (Leaf α))} {ns ns' : List String} (hn : ns.Nodup) (hn' : ns'.Nodup)
    (hns : ∀ n, n ∈ ns ↔ n ∈ ns')
    (ha : ∀ n, (a.get? n).map canon = (a'.get? n).map canon)
    (hu : ∀ n, (u.get? n).map canon = (u'.get? n).map canon)
    {r v : Dict (PyTree (Leaf α))} (h : c.commitLoop hh ns a u = .ok (r, v)) :
    ∃ r' v', c'.commitLoop hh ns' a' u' = .ok (r', v') ∧
      (∀ n, n ∈ ns → r.get? n = r'.get? n ∧ v.get? n = v'.get? n) ∧
      (∀ n, n ∉ ns → r.get? n = a.get? n ∧ v.get? n = u.get? n ∧ r'.get? n = a'.get? n ∧
        v'.get? n = u'.get? n) := by
  obtain ⟨h1, h2, -⟩ := commitLoop_ok c hh ns a u r v hn h
  obtain ⟨⟨r', v'⟩, h'⟩ := commitLoop_of c' hh ns' a' u' hn' fun n hm => by
    obtain ⟨t, ht, -⟩ := h1 n ((hns n).2 hm)
    exact ⟨t, by rw [← commitOne_same hs hh (ha n) (hu n)]; exact ht⟩
  obtain ⟨g1, g2, -⟩ := commitLoop_ok c' hh ns' a' u' r' v' hn' h'
  refine ⟨r', v', h', fun n hm => ?_, fun n hm => ?_⟩
  · obtain ⟨t, e1, e2, e3⟩ := h1 n hm
    obtain ⟨t', f1, f2, f3⟩ := g1 n ((hns n).1 hm)
    rw [← commitOne_same hs hh (ha n) (hu n), e1] at f1
    cases f1
    exact ⟨e2.trans f2.symm, e3.trans f3.symm⟩
  · obtain ⟨e1, e2⟩ := h2 n hm
    obtain ⟨f1, f2⟩ := g2 n (fun hm' => hm ((hns n).2 hm'))
    exact ⟨e1, e2, f1, f2⟩

end Controller
open Controller

theorem ACTStates.Same.symm {s s' : ACTStates α} (h : s.Same s') : s'.Same s := by
  have flip : ∀ {d d' : Dict (PyTree (Leaf α))}, DictSame d d' → DictSame d' d := by
    intro d d' h n
    have := h n
    cases hd : d.get? n <;> cases hd' : d'.get? n <;> rw [hd, hd'] at this
    · exact .none
    · cases this
    · cases this
    · cases this with
      | some h => exact .some h.symm
  exact ⟨h.1.symm, h.2.symm, h.3.symm, h.4.symm, h.5.symm, h.6.symm, flip h.7, flip h.8, flip h.9⟩

variable [Arith α]

theorem iterate_same_ok {s s' : ACTStates α} (hw : s.DictsWF) (hw' : s'.DictsWF) (hs : s.Same s')
    (h : Tensor α) {c : Controller α} (hc : iterateAct ⟨s⟩ h = .ok c) :
    ∃ c', iterateAct ⟨s'⟩ h = .ok c' ∧ c.state.Same c'.state := by
  have ha := (dictSame_iff hw.accumulators hw'.accumulators).1 hs.accumulators
  have hu := (dictSame_iff hw.updates hw'.updates).1 hs.updates
  have hkeys := dictSame_keys hs.accumulators
  have hs0 := hs
  obtain ⟨e, i, r, p, d, a, u, dc, em⟩ := s
  obtain ⟨e', i', r', p', d', a', u', dc', em'⟩ := s'
  obtain ⟨(rfl : e = e'), (rfl : i = i'), (rfl : r = r'), (rfl : p = p'), (rfl : dc = dc'),
    (rfl : em = em'), h7, h8, h9⟩ := hs
  unfold iterateAct at hc ⊢
  split at hc
  · cases hc
  rename_i hsh
  rw [if_neg (show ¬ h.shape ≠
    (Controller.probabilities ⟨⟨e, i, r, p, d', a', u', dc, em⟩⟩).shape from hsh)]
  rw [bind_ok] at hc
  obtain ⟨⟨hh, rr, pp⟩, h1, hc⟩ := hc
  simp only at hc
  rw [bind_ok] at hc
  obtain ⟨⟨aa, uu⟩, h2, hc⟩ := hc
  simp only at hc
  rw [bind_ok] at hc
  obtain ⟨ii, h3, hc⟩ := hc
  obtain ⟨aa', uu', k1, k2, k3⟩ := commitLoop_same (c := ⟨⟨e, i, r, p, d, a, u, dc, em⟩⟩)
    (c' := ⟨⟨e, i, r, p, d', a', u', dc, em⟩⟩) hs0 hh hw.accumulators.1 hw'.accumulators.1
    hkeys ha hu h2
  simp only [ACTStates.replace, ok_bind, pure_eq_ok, Except.ok.injEq] at hc
  subst hc
  refine ⟨⟨⟨e, ii, rr, pp, d', aa', uu', dc, em⟩⟩, ?_, ?_⟩
  · dsimp only
    rw [show processProbabilities ⟨⟨e, i, r, p, d', a', u', dc, em⟩⟩ h.clip01 = .ok (hh, rr, pp) from h1]
    simp only [ok_bind]
    rw [show commitLoop ⟨⟨e, i, r, p, d', a', u', dc, em⟩⟩ hh
      (Controller.accumulators ⟨⟨e, i, r, p, d', a', u', dc, em⟩⟩).keys
      (Controller.accumulators ⟨⟨e, i, r, p, d', a', u', dc, em⟩⟩) u' = .ok (aa', uu') from k1]
    simp only [ok_bind]
    rw [show Tensor.select (haltedBatches ⟨⟨e, i, r, p, d', a', u', dc, em⟩⟩)
      (Controller.iterations ⟨⟨e, i, r, p, d', a', u', dc, em⟩⟩)
      (Controller.iterations ⟨⟨e, i, r, p, d', a', u', dc, em⟩⟩).addOne = .ok ii from h3]
    rfl
  · have rel : ∀ {x y : Option (PyTree (Leaf α))}, x = y → Option.Rel SameMapping x y := by
      rintro x _ rfl
      cases x
      · exact .none
      · exact .some (sameMapping_refl _)
    refine ⟨rfl, rfl, rfl, rfl, rfl, rfl, fun n => ?_, h8, fun n => ?_⟩
    · by_cases hn : n ∈ a.keys
      · exact rel (k2 n hn).1
      · obtain ⟨e1, -, e2, -⟩ := k3 n hn
        show Option.Rel _ (aa.get? n) (aa'.get? n)
        rw [e1, e2]; exact h7 n
    · by_cases hn : n ∈ a.keys
      · exact rel (k2 n hn).2
      · obtain ⟨-, e1, -, e2⟩ := k3 n hn
        show Option.Rel _ (uu.get? n) (uu'.get? n)
        rw [e1, e2]; exact h9 n

theorem iterate_same_error {s s' : ACTStates α} (hw : s.DictsWF) (hw' : s'.DictsWF)
    (hs : s.Same s') (h : Tensor α) {e e' : Err} (h1 : iterateAct ⟨s⟩ h = .error e)
    (h2 : iterateAct ⟨s'⟩ h = .error e') : e = e' := by
  have ha := (dictSame_iff hw.accumulators hw'.accumulators).1 hs.accumulators
  have hu := (dictSame_iff hw.updates hw'.updates).1 hs.updates
  have hkeys := dictSame_keys hs.accumulators
  have hs0 := hs
  obtain ⟨ep, i, r, p, d, a, u, dc, em⟩ := s
  obtain ⟨ep', i', r', p', d', a', u', dc', em'⟩ := s'
  obtain ⟨(rfl : ep = ep'), (rfl : i = i'), (rfl : r = r'), (rfl : p = p'), (rfl : dc = dc'),
    (rfl : em = em'), h7, h8, h9⟩ := hs
  unfold iterateAct at h1 h2
  by_cases hsh : h.shape ≠ p.shape
  · rw [if_pos (show h.shape ≠
      (Controller.probabilities ⟨⟨ep, i, r, p, d, a, u, dc, em⟩⟩).shape from hsh)] at h1
    rw [if_pos (show h.shape ≠
      (Controller.probabilities ⟨⟨ep, i, r, p, d', a', u', dc, em⟩⟩).shape from hsh)] at h2
    cases h1; cases h2; rfl
  · rw [if_neg (show ¬ h.shape ≠
      (Controller.probabilities ⟨⟨ep, i, r, p, d, a, u, dc, em⟩⟩).shape from hsh)] at h1
    rw [if_neg (show ¬ h.shape ≠
      (Controller.probabilities ⟨⟨ep, i, r, p, d', a', u', dc, em⟩⟩).shape from hsh)] at h2
    have hp : processProbabilities ⟨⟨ep, i, r, p, d', a', u', dc, em⟩⟩ h.clip01
        = processProbabilities ⟨⟨ep, i, r, p, d, a, u, dc, em⟩⟩ h.clip01 := rfl
    dsimp only at h1 h2
    rw [hp] at h2
    cases hq : processProbabilities ⟨⟨ep, i, r, p, d, a, u, dc, em⟩⟩ h.clip01 with
    | error x =>
      rw [hq] at h1 h2
      cases h1; cases h2; rfl
    | ok x =>
      obtain ⟨hh, rr, pp⟩ := x
      rw [hq] at h1 h2
      simp only [ok_bind] at h1 h2
      rw [bind_error] at h1 h2
      have back : ∀ aa uu, commitLoop ⟨⟨ep, i, r, p, d, a, u, dc, em⟩⟩ hh a.keys a u = .ok (aa, uu) →
          ∃ x, commitLoop ⟨⟨ep, i, r, p, d', a', u', dc, em⟩⟩ hh a'.keys a' u' = .ok x := by
        intro aa uu hk
        obtain ⟨aa', uu', k1, -⟩ := commitLoop_same (c := ⟨⟨ep, i, r, p, d, a, u, dc, em⟩⟩)
          (c' := ⟨⟨ep, i, r, p, d', a', u', dc, em⟩⟩) hs0 hh hw.accumulators.1 hw'.accumulators.1
          hkeys ha hu hk
        exact ⟨_, k1⟩
      have forth : ∀ aa uu, commitLoop ⟨⟨ep, i, r, p, d', a', u', dc, em⟩⟩ hh a'.keys a' u'
          = .ok (aa, uu) → ∃ x, commitLoop ⟨⟨ep, i, r, p, d, a, u, dc, em⟩⟩ hh a.keys a u = .ok x := by
        intro aa uu hk
        obtain ⟨aa', uu', k1, -⟩ := commitLoop_same (c := ⟨⟨ep, i, r, p, d', a', u', dc, em⟩⟩)
          (c' := ⟨⟨ep, i, r, p, d, a, u, dc, em⟩⟩) hs0.symm hh hw'.accumulators.1 hw.accumulators.1
          (fun n => (hkeys n).symm) (fun n => (ha n).symm) (fun n => (hu n).symm) hk
        exact ⟨_, k1⟩
      rcases h1 with h1 | ⟨⟨aa, uu⟩, g1, h1⟩
      · rcases h2 with h2 | ⟨⟨aa', uu'⟩, g2, h2⟩
        · rw [commitLoop_error _ _ _ _ _ h1, commitLoop_error _ _ _ _ _ h2]
        · obtain ⟨x, hx⟩ := forth _ _ g2
          cases hx.symm.trans h1
      · rcases h2 with h2 | ⟨⟨aa', uu'⟩, g2, h2⟩
        · obtain ⟨x, hx⟩ := back _ _ g1
          cases hx.symm.trans h2
        · simp only [ACTStates.replace, ok_bind, pure_eq_ok] at h1 h2
          rw [bind_error] at h1 h2
          rcases h1 with h1 | ⟨_, -, h1⟩
          · rcases h2 with h2 | ⟨_, -, h2⟩
            · have := h1.symm.trans (show _ = _ from h2)
              cases this; rfl
            · cases h2
          · cases h1

/-- C35, `iterate_act`: the same result (or exception) whatever the insertion orders. -/
theorem C35_iterate (s s' : ACTStates α) (hw : s.DictsWF) (hw' : s'.DictsWF) (hs : s.Same s')
    (h : Tensor α) : ResSame (iterateAct ⟨s⟩ h) (iterateAct ⟨s'⟩ h) := by
  cases h1 : iterateAct ⟨s⟩ h with
  | ok c =>
    obtain ⟨c', h2, h3⟩ := iterate_same_ok hw hw' hs h h1
    rw [h2]; exact h3
  | error e =>
    cases h2 : iterateAct ⟨s'⟩ h with
    | ok c' =>
      obtain ⟨c, h3, -⟩ := iterate_same_ok hw' hw hs.symm h h2
      rw [h1] at h3; cases h3
    | error e' => exact iterate_same_error hw hw' hs h h1 h2

omit [Arith α] in
/-- C35, `cache_update`: caching the same update in another insertion order gives the same
result. -/
theorem C35_cache_update (s s' : ACTStates α) (hs : s.Same s') (name : String)
    (item item' : PyTree (Leaf α)) (hi : SameMapping item item') :
    ResSame (cacheUpdate ⟨s⟩ name item) (cacheUpdate ⟨s'⟩ name item') := by
  unfold cacheUpdate Dict.mem Dict.getItem
  have hu := hs.updates name
  cases h1 : s.updates.get? name with
  | none =>
    rw [h1] at hu
    cases h2 : s'.updates.get? name with
    | none => simp [h1, h2, ResSame]
    | some v => rw [h2] at hu; cases hu
  | some v =>
    rw [h1] at hu
    cases h2 : s'.updates.get? name with
    | none => rw [h2] at hu; cases hu
    | some v' =>
      rw [h2] at hu
      cases hu with
      | some hv =>
        simp only [h1, h2, Option.isSome_some, not_true_eq_false, if_false, ok_bind,
          isNone_of_same hv]
        by_cases hn : v'.isNone = true
        · simp only [hn, not_true_eq_false, if_false, ACTStates.replace, ok_bind, pure_eq_ok, ResSame]
          refine ⟨hs.1, hs.2, hs.3, hs.4, hs.5, hs.6, hs.7, hs.8, fun n => ?_⟩
          simp only [Option.getD_some, Dict.get?_set]
          split
          · exact .some hi
          · exact hs.9 n
        · simp [hn, ResSame]

/-- C35, `reset_batches`: it succeeds on both or on neither, with the same result.  (Which exception
is raised when several accumulators are at fault may depend on the order of the names.) -/
theorem C35_reset (s s' : ACTStates α) (hw : s.DictsWF) (hw' : s'.DictsWF) (hs : s.Same s')
    (c : Controller α) (hc : resetBatches ⟨s⟩ = .ok c) :
    ∃ c', resetBatches ⟨s'⟩ = .ok c' ∧ c.state.Same c'.state := by
  have ha := (dictSame_iff hw.accumulators hw'.accumulators).1 hs.accumulators
  have hd := (dictSame_iff hw.defaults hw'.defaults).1 hs.defaults
  have hkeys := dictSame_keys hs.accumulators
  obtain ⟨e, i, r, p, d, a, u, dc, em⟩ := s
  obtain ⟨e', i', r', p', d', a', u', dc', em'⟩ := s'
  obtain ⟨(rfl : e = e'), (rfl : i = i'), (rfl : r = r'), (rfl : p = p'), (rfl : dc = dc'),
    (rfl : em = em'), h7, h8, h9⟩ := hs
  unfold resetBatches at hc ⊢
  split at hc
  · cases hc
  rename_i hidle
  have hidle1 : (u.any fun kv => !kv.2.isNone) = false := by simpa using hidle
  have hidle' : (u'.any fun kv => !kv.2.isNone) = false := by
    rw [any_pending hw'.updates.1]
    intro n v hv
    have hrel := h9 n
    have : u'.get? n = some v := hv
    simp only [this] at hrel
    cases hun : u.get? n with
    | none => simp only [hun] at hrel; cases hrel
    | some w =>
      simp only [hun] at hrel
      cases hrel with
      | some hv' =>
        rw [← isNone_of_same hv']
        exact (any_pending hw.updates.1).1 hidle1 n w hun
  rw [if_neg (by simpa using hidle')]
  simp only [bind_ok] at hc
  obtain ⟨ii, h1, pp, h2, rr, h3, aa, h4, st, h5, h6⟩ := hc
  simp only [ACTStates.replace, Except.ok.injEq, pure_eq_ok] at h5 h6
  subst h5; subst h6
  obtain ⟨-, g2, g3⟩ := resetLoop_ok _ _ a [] aa (by simpa [Dict.keys, Dict.WF] using hw.accumulators.1) h4
  have hone : ∀ n t', a'.get? n = some t' → ∃ x' t, d'.get? n = some x' ∧
      Utils.mergePytrees (resetLeaf ((haltedBatches ⟨⟨e, i, r, p, d, a, u, dc, em⟩⟩).map (!·)) t') t' x'
        = .ok t ∧ aa.get? n = some t := by
    intro n t' ht'
    have hrel := ha n
    simp only [ht'] at hrel
    cases ht : a.get? n with
    | none => simp only [ht] at hrel; cases hrel
    | some t =>
      simp only [ht, Option.map_some, Option.some.injEq] at hrel
      obtain ⟨x, y, f1, f2, f3⟩ := g3 n t (Dict.mem_of_get? ht)
      have hrel' := hd n
      rw [show d.get? n = some x from f1] at hrel'
      cases hx : d'.get? n with
      | none => simp only [hx] at hrel'; cases hrel'
      | some x' =>
        simp only [hx, Option.map_some, Option.some.injEq] at hrel'
        refine ⟨x', y, rfl, ?_, f3⟩
        have hshape : treeShape t' = treeShape t := by
          have key : ∀ z : PyTree (Leaf α), treeShape z.canon = treeShape z := by
            intro z
            cases z with
            | leaf _ => rfl
            | none => rfl
            | node k cs => cases k <;> rfl
          rw [← key t', ← hrel, key]
        have hleaf : ∀ m, resetLeaf m t' = resetLeaf m t := by
          intro m
          funext x y
          unfold resetLeaf
          rw [hshape]
        rw [hleaf, ← mergePytrees_canon hrel hrel']
        exact f2
  obtain ⟨aa', h4'⟩ := resetLoop_of ((haltedBatches ⟨⟨e, i, r, p, d, a, u, dc, em⟩⟩).map (!·)) d' a' []
    fun n t' hm => by
      obtain ⟨x', t, f1, f2, -⟩ := hone n t' (Dict.get?_of_mem hw'.accumulators.1 hm)
      exact ⟨x', t, f1, f2⟩
  obtain ⟨-, k2, k3⟩ := resetLoop_ok _ _ a' [] aa' (by simpa [Dict.keys, Dict.WF] using hw'.accumulators.1) h4'
  refine ⟨⟨⟨e, ii, rr, pp, d', aa', u', dc, em⟩⟩, ?_, ?_⟩
  · dsimp only
    rw [show Tensor.binop Arith.mul (Controller.iterations ⟨⟨e, i, r, p, d', a', u', dc, em⟩⟩)
        (Tensor.ofMask ((haltedBatches ⟨⟨e, i, r, p, d', a', u', dc, em⟩⟩).map (!·))) = .ok ii from h1,
      show Tensor.binop Arith.mul (Controller.probabilities ⟨⟨e, i, r, p, d', a', u', dc, em⟩⟩)
        (Tensor.ofMask ((haltedBatches ⟨⟨e, i, r, p, d', a', u', dc, em⟩⟩).map (!·))) = .ok pp from h2,
      show Tensor.binop Arith.mul (Controller.residuals ⟨⟨e, i, r, p, d', a', u', dc, em⟩⟩)
        (Tensor.ofMask ((haltedBatches ⟨⟨e, i, r, p, d', a', u', dc, em⟩⟩).map (!·))) = .ok rr from h3]
    simp only [ok_bind]
    rw [show resetLoop ((haltedBatches ⟨⟨e, i, r, p, d', a', u', dc, em⟩⟩).map (!·)) d'
      (Controller.accumulators ⟨⟨e, i, r, p, d', a', u', dc, em⟩⟩) [] = .ok aa' from h4']
    rfl
  · refine ⟨rfl, rfl, rfl, rfl, rfl, rfl, fun n => ?_, h8, h9⟩
    show Option.Rel _ (aa.get? n) (aa'.get? n)
    cases hn : a'.get? n with
    | none =>
      have hn1 : n ∉ a'.keys := Dict.get?_eq_none_iff.1 hn
      have hn2 : n ∉ a.keys := fun h => hn1 ((hkeys n).1 h)
      rw [k2 n hn1, g2 n hn2]
      exact .none
    | some t' =>
      obtain ⟨x', t, f1, f2, f3⟩ := hone n t' hn
      obtain ⟨x2, t2, f1', f2', f3'⟩ := k3 n t' (Dict.mem_of_get? hn)
      rw [f1] at f1'
      cases f1'
      rw [f2] at f2'
      cases f2'
      rw [f3, f3']
      exact .some (sameMapping_refl _)

/-- C35, `reset_batches` on well-formed states: the same result or the same exception. -/
theorem C35_reset_wf (s s' : ACTStates α) (hw : s.DictsWF) (hw' : s'.DictsWF) (wf : s.WF)
    (wf' : s'.WF) (hs : s.Same s') : ResSame (resetBatches ⟨s⟩) (resetBatches ⟨s'⟩) := by
  have pend : ∀ {s s' : ACTStates α}, s.Same s' →
      (∃ n u, s.updates.get? n = some u ∧ u.isNone = false) →
      ∃ n u, s'.updates.get? n = some u ∧ u.isNone = false := by
    rintro s s' hs ⟨n, u, h1, h2⟩
    have hrel := hs.updates n
    rw [h1] at hrel
    cases h3 : s'.updates.get? n with
    | none => rw [h3] at hrel; cases hrel
    | some v =>
      rw [h3] at hrel
      cases hrel with
      | some hv => exact ⟨n, v, h3, by rw [← isNone_of_same hv]; exact h2⟩
  have notPend : ∀ {s : ACTStates α}, (∀ n u, s.updates.get? n = some u → u.isNone = true) →
      ¬ ∃ n u, s.updates.get? n = some u ∧ u.isNone = false := by
    rintro s h ⟨n, u, h1, h2⟩
    rw [h n u h1] at h2; cases h2
  cases h1 : resetBatches ⟨s⟩ with
  | ok c =>
    obtain ⟨c', h2, h3⟩ := C35_reset s s' hw hw' hs c h1
    rw [h2]; exact h3
  | error e =>
    cases h2 : resetBatches ⟨s'⟩ with
    | ok c' =>
      obtain ⟨c, h3, -⟩ := C35_reset s' s hw' hw hs.symm c' h2
      rw [h1] at h3; cases h3
    | error e' =>
      show e = e'
      rcases resetBatches_result wf with ⟨p, g⟩ | ⟨p, ⟨-, c, g⟩ | ⟨-, g⟩⟩ <;>
      rcases resetBatches_result wf' with ⟨p', g'⟩ | ⟨p', ⟨-, c', g'⟩ | ⟨-, g'⟩⟩ <;>
      rw [g] at h1 <;> rw [g'] at h2 <;> cases h1 <;> cases h2
      · rfl
      · exact absurd (pend hs p) (notPend p')
      · exact absurd (pend hs.symm p') (notPend p)
      · rfl

/-- The same call, with dicts in the cached tree compared as mappings. -/
inductive OpSame : Op α → Op α → Prop
  | cache (n : String) {t t' : PyTree (Leaf α)} (hw : t.WF) (hw' : t'.WF) (h : SameMapping t t') :
      OpSame (.cache n t) (.cache n t')
  | iterate (h : Tensor α) : OpSame (.iterate h) (.iterate h)
  | reset : OpSame .reset .reset

/-- C35, whole histories: whatever the insertion orders in the controller and in the cached trees, a
sequence of calls gives the same result or the same exception. -/
theorem C35_history {s s' : ACTStates α} (hw : s.DictsWF) (hw' : s'.DictsWF) (wf : s.WF)
    (wf' : s'.WF) (hs : s.Same s') {ops ops' : List (Op α)} (ho : List.Forall₂ OpSame ops ops') :
    ResSame (run ⟨s⟩ ops) (run ⟨s'⟩ ops') := by
  induction ho generalizing s s' with
  | nil => exact hs
  | cons h1 h2 ih =>
    rename_i op op' ops ops'
    have hc : ResSame (op.call ⟨s⟩) (op'.call ⟨s'⟩) := by
      cases h1 with
      | cache n hw hw' h => exact C35_cache_update s s' hs n _ _ h
      | iterate h => exact C35_iterate s s' hw hw' hs h
      | reset => exact C35_reset_wf s s' hw hw' wf wf' hs
    have hd : op.DictsWF ∧ op'.DictsWF := by
      cases h1 with
      | cache n hw hw' h => exact ⟨hw, hw'⟩
      | iterate h => exact ⟨trivial, trivial⟩
      | reset => exact ⟨trivial, trivial⟩
    unfold run
    cases e1 : op.call ⟨s⟩ with
    | error e =>
      cases e2 : op'.call ⟨s'⟩ with
      | error e' => rw [e1, e2] at hc; exact hc
      | ok c' => rw [e1, e2] at hc; exact hc.elim
    | ok c =>
      cases e2 : op'.call ⟨s'⟩ with
      | error e' => rw [e1, e2] at hc; exact hc.elim
      | ok c' =>
        rw [e1, e2] at hc
        obtain ⟨t⟩ := c
        obtain ⟨t'⟩ := c'
        exact ih (call_dictsWF wf hw hd.1 e1) (call_dictsWF wf' hw' hd.2 e2) (call_wf wf e1)
          (call_wf wf' e2) hc

omit [Arith α] in
/-- C35, editor: the compatibility checks of the tree setters do not see the insertion order. -/
theorem C35_editor_checks (a a' b b' : PyTree (Leaf α)) (ha : a.WF) (ha' : a'.WF) (hb : b.WF)
    (hb' : b'.WF) (h : SameMapping a a') (h' : SameMapping b b') :
    Editor.compatible a b = Editor.compatible a' b' := by
  have e1 := (canon_eq_iff_sameMapping ha ha').2 h
  have e2 := (canon_eq_iff_sameMapping hb hb').2 h'
  simp only [Editor.compatible, arePytreeStructureEqual, nullLeaves, treeLeaves, e1, e2]; rfl

/-! ### Non-vacuity -/
section examples
open Fixtures
attribute [local instance] Arith.exact

/-- Two different insertion orders of the same mapping. -/
example : SameMapping (.node (.dict ["b", "a"]) [.leaf 1, .node .list [.leaf 2]] : PyTree Nat)
    (.node (.dict ["a", "b"]) [.node .list [.leaf 2], .leaf 1]) :=
  (C35_same_flattening _ _ (by simp [PyTree.WF, WFL]) (by simp [PyTree.WF, WFL])).2 (by decide +kernel)

/-- ... and a pair that is not the same mapping. -/
example : ¬ SameMapping (.node (.dict ["b", "a"]) [.leaf 1, .leaf 2] : PyTree Nat)
    (.node (.dict ["a", "b"]) [.leaf 1, .leaf 2]) := fun h =>
  absurd ((C35_same_flattening _ _ (by simp [PyTree.WF, WFL]) (by simp [PyTree.WF, WFL])).1 h)
    (by decide +kernel)

theorem swapped_same : fresh.Same { fresh with accumulators := fresh.accumulators.reverse } := by
  have rel : ∀ {x y : Option (PyTree (Leaf ℚ))}, x = y → Option.Rel SameMapping x y := by
    rintro x _ rfl
    cases x
    · exact .none
    · exact .some (sameMapping_refl _)
  refine ⟨rfl, rfl, rfl, rfl, rfl, rfl, fun n => rel ?_, fun n => rel rfl, fun n => rel rfl⟩
  simp only [fresh, List.reverse_cons, List.reverse_nil, List.nil_append, List.cons_append,
    Dict.get?_cons]
  by_cases h1 : "out" = n
  · subst h1; rfl
  · by_cases h2 : "tree" = n
    · subst h2; rfl
    · simp [h1, h2, Dict.get?]

theorem fresh_dictsWF : fresh.DictsWF := by
  have h : DictWF fresh.accumulators := by
    refine ⟨fresh_wf.acc_keys, fun n t h => ?_⟩
    rcases get?_two h with ⟨-, rfl⟩ | ⟨-, rfl⟩ <;> simp [bare, pair, PyTree.WF, WFL]
  refine ⟨h, h, fresh_wf.upd_keys, fun n t h => ?_⟩
  rcases get?_two h with ⟨-, rfl⟩ | ⟨-, rfl⟩ <;> simp [PyTree.WF]

end examples

end JaxAct
