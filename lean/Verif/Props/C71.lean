import Verif.Spec.Edit
import Verif.Props.C28
import Verif.Props.C29
import Verif.Props.C30

/-! # C71 The order of edits only matters for edits of the same thing

False in general (`C71_order_matters`): the checks cannot tell `None` from a leaf, so an accumulator
can be replaced by `None`, and the checks of later edits compare with it.  The `_partial` theorems
assume that the trees contain no `None`; nothing else is missing. -/

namespace JaxAct
open Editor
variable {α : Type} [Arith α]

/-- What a successful edit does to the state. -/
def Edit.apply (s : ACTStates α) : Edit α → ACTStates α
  | .probabilities v => { s with probabilities := v }
  | .residuals v => { s with residuals := v }
  | .iterations v => { s with iterations := v }
  | .epsilon x => { s with epsilon := x }
  | .accumulator n v => { s with accumulators := s.accumulators.set n v }
  | .default n v => { s with defaults := s.defaults.set n v }
  | .update n v => { s with updates := s.updates.set n v }

theorem call_ok {e e' : Editor α} {ed : Edit α} (h : ed.call e = .ok e') :
    e' = ⟨ed.apply e.state, e.errorMode⟩ := by
  cases ed <;> exact (then_ok_iff.1 h).2

omit [Arith α] in
theorem apply_holds (s : ACTStates α) (ed : Edit α) : ed.Holds (ed.apply s) := by
  cases ed <;> simp [Edit.Holds, Edit.apply]

omit [Arith α] in
theorem apply_agree (s : ACTStates α) (ed : Edit α) {t : Target} (h : ed.target ≠ t) :
    t.Agree s (ed.apply s) := by
  cases ed <;> cases t <;> simp_all [Edit.target, Target.Agree, Edit.apply, Dict.get?_set]

omit [Arith α] in
theorem Target.Agree.trans {s s' s'' : ACTStates α} {t : Target} (h : t.Agree s s')
    (h' : t.Agree s' s'') : t.Agree s s'' := by
  cases t <;> exact Eq.trans h h'

omit [Arith α] in
theorem holds_agree {s s' : ACTStates α} {ed : Edit α} (h : ed.Holds s)
    (h' : ed.target.Agree s s') : ed.Holds s' := by
  cases ed <;> exact Eq.trans (Eq.symm h') h

theorem runEdits_agree {eds : List (Edit α)} {t : Target} (ht : ∀ ed ∈ eds, ed.target ≠ t) :
    ∀ {e e' : Editor α}, runEdits e eds = .ok e' → t.Agree e.state e'.state := by
  induction eds with
  | nil => intro e e' h; cases h; cases t <;> rfl
  | cons ed eds ih =>
    intro e e' h
    simp only [runEdits, bind_ok] at h
    obtain ⟨e1, h1, h2⟩ := h
    have h3 := ih (fun x hx => ht x (by simp [hx])) h2
    rw [call_ok h1] at h3
    exact (apply_agree _ _ (ht ed (by simp))).trans h3

theorem runEdits_append {eds eds' : List (Edit α)} {e e' : Editor α} :
    runEdits e (eds ++ eds') = .ok e' ↔ ∃ m, runEdits e eds = .ok m ∧ runEdits m eds' = .ok e' := by
  induction eds generalizing e with
  | nil => simp [runEdits]
  | cons ed eds ih =>
    simp only [List.cons_append, runEdits, bind_ok, ih]
    constructor
    · rintro ⟨e1, h1, m, h2, h3⟩; exact ⟨m, ⟨e1, h1, h2⟩, h3⟩
    · rintro ⟨m, ⟨e1, h1, h2⟩, h3⟩; exact ⟨e1, h1, m, h2, h3⟩

/-- C71, the last edit counts: after any sequence of edits that succeeds, in any mode and on any
state, every place holds what the last edit of that place wrote, and a place that was not edited
holds what it held. -/
theorem C71_last_edit_counts {e e' : Editor α} {eds : List (Edit α)} (h : runEdits e eds = .ok e') :
    (∀ pre ed post, eds = pre ++ ed :: post → (∀ x ∈ post, x.target ≠ ed.target) →
      ed.Holds e'.state) ∧
    (∀ t, (∀ x ∈ eds, x.target ≠ t) → t.Agree e.state e'.state) ∧
    e'.errorMode = e.errorMode ∧ e'.state.depression_constant = e.state.depression_constant ∧
    e'.state.error_mode = e.state.error_mode := by
  refine ⟨?_, fun t ht => runEdits_agree ht h, ?_⟩
  · rintro pre ed post rfl hp
    obtain ⟨m, -, h2⟩ := runEdits_append.1 h
    simp only [runEdits, bind_ok] at h2
    obtain ⟨e1, h3, h4⟩ := h2
    have h5 := runEdits_agree hp h4
    rw [call_ok h3] at h5
    exact holds_agree (apply_holds _ _) h5
  · induction eds generalizing e with
    | nil => cases h; exact ⟨rfl, rfl, rfl⟩
    | cons ed eds ih =>
      simp only [runEdits, bind_ok] at h
      obtain ⟨e1, h1, h2⟩ := h
      have := ih h2
      rw [call_ok h1] at this
      cases ed <;> exact this

/-! ### Standard mode -/

/-- `s` is sane and of the types of `s₀`. -/
private structure Like (s₀ s : ACTStates α) : Prop where
  wf : s.WF
  noNone : s.NoNone
  prob : s.probabilities.shape = s₀.probabilities.shape ∧ s.probabilities.dtype = s₀.probabilities.dtype
  res : s.residuals.shape = s₀.residuals.shape ∧ s.residuals.dtype = s₀.residuals.dtype
  iter : s.iterations.shape = s₀.iterations.shape ∧ s.iterations.dtype = s₀.iterations.dtype
  acc : ∀ n, (∃ a, s.accumulators.get? n = some a) ↔ ∃ a, s₀.accumulators.get? n = some a
  same : ∀ n a b, s₀.accumulators.get? n = some a → s.accumulators.get? n = some b → SameType a b

omit [Arith α] in
private theorem Like.fits_tree {s₀ s : ACTStates α} (h : Like s₀ s) {n : String} {b v : PyTree (Leaf α)}
    (hb : s.accumulators.get? n = some b) :
    SameType b v ↔ ∃ a, s₀.accumulators.get? n = some a ∧ SameType a v := by
  obtain ⟨a, ha⟩ := (h.acc n).1 ⟨b, hb⟩
  have := h.same n a b ha hb
  constructor
  · exact fun h1 => ⟨a, ha, this.trans h1⟩
  · rintro ⟨a', ha', h1⟩
    rw [ha] at ha'
    cases ha'
    exact this.symm.trans h1

omit [Arith α] in
private theorem CheckedOutcome.ok_iff {r : Res (Editor α)} {P : Prop} {n e' : Editor α}
    (hc : CheckedOutcome r P n) : r = .ok e' ↔ P ∧ e' = n := by
  by_cases hp : P
  · have := hc.1.2 hp
    rw [this]
    simp [hp, eq_comm]
  · have := hc.2.2 hp
    rw [this]
    simp [hp]

omit [Arith α] in
private theorem not_fits {s₀ s : ACTStates α} (h : Like s₀ s) {n : String}
    (hn : s.accumulators.get? n = none) {P : PyTree (Leaf α) → Prop} :
    ¬ ∃ a, s₀.accumulators.get? n = some a ∧ P a := by
  rintro ⟨a, h1, -⟩
  obtain ⟨b, h2⟩ := (h.acc n).2 ⟨a, h1⟩
  rw [hn] at h2
  cases h2

private theorem Like.call_iff {s₀ s : ACTStates α} (h : Like s₀ s) {ed : Edit α} (hn : ed.NoNone)
    {e' : Editor α} : ed.call ⟨s, "standard"⟩ = .ok e' ↔
      ed.Fits s₀ ∧ e' = ⟨ed.apply s, "standard"⟩ := by
  have unknown : ∀ n, s.accumulators.get? n = none → n ∉ s.accumulators.keys :=
    fun n hn => Dict.get?_eq_none_iff.1 hn
  cases ed with
  | probabilities v =>
    refine (C28_set_probabilities (e := ⟨s, "standard"⟩) h.wf rfl v).ok_iff.trans ?_
    simp only [Edit.Fits, Edit.apply, h.prob.1, h.prob.2]
  | residuals v =>
    refine (C28_set_residuals (e := ⟨s, "standard"⟩) h.wf rfl v).ok_iff.trans ?_
    simp only [Edit.Fits, Edit.apply, h.res.1, h.res.2]
  | iterations v =>
    refine (C28_set_iterations (e := ⟨s, "standard"⟩) h.wf rfl v).ok_iff.trans ?_
    simp only [Edit.Fits, Edit.apply, h.iter.1, h.iter.2]
  | epsilon x => exact (C28_set_epsilon (e := ⟨s, "standard"⟩) rfl x).ok_iff
  | accumulator n v =>
    cases hb : s.accumulators.get? n with
    | none =>
      obtain ⟨h1, -⟩ := C30_unknown_name (e := ⟨s, "standard"⟩) h.wf rfl (unknown n hb) v
      simp [Edit.call, h1, Edit.Fits, not_fits h hb]
    | some b =>
      refine (C29_set_accumulator_partial (e := ⟨s, "standard"⟩) h.wf rfl hb (h.noNone.1 n b hb) hn
        e').trans ?_
      rw [h.fits_tree hb]
      rfl
  | default n v =>
    cases hb : s.accumulators.get? n with
    | none =>
      obtain ⟨-, h1, -⟩ := C30_unknown_name (e := ⟨s, "standard"⟩) h.wf rfl (unknown n hb) v
      simp [Edit.call, h1, Edit.Fits, not_fits h hb]
    | some b =>
      refine (C29_set_defaults_partial (e := ⟨s, "standard"⟩) h.wf rfl hb (h.noNone.1 n b hb) hn
        e').trans ?_
      rw [h.fits_tree hb]
      rfl
  | update n v =>
    cases hb : s.accumulators.get? n with
    | none =>
      obtain ⟨-, -, h1, h2⟩ := C30_unknown_name (e := ⟨s, "standard"⟩) h.wf rfl (unknown n hb) v
      by_cases hv : v = .none
      · simp [Edit.call, h1 hv, Edit.Fits, not_fits h hb]
      · simp [Edit.call, h2 hv, Edit.Fits, not_fits h hb]
    | some b =>
      obtain ⟨d, hd⟩ := Dict.mem_keys_iff.1 ((h.wf.def_iff n).2 (Dict.mem_keys_iff.2 ⟨b, hb⟩))
      refine (C29_set_updates_partial (e := ⟨s, "standard"⟩) rfl hd (h.noNone.2 n d hd) hn
        e').trans (and_congr ?_ Iff.rfl)
      have hbd := h.wf.same n b d hb hd
      have e1 : SameType d v ↔ SameType b v :=
        ⟨fun h1 => hbd.trans h1, fun h1 => hbd.symm.trans h1⟩
      rw [e1, h.fits_tree hb]
      obtain ⟨a, ha⟩ := (h.acc n).1 ⟨b, hb⟩
      constructor
      · rintro (h1 | ⟨a', h1, h2⟩)
        · exact ⟨a, ha, .inl h1⟩
        · exact ⟨a', h1, .inr h2⟩
      · rintro ⟨a', h1, h2 | h2⟩
        · exact .inl h2
        · exact .inr ⟨a', h1, h2⟩

private theorem Like.apply {s₀ s : ACTStates α} (h : Like s₀ s) {ed : Edit α} (hn : ed.NoNone)
    (hf : ed.Fits s₀) : Like s₀ (ed.apply s) := by
  have hc := (h.call_iff hn (e' := ⟨ed.apply s, "standard"⟩)).2 ⟨hf, rfl⟩
  cases ed with
  | probabilities v =>
    exact ⟨(C28_wf_preserved (e := ⟨s, "standard"⟩) h.wf rfl (.inl ⟨v, hc⟩)).1, h.noNone,
      ⟨hf.1, hf.2.1⟩, h.res, h.iter, h.acc, h.same⟩
  | residuals v =>
    exact ⟨(C28_wf_preserved (e := ⟨s, "standard"⟩) h.wf rfl (.inr (.inl ⟨v, hc⟩))).1, h.noNone,
      h.prob, ⟨hf.1, hf.2.1⟩, h.iter, h.acc, h.same⟩
  | iterations v =>
    exact ⟨(C28_wf_preserved (e := ⟨s, "standard"⟩) h.wf rfl (.inr (.inr (.inl ⟨v, hc⟩)))).1, h.noNone,
      h.prob, h.res, ⟨hf.1, hf.2.1⟩, h.acc, h.same⟩
  | epsilon x =>
    exact ⟨(C28_wf_preserved (e := ⟨s, "standard"⟩) h.wf rfl (.inr (.inr (.inr ⟨x, hc⟩)))).1, h.noNone,
      h.prob, h.res, h.iter, h.acc, h.same⟩
  | accumulator n v =>
    obtain ⟨a, ha, hst⟩ := hf
    obtain ⟨b, hb⟩ := (h.acc n).2 ⟨a, ha⟩
    have get : ∀ m, (Edit.apply s (.accumulator n v)).accumulators.get? m =
        if n = m then some v else s.accumulators.get? m := fun m => Dict.get?_set ..
    refine ⟨(C29_still_iterates_partial (e := ⟨s, "standard"⟩) h.wf rfl hb (h.noNone.1 n b hb) hn
      hc).1, ⟨?_, h.noNone.2⟩, h.prob, h.res, h.iter, ?_, ?_⟩
    · intro m t ht
      rw [get] at ht
      split at ht
      · cases ht; exact hn
      · exact h.noNone.1 m t ht
    · intro m
      rw [get]
      split
      · next hm => subst hm; simp [ha]
      · exact h.acc m
    · intro m x y hx hy
      rw [get] at hy
      split at hy
      · next hm => subst hm; cases hy; rw [ha] at hx; cases hx; exact hst
      · exact h.same m x y hx hy
  | default n v =>
    obtain ⟨a, ha, hst⟩ := hf
    obtain ⟨b, hb⟩ := (h.acc n).2 ⟨a, ha⟩
    have hbv := (h.fits_tree hb).2 ⟨a, ha, hst⟩
    have get : ∀ m, (Edit.apply s (.default n v)).defaults.get? m =
        if n = m then some v else s.defaults.get? m := fun m => Dict.get?_set ..
    have hk : n ∈ s.defaults.keys := (h.wf.def_iff n).2 (Dict.mem_keys_iff.2 ⟨b, hb⟩)
    refine ⟨⟨h.wf.floating, h.wf.res_shape, h.wf.res_dtype, h.wf.it_shape, h.wf.it_dtype,
      h.wf.acc_keys, h.wf.def_keys.set _ _, h.wf.upd_keys, ?_, h.wf.upd_iff, h.wf.batched, ?_⟩,
      ⟨h.noNone.1, ?_⟩, h.prob, h.res, h.iter, h.acc, h.same⟩
    · intro m
      show m ∈ (s.defaults.set n v).keys ↔ _
      rw [Dict.keys_set_of_mem hk]
      exact h.wf.def_iff m
    · intro m x y hx hy
      rw [get] at hy
      split at hy
      · next hm =>
        subst hm
        cases hy
        have hx' : s.accumulators.get? n = some x := hx
        rw [hb] at hx'
        cases hx'
        exact hbv
      · exact h.wf.same m x y hx hy
    · intro m t ht
      rw [get] at ht
      split at ht
      · cases ht; exact hn
      · exact h.noNone.2 m t ht
  | update n v =>
    obtain ⟨a, ha, -⟩ := hf
    obtain ⟨b, hb⟩ := (h.acc n).2 ⟨a, ha⟩
    have hk : n ∈ s.updates.keys := (h.wf.upd_iff n).2 (Dict.mem_keys_iff.2 ⟨b, hb⟩)
    refine ⟨⟨h.wf.floating, h.wf.res_shape, h.wf.res_dtype, h.wf.it_shape, h.wf.it_dtype,
      h.wf.acc_keys, h.wf.def_keys, h.wf.upd_keys.set _ _, h.wf.def_iff, ?_, h.wf.batched, h.wf.same⟩,
      h.noNone, h.prob, h.res, h.iter, h.acc, h.same⟩
    intro m
    show m ∈ (s.updates.set n v).keys ↔ _
    rw [Dict.keys_set_of_mem hk]
    exact h.wf.upd_iff m

omit [Arith α] in
private theorem Like.refl {s : ACTStates α} (hwf : s.WF) (hn : s.NoNone) : Like s s :=
  ⟨hwf, hn, ⟨rfl, rfl⟩, ⟨rfl, rfl⟩, ⟨rfl, rfl⟩, fun _ => Iff.rfl, fun n a b ha hb => by
    rw [ha] at hb; cases hb; exact SameType.refl_of_batched (hwf.batched n a ha)⟩

private theorem Like.run_iff {s₀ : ACTStates α} {eds : List (Edit α)} (hn : ∀ ed ∈ eds, ed.NoNone)
    {e' : Editor α} : ∀ {s : ACTStates α}, Like s₀ s →
    (runEdits ⟨s, "standard"⟩ eds = .ok e' ↔
      (∀ ed ∈ eds, ed.Fits s₀) ∧ e' = ⟨eds.foldl Edit.apply s, "standard"⟩) := by
  induction eds with
  | nil => intro s _; simp [runEdits, eq_comm]
  | cons ed eds ih =>
    intro s h
    simp only [runEdits, bind_ok, h.call_iff (hn ed (by simp)), List.foldl_cons, List.mem_cons,
      forall_eq_or_imp]
    constructor
    · rintro ⟨e1, ⟨h1, rfl⟩, h2⟩
      obtain ⟨h3, h4⟩ := (ih (fun x hx => hn x (by simp [hx])) (h.apply (hn ed (by simp)) h1)).1 h2
      exact ⟨⟨h1, h3⟩, h4⟩
    · rintro ⟨⟨h1, h3⟩, h4⟩
      exact ⟨_, ⟨h1, rfl⟩, (ih (fun x hx => hn x (by simp [hx]))
        (h.apply (hn ed (by simp)) h1)).2 ⟨h3, h4⟩⟩

/-- C71, standard mode, trees without `None`: a sequence of edits succeeds exactly when each edit on
its own fits the state the sequence started from, whatever the other edits are. -/
theorem C71_accepted_independently_partial {s : ACTStates α} (hwf : s.WF) (hs : s.NoNone)
    {eds : List (Edit α)} (hn : ∀ ed ∈ eds, ed.NoNone) :
    ((∃ e', runEdits ⟨s, "standard"⟩ eds = .ok e') ↔ ∀ ed ∈ eds, ed.Fits s) ∧
    ((∃ e', runEdits ⟨s, "standard"⟩ eds = .ok e') ↔
      ∀ ed ∈ eds, ∃ e', ed.call ⟨s, "standard"⟩ = .ok e') := by
  have hl := Like.refl hwf hs
  have h1 : (∃ e', runEdits ⟨s, "standard"⟩ eds = .ok e') ↔ ∀ ed ∈ eds, ed.Fits s := by
    simp only [hl.run_iff hn, exists_and_left, exists_eq, and_true]
  refine ⟨h1, h1.trans ?_⟩
  refine forall_congr' fun ed => forall_congr' fun hed => ?_
  simp only [hl.call_iff (hn ed hed), exists_and_left, exists_eq, and_true]

omit [Arith α] in
private theorem apply_comm {s : ACTStates α} {x y : Edit α} (hne : x.target ≠ y.target)
    (hx : ∀ n, (∃ v, x = .accumulator n v) ∨ (∃ v, x = .default n v) ∨ (∃ v, x = .update n v) →
      n ∈ s.accumulators.keys ∧ n ∈ s.defaults.keys ∧ n ∈ s.updates.keys)
    (hy : ∀ n, (∃ v, y = .accumulator n v) ∨ (∃ v, y = .default n v) ∨ (∃ v, y = .update n v) →
      n ∈ s.accumulators.keys ∧ n ∈ s.defaults.keys ∧ n ∈ s.updates.keys) :
    y.apply (x.apply s) = x.apply (y.apply s) := by
  cases x <;> cases y <;> simp only [Edit.target, ne_eq, not_true_eq_false] at hne <;>
    try rfl
  · next n v m w =>
    have h1 := hx n (by simp)
    have h2 := hy m (by simp)
    simp only [Edit.apply]
    rw [Dict.set_set_ne_of_mem v w (fun h => hne (by rw [h])) h1.1 h2.1]
  · next n v m w =>
    have h1 := hx n (by simp)
    have h2 := hy m (by simp)
    simp only [Edit.apply]
    rw [Dict.set_set_ne_of_mem v w (fun h => hne (by rw [h])) h1.2.1 h2.2.1]
  · next n v m w =>
    have h1 := hx n (by simp)
    have h2 := hy m (by simp)
    simp only [Edit.apply]
    rw [Dict.set_set_ne_of_mem v w (fun h => hne (by rw [h])) h1.2.2 h2.2.2]

omit [Arith α] in
private theorem Like.known {s₀ s : ACTStates α} [Arith α] (h : Like s₀ s) {x : Edit α}
    (hf : x.Fits s₀) (n : String)
    (hx : (∃ v, x = .accumulator n v) ∨ (∃ v, x = .default n v) ∨ (∃ v, x = .update n v)) :
    n ∈ s.accumulators.keys ∧ n ∈ s.defaults.keys ∧ n ∈ s.updates.keys := by
  have : ∃ a, s₀.accumulators.get? n = some a := by
    rcases hx with ⟨v, rfl⟩ | ⟨v, rfl⟩ | ⟨v, rfl⟩
    · obtain ⟨a, ha, -⟩ := hf; exact ⟨a, ha⟩
    · obtain ⟨a, ha, -⟩ := hf; exact ⟨a, ha⟩
    · obtain ⟨a, ha, -⟩ := hf; exact ⟨a, ha⟩
  have hk := Dict.mem_keys_iff.2 ((h.acc n).2 this)
  exact ⟨hk, (h.wf.def_iff n).2 hk, (h.wf.upd_iff n).2 hk⟩

private theorem fold_perm {s₀ : ACTStates α} {eds eds' : List (Edit α)} (hp : eds.Perm eds') :
    ∀ {s : ACTStates α}, Like s₀ s → (∀ ed ∈ eds, ed.NoNone ∧ ed.Fits s₀) →
    eds.Pairwise (fun x y => x.target ≠ y.target) →
    eds.foldl Edit.apply s = eds'.foldl Edit.apply s := by
  induction hp with
  | nil => intros; rfl
  | cons x p ih =>
    intro s h hf hd
    simp only [List.foldl_cons]
    have hx := hf x (by simp)
    exact ih (h.apply hx.1 hx.2) (fun y hy => hf y (by simp [hy])) (List.pairwise_cons.1 hd).2
  | swap x y l =>
    intro s h hf hd
    simp only [List.foldl_cons]
    have hne : y.target ≠ x.target := (List.pairwise_cons.1 hd).1 x (by simp)
    rw [apply_comm hne (h.known (hf y (by simp)).2) (h.known (hf x (by simp)).2)]
  | trans p q ih1 ih2 =>
    intro s h hf hd
    rw [ih1 h hf hd]
    exact ih2 h (fun y hy => hf y (p.mem_iff.2 hy)) ((p.pairwise_iff fun h => Ne.symm h).1 hd)

/-- C71, standard mode, trees without `None`: edits of different places can be made in any order:
if one order succeeds, so does every other, with the same result. -/
theorem C71_any_order_partial {s : ACTStates α} (hwf : s.WF) (hs : s.NoNone)
    {eds eds' : List (Edit α)} (hn : ∀ ed ∈ eds, ed.NoNone)
    (hd : eds.Pairwise (fun x y => x.target ≠ y.target)) (hp : eds.Perm eds') {e' : Editor α}
    (h : runEdits ⟨s, "standard"⟩ eds = .ok e') : runEdits ⟨s, "standard"⟩ eds' = .ok e' := by
  have hl := Like.refl hwf hs
  obtain ⟨h1, rfl⟩ := (hl.run_iff hn).1 h
  refine (hl.run_iff fun x hx => hn x (hp.mem_iff.2 hx)).2 ⟨fun x hx => h1 x (hp.mem_iff.2 hx), ?_⟩
  rw [fold_perm hp hl (fun x hx => ⟨hn x hx, h1 x hx⟩) hd]

section Example
open Fixtures
attribute [local instance] Arith.exact

/-- The claim is false when `None` is allowed: with the accumulator first set to `None`, the default
can be set to a tensor of another shape; in the other order that edit is refused. -/
theorem C71_order_matters :
    ∃ x y : Edit ℚ, x.target ≠ y.target ∧
      raised (runEdits ⟨simple, "standard"⟩ [x, y]) = none ∧
      raised (runEdits ⟨simple, "standard"⟩ [y, x]) = some .jaxRuntimeError :=
  ⟨.accumulator "out" .none, .default "out" (bare (vec [1, 2, 3])), by simp [Edit.target],
    by decide +kernel, by decide +kernel⟩

/-- Five edits of different places that meet the hypotheses. -/
example :
    let eds : List (Edit ℚ) := [.probabilities (vec [1/2, 1]), .epsilon (1/3),
      .accumulator "tree" (pair (vec [5, 6]) (col 7 8)), .default "out" (bare (col 1 2)),
      .update "out" .none]
    fresh.WF ∧ fresh.NoNone ∧ (∀ ed ∈ eds, ed.NoNone) ∧
    eds.Pairwise (fun x y => x.target ≠ y.target) ∧
    raised (runEdits ⟨fresh, "standard"⟩ eds) = none := by
  refine ⟨fresh_wf, ⟨?_, ?_⟩, ?_, by decide, by decide +kernel⟩
  · intro n t ht
    rcases get?_two ht with ⟨-, rfl⟩ | ⟨-, rfl⟩
    · exact trivial
    · exact ⟨trivial, trivial, trivial⟩
  · intro n t ht
    rcases get?_two ht with ⟨-, rfl⟩ | ⟨-, rfl⟩
    · exact trivial
    · exact ⟨trivial, trivial, trivial⟩
  · intro ed hed
    simp only [List.mem_cons, List.not_mem_nil, or_false] at hed
    rcases hed with rfl | rfl | rfl | rfl | rfl
    · exact trivial
    · exact trivial
    · exact ⟨trivial, trivial, trivial⟩
    · exact trivial
    · exact .inl rfl

end Example
end JaxAct
