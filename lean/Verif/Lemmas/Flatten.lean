import Verif.Model.Flatten
import Verif.Lemmas.Mapping
import Verif.Lemmas.Dict
import Verif.Lemmas.Res

/-! # Lemmas about the flattening of states -/

namespace JaxAct
open PyTree
variable {α β γ : Type}

theorem cut_flatten : ∀ gs : List (List β), cut (gs.map List.length) gs.flatten = some gs
  | [] => rfl
  | g :: gs => by
    simp only [List.map_cons, List.flatten_cons, cut, List.length_append, Nat.le_add_right,
      if_true, List.drop_left, List.take_left, cut_flatten gs]

theorem cut_some : ∀ {ns : List Nat} {ls : List β} {gs : List (List β)}, cut ns ls = some gs →
    gs.flatten = ls ∧ gs.map List.length = ns
  | [], [], gs, h => by cases h; exact ⟨rfl, rfl⟩
  | [], _ :: _, gs, h => by cases h
  | n :: ns, ls, gs, h => by
    simp only [cut] at h
    split at h
    · rename_i hn
      split at h
      · rename_i gs' hg
        cases h
        obtain ⟨h1, h2⟩ := cut_some hg
        simp [h1, h2, hn]
      · cases h
    · cases h

theorem cut_of_length : ∀ {ns : List Nat} {ls : List β}, ls.length = ns.sum → ∃ gs, cut ns ls = some gs
  | [], [], _ => ⟨[], rfl⟩
  | [], _ :: _, h => by simp at h
  | n :: ns, ls, h => by
    rw [List.sum_cons] at h
    obtain ⟨gs, hg⟩ := cut_of_length (ns := ns) (ls := ls.drop n) (by rw [List.length_drop]; omega)
    exact ⟨ls.take n :: gs, by simp only [cut, hg, if_pos (show n ≤ ls.length by omega)]⟩

theorem flattenFields_eq : ∀ fs : List (String × PyTree β),
    flattenFields fs = (fs.map (·.2.treeLeaves), fs.map (·.2.treeStructure))
  | [] => rfl
  | (_, v) :: fs => by simp [flattenFields, flattenFields_eq fs]

theorem unflattenFields_ok : ∀ (gs : List (List β)) (ds : List TreeDef),
    gs.map List.length = ds.map (fun d => d.leaves.length) →
    ∃ ts : List (PyTree β), unflattenFields gs ds = .ok ts ∧ ts.map struct = ds ∧ ts.map leaves = gs
  | [], [], _ => ⟨[], rfl, rfl, rfl⟩
  | [], _ :: _, h => by simp at h
  | _ :: _, [], h => by simp at h
  | g :: gs, d :: ds, h => by
    simp only [List.map_cons, List.cons.injEq] at h
    obtain ⟨t, ht⟩ := treeUnflatten_ok h.1
    obtain ⟨ts, h1, h2, h3⟩ := unflattenFields_ok gs ds h.2
    obtain ⟨h4, h5⟩ := treeUnflatten_ok_iff.1 ht
    refine ⟨t :: ts, ?_, by simp [h2, h4], by simp [h3, h5]⟩
    simp only [unflattenFields, ht, h1]
    rfl

/-- `zip` stops at the shorter list; every pair is unflattened by itself. -/
theorem unflattenFields_zip : ∀ (gs : List (List β)) (ds : List TreeDef),
    ((∀ x ∈ gs.zip ds, x.1.length = x.2.leaves.length) →
      ∃ ts : List (PyTree β), unflattenFields gs ds = .ok ts ∧ ts.length = min gs.length ds.length) ∧
    (¬ (∀ x ∈ gs.zip ds, x.1.length = x.2.leaves.length) →
      unflattenFields gs ds = .error .valueError)
  | [], ds => ⟨fun _ => ⟨[], rfl, by simp⟩, fun h => absurd (by simp) h⟩
  | _ :: _, [] => ⟨fun _ => ⟨[], rfl, by simp⟩, fun h => absurd (by simp) h⟩
  | g :: gs, d :: ds => by
    obtain ⟨h1, h2⟩ := unflattenFields_zip gs ds
    simp only [List.zip_cons_cons, List.forall_mem_cons]
    by_cases hg : g.length = d.leaves.length
    · obtain ⟨t, ht⟩ := treeUnflatten_ok hg
      constructor
      · rintro ⟨-, h⟩
        obtain ⟨ts, h3, h4⟩ := h1 h
        refine ⟨t :: ts, by simp only [unflattenFields, ht, h3]; rfl, ?_⟩
        simp only [List.length_cons, h4]
        omega
      · intro h
        simp only [unflattenFields, ht, h2 fun hall => h ⟨hg, hall⟩]
        rfl
    · refine ⟨fun h => absurd h.1 hg, fun _ => ?_⟩
      cases ht : treeUnflatten d g with
      | ok t =>
        obtain ⟨rfl, rfl⟩ := treeUnflatten_ok_iff.1 ht
        exact absurd (leaves_struct_length t).symm hg
      | error e =>
        obtain ⟨rfl, -⟩ := treeUnflatten_error ht
        simp only [unflattenFields, ht]
        rfl

namespace RawState

/-- The nine field values. -/
def fields (s : RawState β) : List (PyTree β) := s.asDict.map Prod.snd

theorem ofValues_fields {ts : List (PyTree β)} (h : ts.length = 9) :
    ∃ r : RawState β, ofValues ts = .ok r ∧ r.fields = ts := by
  match ts, h with
  | [a, b, c, d, e, f, g, i, j], _ => exact ⟨⟨a, b, c, d, e, f, g, i, j⟩, rfl, rfl⟩

theorem fields_injective {r s : RawState β} (h : r.fields = s.fields) : r = s := by
  cases r; cases s
  simp only [fields, asDict, List.map_cons, List.map_nil, List.cons.injEq, and_true] at h
  simp only [RawState.mk.injEq]
  exact h

/-- Every field with its dicts in key order. -/
def canon (s : RawState β) : RawState β where
  epsilon := s.epsilon.canon
  iterations := s.iterations.canon
  residuals := s.residuals.canon
  probabilities := s.probabilities.canon
  defaults := s.defaults.canon
  accumulators := s.accumulators.canon
  updates := s.updates.canon
  depression_constant := s.depression_constant.canon
  error_mode := s.error_mode.canon

theorem fields_canon (s : RawState β) : s.canon.fields = s.fields.map PyTree.canon := rfl

end RawState

theorem treeFlattenState_eq (s : RawState β) : treeFlattenState s =
    ((s.fields.map treeLeaves).flatten,
      ⟨s.fields.map treeStructure, s.fields.map fun t => t.treeLeaves.length⟩) := rfl

/-- Unflattening with any values of the right number succeeds and flattens back to them. -/
theorem treeUnflattenState_ok (s : RawState β) (ls : List γ)
    (h : ls.length = (treeFlattenState s).1.length) :
    ∃ r : RawState γ, treeUnflattenState (treeFlattenState s).2 ls = .ok r ∧
      r.fields.map struct = s.fields.map treeStructure ∧
      (r.fields.map leaves).flatten = ls := by
  rw [treeFlattenState_eq] at h ⊢
  simp only [List.length_flatten, List.map_map] at h
  obtain ⟨gs, hg⟩ := cut_of_length (ns := s.fields.map fun t => t.treeLeaves.length) (ls := ls) h
  obtain ⟨h1, h2⟩ := cut_some hg
  obtain ⟨ts, h3, h4, h5⟩ := unflattenFields_ok gs (s.fields.map treeStructure) (by
    rw [h2, List.map_map]
    exact List.map_congr_left fun t _ => (treeStructure_leaves_length t).symm)
  have hl : ts.length = 9 := by
    have := congrArg List.length h4
    simpa [RawState.fields, RawState.asDict] using this
  obtain ⟨r, h6, h7⟩ := RawState.ofValues_fields hl
  refine ⟨r, ?_, by rw [h7]; exact h4, by rw [h7, h5, h1]⟩
  simp only [treeUnflattenState, hg, stateUnflatten, h3]
  exact h6

theorem treeUnflattenState_error (d : StateDef) (ls : List γ) (h : ls.length ≠ d.lens.sum) :
    treeUnflattenState d ls = .error .valueError := by
  unfold treeUnflattenState
  cases hc : cut d.lens ls with
  | none => rfl
  | some gs =>
    obtain ⟨h1, h2⟩ := cut_some hc
    exact absurd (by rw [← h1, ← h2, List.length_flatten]) h

theorem fields_eq_of {A : Type} {f : A → TreeDef} : ∀ {ts : List (PyTree γ)} {ss : List A},
    ts.map struct = ss.map f → (∀ s ∈ ss, ∀ t : PyTree γ, t.struct = f s → t.canon = t) →
    ts.map PyTree.canon = ts
  | [], _, _, _ => rfl
  | t :: ts, [], h, _ => by simp at h
  | t :: ts, s :: ss, h, hc => by
    simp only [List.map_cons, List.cons.injEq] at h
    rw [List.map_cons, hc s (by simp) t h.1,
      fields_eq_of h.2 (fun s' hs' => hc s' (by simp [hs']))]

/-- The rebuilt state flattens to exactly the given leaves and the original treedef. -/
theorem treeUnflattenState_flatten {s : RawState β} {ls : List γ} {r : RawState γ}
    (hs : r.fields.map struct = s.fields.map treeStructure)
    (hl : (r.fields.map leaves).flatten = ls) :
    treeFlattenState r = (ls, (treeFlattenState s).2) := by
  have hcan : r.fields.map PyTree.canon = r.fields := by
    refine fields_eq_of hs fun s' _ t ht => ?_
    exact canon_of_isCanon t (isCanon_of_struct_eq ht (isCanon_canon s'))
  have e1 : r.fields.map treeLeaves = r.fields.map leaves := by
    conv_rhs => rw [← hcan, List.map_map]
    rfl
  have e2 : r.fields.map treeStructure = s.fields.map treeStructure := by
    rw [← hs]
    conv_rhs => rw [← hcan, List.map_map]
    rfl
  have e3 : (r.fields.map fun t => t.treeLeaves.length)
      = s.fields.map fun t => t.treeLeaves.length := by
    have := congrArg (List.map (fun d : TreeDef => d.leaves.length)) e2
    simpa only [List.map_map, Function.comp_def, treeStructure_leaves_length] using this
  rw [treeFlattenState_eq, treeFlattenState_eq, e1, e2, e3, hl]

theorem eq_of_fields {r s : RawState β} (hs : r.fields.map struct = s.fields.map struct)
    (hl : r.fields.map leaves = s.fields.map leaves) : r = s := by
  refine RawState.fields_injective ?_
  generalize r.fields = a at hs hl ⊢
  generalize s.fields = b at hs hl ⊢
  induction a generalizing b with
  | nil => cases b with
    | nil => rfl
    | cons => simp at hs
  | cons x xs ih => cases b with
    | nil => simp at hs
    | cons y ys =>
      simp only [List.map_cons, List.cons.injEq] at hs hl
      rw [eq_of_struct_leaves hs.1 hl.1, ih ys hs.2 hl.2]

/-- Round trip: every field comes back with its dicts in key order. -/
theorem treeUnflattenState_roundtrip (s : RawState β) :
    treeUnflattenState (treeFlattenState s).2 (treeFlattenState s).1 = .ok s.canon := by
  rw [treeFlattenState_eq]
  have hc := cut_flatten (s.fields.map treeLeaves)
  rw [List.map_map] at hc
  obtain ⟨ts, h3, h4, h5⟩ := unflattenFields_ok (s.fields.map treeLeaves)
    (s.fields.map treeStructure) (by
      rw [List.map_map, List.map_map]
      exact List.map_congr_left fun t _ => (treeStructure_leaves_length t).symm)
  have hl : ts.length = 9 := by
    have := congrArg List.length h4
    simpa [RawState.fields, RawState.asDict] using this
  obtain ⟨r, h6, h7⟩ := RawState.ofValues_fields hl
  have hr : r = s.canon := by
    refine eq_of_fields ?_ ?_
    · rw [h7, h4, RawState.fields_canon, List.map_map]; rfl
    · rw [h7, h5, RawState.fields_canon, List.map_map]; rfl
  have hc' : cut (s.fields.map fun t => t.treeLeaves.length) (s.fields.map treeLeaves).flatten
      = some (s.fields.map treeLeaves) := hc
  simp only [treeUnflattenState, hc', stateUnflatten, h3]
  exact h6.trans (by rw [hr])

theorem treeFlattenState_canon (s : RawState β) :
    treeFlattenState s.canon = treeFlattenState s := by
  simp only [treeFlattenState_eq, RawState.fields_canon, List.map_map, Function.comp_def,
    treeLeaves_canon, treeStructure_canon]

theorem treeFlattenState_eq_iff (s s' : RawState β) :
    treeFlattenState s = treeFlattenState s' ↔ s.canon = s'.canon := by
  constructor
  · intro h
    have h1 := treeUnflattenState_roundtrip s
    rw [h, treeUnflattenState_roundtrip s'] at h1
    exact (Except.ok.inj h1).symm
  · intro h
    rw [← treeFlattenState_canon s, h, treeFlattenState_canon]

/-! ### Well typed states -/

theorem Dict.tree_canon (d : Dict (PyTree (Leaf α))) : d.tree.canon = d.sorted.tree := by
  have h : d.keys.zip (canonL (d.map fun kv => kv.2.map Atom.leaf))
      = (d.map fun kv => (kv.1, kv.2.canon)).map (Prod.map id (PyTree.map Atom.leaf)) := by
    rw [canonL_eq]
    induction d with
    | nil => rfl
    | cons kv d ih =>
      simp only [Dict.keys, List.map_cons, List.zip_cons_cons, canon_map, List.cons.injEq] at ih ⊢
      exact ⟨rfl, ih⟩
  unfold Dict.tree
  simp only [canon, sortNode]
  rw [h, ← sortKV_map, List.map_map, List.map_map]
  rfl

theorem Dict.get?_perm {V : Type} {d e : Dict V} (hp : d.Perm e) (hd : d.WF) (n : String) :
    d.get? n = e.get? n := by
  have he : e.WF := by
    unfold Dict.WF Dict.keys at hd ⊢
    exact (hp.map Prod.fst).nodup_iff.1 hd
  cases h : d.get? n with
  | some v => exact (Dict.get?_of_mem he (hp.mem_iff.1 (Dict.mem_of_get? h))).symm
  | none =>
    symm
    rw [Dict.get?_eq_none_iff] at h ⊢
    intro hm
    exact h ((hp.map Prod.fst).mem_iff.2 hm)

theorem Dict.get?_map_canon (e : Dict (PyTree (Leaf α))) (n : String) :
    Dict.get? (e.map fun kv => (kv.1, kv.2.canon)) n = (e.get? n).map PyTree.canon := by
  induction e with
  | nil => rfl
  | cons kv e ih => simp only [List.map_cons, Dict.get?_cons, ih]; split <;> rfl

theorem Dict.sorted_same {d : Dict (PyTree (Leaf α))} (h : DictWF d) : DictSame d.sorted d := by
  have hk : Dict.WF (d.map fun kv => (kv.1, kv.2.canon)) := by
    have : Dict.keys (d.map fun kv => (kv.1, kv.2.canon)) = d.keys := by
      simp [Dict.keys, Function.comp_def]
    unfold Dict.WF; rw [this]; exact h.1
  have hs : Dict.WF d.sorted := by
    unfold Dict.WF Dict.keys at hk ⊢
    exact ((sortKV_perm (d.map fun kv => (kv.1, kv.2.canon))).map Prod.fst).nodup_iff.2 hk
  intro n
  have e : d.sorted.get? n = (d.get? n).map PyTree.canon :=
    (Dict.get?_perm (sortKV_perm _) hs n).trans (Dict.get?_map_canon d n)
  rw [e]
  cases hg : d.get? n with
  | none => exact .none
  | some t => exact .some (sameMapping_canon (h.2 n t hg))

theorem ACTStates.raw_canon (s : ACTStates α) : s.raw.canon = s.sorted.raw := by
  simp only [RawState.canon, ACTStates.raw, ACTStates.sorted, Dict.tree_canon, RawState.mk.injEq,
    Tensor.tree, PyTree.canon, true_and]
  cases s.error_mode <;> rfl

theorem ACTStates.sorted_same {s : ACTStates α} (h : s.DictsWF) : s.sorted.Same s where
  epsilon := rfl
  iterations := rfl
  residuals := rfl
  probabilities := rfl
  depression_constant := rfl
  error_mode := rfl
  accumulators := Dict.sorted_same h.accumulators
  defaults := Dict.sorted_same h.defaults
  updates := Dict.sorted_same h.updates

theorem Dict.sorted_eq {d e : Dict (PyTree (Leaf α))} (hd : DictWF d) (he : DictWF e)
    (h : DictSame d e) : d.sorted = e.sorted := by
  have wf : ∀ {d : Dict (PyTree (Leaf α))}, DictWF d →
      (List.map Prod.fst (d.map fun kv => (kv.1, kv.2.canon))).Nodup := by
    intro d hd
    have : List.map Prod.fst (d.map fun kv => (kv.1, kv.2.canon)) = d.keys := by
      simp [Dict.keys, Function.comp_def]
    rw [this]; exact hd.1
  have hg : ∀ n, (d.get? n).map PyTree.canon = (e.get? n).map PyTree.canon := by
    intro n
    have hn := h n
    cases h1 : d.get? n with
    | none => rw [h1] at hn; cases h2 : e.get? n with
      | none => rfl
      | some t => rw [h2] at hn; cases hn
    | some t => rw [h1] at hn; cases h2 : e.get? n with
      | none => rw [h2] at hn; cases hn
      | some u =>
        rw [h2] at hn
        cases hn with
        | some hn => simp [canon_eq_of_sameMapping t u (hd.2 n t h1) (he.2 n u h2) hn]
  have key : ∀ {d : Dict (PyTree (Leaf α))}, DictWF d → ∀ n t,
      (n, t) ∈ (d.map fun kv => (kv.1, kv.2.canon)) ↔ (d.get? n).map PyTree.canon = some t := by
    intro d hd n t
    rw [← Dict.get?_map_canon]
    exact ⟨fun hm => Dict.get?_of_mem (wf hd) hm, fun hm => Dict.mem_of_get? hm⟩
  have hperm : (d.map fun kv => (kv.1, kv.2.canon)).Perm (e.map fun kv => (kv.1, kv.2.canon)) := by
    refine (List.perm_ext_iff_of_nodup (wf hd).of_map (wf he).of_map).2 ?_
    rintro ⟨n, t⟩
    rw [key hd, key he, hg]
  have hp := ((sortKV_perm (d.map fun kv => (kv.1, kv.2.canon))).trans hperm).trans
    (sortKV_perm (e.map fun kv => (kv.1, kv.2.canon))).symm
  refine hp.eq_of_pairwise (le := fun x y : String × PyTree (Leaf α) => x.1 ≤ y.1) ?_
    (sortKV_sorted _) (sortKV_sorted _)
  intro a b ha hb h1 h2
  have ha' := (sortKV_perm _).mem_iff.1 ha
  have hb' := hperm.mem_iff.2 ((sortKV_perm _).mem_iff.1 hb)
  exact List.inj_on_of_nodup_map (wf hd) ha' hb' (le_antisymm h1 h2)

theorem ACTStates.sorted_eq_iff {s s' : ACTStates α} (h : s.DictsWF) (h' : s'.DictsWF) :
    s.sorted = s'.sorted ↔ s.Same s' := by
  constructor
  · intro he
    obtain ⟨a1, a2, a3, a4, a5, a6, a7, a8, a9⟩ := sorted_same h
    obtain ⟨b1, b2, b3, b4, b5, b6, b7, b8, b9⟩ := sorted_same h'
    rw [he] at a1 a2 a3 a4 a5 a6 a7 a8 a9
    have tr : ∀ {x y z : Dict (PyTree (Leaf α))}, DictSame x y → DictSame x z → DictSame y z := by
      intro x y z hxy hxz n
      have h1 := hxy n
      have h2 := hxz n
      generalize x.get? n = p at h1 h2
      generalize y.get? n = q at h1 h2 ⊢
      generalize z.get? n = r at h1 h2 ⊢
      cases h1 with
      | none => cases h2; exact .none
      | some h1 => cases h2 with | some h2 => exact .some (h1.symm.trans h2)
    exact ⟨a1.symm.trans b1, a2.symm.trans b2, a3.symm.trans b3, a4.symm.trans b4,
      a5.symm.trans b5, a6.symm.trans b6, tr a7 b7, tr a8 b8, tr a9 b9⟩
  · rintro ⟨a1, a2, a3, a4, a5, a6, a7, a8, a9⟩
    simp only [ACTStates.sorted, ACTStates.mk.injEq]
    exact ⟨a1, a2, a3, a4, Dict.sorted_eq h.defaults h'.defaults a8,
      Dict.sorted_eq h.accumulators h'.accumulators a7, Dict.sorted_eq h.updates h'.updates a9, a5, a6⟩

theorem PyTree.map_injective {f : β → γ} (hf : ∀ x y, f x = f y → x = y) :
    ∀ s t : PyTree β, s.map f = t.map f → s = t := by
  intro s t h
  refine eq_of_struct_leaves ?_ ?_
  · have := congrArg struct h; simpa using this
  · have := congrArg leaves h
    rw [leaves_map, leaves_map] at this
    exact List.map_injective_iff.2 (fun x y => hf x y) this

theorem Dict.tree_injective {d e : Dict (PyTree (Leaf α))} (h : d.tree = e.tree) : d = e := by
  simp only [Dict.tree, PyTree.node.injEq, Kind.dict.injEq] at h
  obtain ⟨h1, h2⟩ := h
  induction d generalizing e with
  | nil => cases e with
    | nil => rfl
    | cons => simp at h2
  | cons kv d ih => cases e with
    | nil => simp at h2
    | cons kv' e =>
      simp only [Dict.keys, List.map_cons, List.cons.injEq] at h1 h2
      have h3 := PyTree.map_injective (fun x y hxy => by cases hxy; rfl) _ _ h2.1
      rw [ih h1.2 h2.2, Prod.ext h1.1 h3]

/-- Different well typed states are different objects. -/
theorem ACTStates.raw_injective {s s' : ACTStates α} (h : s.raw = s'.raw) : s = s' := by
  simp only [ACTStates.raw, RawState.mk.injEq, Tensor.tree, PyTree.leaf.injEq, Atom.float.injEq,
    Atom.leaf.injEq, Leaf.tensor.injEq] at h
  obtain ⟨h1, h2, h3, h4, h5, h6, h7, h8, h9⟩ := h
  have h9' : s.error_mode = s'.error_mode := by
    revert h9
    cases s.error_mode <;> cases s'.error_mode <;> simp [errorModeTree]
  cases s; cases s'
  simp only [ACTStates.mk.injEq]
  exact ⟨h1, h2, h3, h4, Dict.tree_injective h5, Dict.tree_injective h6, Dict.tree_injective h7, h8,
    h9'⟩

end JaxAct
