import Verif.Lemmas.Flatten
import Verif.Lemmas.Binary
import Verif.Lemmas.History
import Verif.Lemmas.Entry

/-! # Key order: states with sorted dicts, and that calls keep dict keys distinct -/

namespace JaxAct
open PyTree ACTStates

mutual
theorem PyTree.wf_map {β γ : Type} (f : β → γ) : ∀ t : PyTree β, (t.map f).WF ↔ t.WF
  | .leaf _ => by simp [PyTree.map, WF]
  | .none => by simp [PyTree.map, WF]
  | .node k cs => by
    have h : (mapL f cs).length = cs.length := by rw [mapL_eq, List.length_map]
    simp only [PyTree.map, WF, wfl_map f cs, h]
theorem PyTree.wfl_map {β γ : Type} (f : β → γ) : ∀ cs : List (PyTree β), WFL (mapL f cs) ↔ WFL cs
  | [] => by simp [mapL, WFL]
  | c :: cs => by simp only [mapL, WFL, wf_map f c, wfl_map f cs]
end

/-- A tree in key order with the structure of a tree with distinct keys has distinct keys. -/
theorem PyTree.wf_of_structure {β γ : Type} {a : PyTree β} {a' : PyTree γ} (ha : a.WF)
    (h : a'.treeStructure = a.treeStructure) (hc : a'.canon = a') : a'.WF := by
  unfold treeStructure struct at h
  rw [hc] at h
  rw [← wf_map (fun _ => ()), h, wf_map]
  exact Utils.wf_canon a ha

variable {α : Type}

theorem CacheStep.dictsWF {s s' : ACTStates α} {n : String} {t : PyTree (Leaf α)} (hw : s.DictsWF)
    (ht : t.WF) (st : CacheStep s n t s') : s'.DictsWF := by
  obtain ⟨-, rfl⟩ := st
  refine ⟨hw.accumulators, hw.defaults, hw.updates.1.set _ _, fun m u hu => ?_⟩
  simp only [Dict.get?_set] at hu
  split at hu
  · cases hu; exact ht
  · exact hw.updates.2 m u hu

variable [Arith α]

theorem IterStep.dictsWF {s s' : ACTStates α} {h : Tensor α} (hs : s.WF) (hw : s.DictsWF)
    (st : IterStep s h s') : s'.DictsWF := by
  have hs' := Controller.IterStep.wf hs st
  refine ⟨⟨hs'.acc_keys, fun n t ht => ?_⟩, st.defaults ▸ hw.defaults, hs'.upd_keys, fun n u hu => ?_⟩
  · have hn : n ∈ s.accumulators.keys := st.akeys ▸ Dict.mem_keys_iff.2 ⟨t, ht⟩
    obtain ⟨a, ha⟩ := Dict.mem_keys_iff.1 hn
    obtain ⟨u, a', -, h2, h3⟩ := st.tree n a ha
    rw [ht] at h2
    cases h2
    exact wf_of_structure (hw.accumulators.2 n a ha) h3.struct h3.canon
  · have hn : n ∈ s.accumulators.keys := (hs.upd_iff n).1 (st.ukeys ▸ Dict.mem_keys_iff.2 ⟨u, hu⟩)
    rw [st.cleared n hn] at hu
    cases hu
    trivial

theorem ResetStep.dictsWF {s s' : ACTStates α} (hs : s.WF) (hw : s.DictsWF) (st : ResetStep s s') :
    s'.DictsWF := by
  have hs' := Controller.ResetStep.wf hs st
  refine ⟨⟨hs'.acc_keys, fun n t ht => ?_⟩, st.defaults ▸ hw.defaults, st.updates ▸ hw.updates⟩
  have hn : n ∈ s.accumulators.keys := st.akeys ▸ Dict.mem_keys_iff.2 ⟨t, ht⟩
  obtain ⟨a, ha⟩ := Dict.mem_keys_iff.1 hn
  obtain ⟨d, a', -, h2, h3, h4, -⟩ := st.tree n a ha
  rw [ht] at h2
  cases h2
  exact wf_of_structure (hw.accumulators.2 n a ha) h3 h4

/-- The trees cached by a call have distinct keys (true of every Python object). -/
def Op.DictsWF : Op α → Prop
  | .cache _ t => t.WF
  | _ => True

theorem call_dictsWF {s : ACTStates α} (hs : s.WF) (hw : s.DictsWF) {op : Op α} (ho : op.DictsWF)
    {c : Controller α} (h : op.call ⟨s⟩ = .ok c) : c.state.DictsWF := by
  cases op with
  | cache n t => exact CacheStep.dictsWF hw ho (Controller.cacheUpdate_ok_iff.1 h)
  | iterate g => exact IterStep.dictsWF hs hw (Controller.iterateAct_ok hs h)
  | reset => exact ResetStep.dictsWF hs hw (Controller.resetBatches_ok hs h)

theorem call_wf {s : ACTStates α} (hs : s.WF) {op : Op α} {c : Controller α}
    (h : op.call ⟨s⟩ = .ok c) : c.state.WF :=
  run_wf (ops := [op]) hs (by simp only [run, h]; rfl)

theorem run_dictsWF : ∀ {ops : List (Op α)} {s : ACTStates α}, s.WF → s.DictsWF →
    (∀ op ∈ ops, op.DictsWF) → ∀ {c : Controller α}, run ⟨s⟩ ops = .ok c → c.state.DictsWF
  | [], _, _, hw, _, _, h => by cases h; exact hw
  | op :: ops, s, hs, hw, ho, c, h => by
    simp only [run, bind_ok] at h
    obtain ⟨⟨s1⟩, h1, h2⟩ := h
    exact run_dictsWF (call_wf hs h1) (call_dictsWF hs hw (ho op List.mem_cons_self) h1)
      (fun o h => ho o (List.mem_cons_of_mem _ h)) h2

omit [Arith α] in
theorem Dict.get?_sorted {d : Dict (PyTree (Leaf α))} (h : d.WF) (n : String) :
    d.sorted.get? n = (d.get? n).map PyTree.canon := by
  have hk : Dict.WF (d.map fun kv => (kv.1, kv.2.canon)) := by
    have : Dict.keys (d.map fun kv => (kv.1, kv.2.canon)) = d.keys := by
      simp [Dict.keys, Function.comp_def]
    unfold Dict.WF; rw [this]; exact h
  have hs : Dict.WF d.sorted := by
    unfold Dict.WF Dict.keys at hk ⊢
    exact ((sortKV_perm (d.map fun kv => (kv.1, kv.2.canon))).map Prod.fst).nodup_iff.2 hk
  exact (Dict.get?_perm (sortKV_perm _) hs n).trans (Dict.get?_map_canon d n)

omit [Arith α] in
theorem Dict.sorted_wf {d : Dict (PyTree (Leaf α))} (h : d.WF) : d.sorted.WF := by
  have hk : Dict.WF (d.map fun kv => (kv.1, kv.2.canon)) := by
    have : Dict.keys (d.map fun kv => (kv.1, kv.2.canon)) = d.keys := by
      simp [Dict.keys, Function.comp_def]
    unfold Dict.WF; rw [this]; exact h
  unfold Dict.WF Dict.keys at hk ⊢
  exact ((sortKV_perm (d.map fun kv => (kv.1, kv.2.canon))).map Prod.fst).nodup_iff.2 hk

omit [Arith α] in
theorem Dict.mem_keys_sorted {d : Dict (PyTree (Leaf α))} (h : d.WF) (n : String) :
    n ∈ d.sorted.keys ↔ n ∈ d.keys := by
  rw [Dict.mem_keys_iff, Dict.mem_keys_iff]
  simp only [Dict.get?_sorted h, Option.map_eq_some_iff]
  exact ⟨fun ⟨_, t, h, _⟩ => ⟨t, h⟩, fun ⟨t, h⟩ => ⟨_, t, h, rfl⟩⟩

omit [Arith α] in
theorem ACTStates.WF.sorted {s : ACTStates α} (h : s.WF) : s.sorted.WF where
  floating := h.floating
  res_shape := h.res_shape
  res_dtype := h.res_dtype
  it_shape := h.it_shape
  it_dtype := h.it_dtype
  acc_keys := Dict.sorted_wf h.acc_keys
  def_keys := Dict.sorted_wf h.def_keys
  upd_keys := Dict.sorted_wf h.upd_keys
  def_iff n := by
    simp only [ACTStates.sorted]
    rw [Dict.mem_keys_sorted h.def_keys, Dict.mem_keys_sorted h.acc_keys]; exact h.def_iff n
  upd_iff n := by
    simp only [ACTStates.sorted]
    rw [Dict.mem_keys_sorted h.upd_keys, Dict.mem_keys_sorted h.acc_keys]; exact h.upd_iff n
  batched n t ht := by
    simp only [ACTStates.sorted, Dict.get?_sorted h.acc_keys, Option.map_eq_some_iff] at ht ⊢
    obtain ⟨t, ht, rfl⟩ := ht
    have := h.batched n t ht
    unfold Batched at this ⊢
    rwa [treeLeaves_canon]
  same n t u ht hu := by
    simp only [ACTStates.sorted, Dict.get?_sorted h.acc_keys, Dict.get?_sorted h.def_keys,
      Option.map_eq_some_iff] at ht hu
    obtain ⟨t, ht, rfl⟩ := ht
    obtain ⟨u, hu, rfl⟩ := hu
    have := h.same n t u ht hu
    unfold SameType at this ⊢
    rwa [treeLeaves_canon, treeLeaves_canon, treeStructure_canon, treeStructure_canon]

omit [Arith α] in
theorem DictWF.sorted {d : Dict (PyTree (Leaf α))} (h : DictWF d) : DictWF d.sorted := by
  refine ⟨Dict.sorted_wf h.1, fun n t ht => ?_⟩
  rw [Dict.get?_sorted h.1, Option.map_eq_some_iff] at ht
  obtain ⟨t, ht, rfl⟩ := ht
  exact Utils.wf_canon t (h.2 n t ht)

omit [Arith α] in
theorem ACTStates.DictsWF.sorted {s : ACTStates α} (h : s.DictsWF) : s.sorted.DictsWF :=
  ⟨h.accumulators.sorted, h.defaults.sorted, h.updates.sorted⟩

end JaxAct
