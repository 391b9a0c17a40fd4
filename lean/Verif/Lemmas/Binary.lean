import Verif.Lemmas.Broadcast
import Verif.Lemmas.Tensor

/-!
# Lemmas for `execute_binary_operator`: leaf positions and paths
-/

namespace JaxAct
open PyTree

/-- `t'` is `t` with unit axes appended on the right up to rank `n` (scalars are left alone). -/
def Extends {α : Type} (t t' : Tensor α) (n : Nat) : Prop :=
  (t.shape = [] ∧ t' = t) ∨
  (t.shape ≠ [] ∧ t'.dtype = t.dtype ∧
    t'.shape = t.shape ++ List.replicate (n - t.shape.length) 1 ∧
    ∀ i x, t'.at? i = some x ↔ InB t'.shape i ∧ t.at? (i.take t.shape.length) = some x)

namespace Utils
variable {α β γ : Type}

theorem extends_self (t : Tensor α) {n : Nat} (h : n ≤ t.shape.length) : Extends t t n := by
  by_cases h0 : t.shape = []
  · exact .inl ⟨h0, rfl⟩
  · refine .inr ⟨h0, rfl, by rw [Nat.sub_eq_zero_of_le h]; simp, fun i x => ?_⟩
    constructor
    · intro hx
      have hi : InB t.shape i := Arr.at?_isSome.1 (by show (t.at? i).isSome; rw [hx]; rfl)
      exact ⟨hi, by rw [List.take_of_length_le (le_of_eq hi.length)]; exact hx⟩
    · rintro ⟨hi, hx⟩
      rwa [List.take_of_length_le (le_of_eq hi.length)] at hx

theorem setupLeftBroadcastT_extends (t : Tensor α) (s : List Nat)
    (h : t.shape.length ≤ s.length) :
    ∃ t', setupLeftBroadcastT t (some s) = .ok t' ∧ Extends t t' s.length := by
  unfold setupLeftBroadcastT setupLeftBroadcast Arr.ndim
  by_cases h0 : t.arr.shape.length = 0
  · refine ⟨t, by rw [if_pos h0]; rfl, .inl ⟨List.length_eq_zero_iff.1 h0, rfl⟩⟩
  · rw [if_neg h0]
    simp only [if_pos h]
    obtain ⟨h1, h2⟩ := Arr.leftBroadcastLoop_spec (s.length - t.arr.shape.length) t.arr
    refine ⟨_, rfl, .inr ⟨fun hn => h0 (by simp [hn]), rfl, h1, fun i x => ?_⟩⟩
    constructor
    · intro hx
      have hx' : (leftBroadcastLoop (s.length - t.arr.shape.length) t.arr).at? i = some x := hx
      have hi := Arr.at?_isSome.1 (by rw [hx']; rfl)
      exact ⟨hi, (h2 i (h1 ▸ hi)).symm.trans hx⟩
    · rintro ⟨hi, hx⟩
      exact (h2 i (h1 ▸ hi)).trans hx

/-- What `execute_binary_operator` does with one pair of leaves. -/
theorem applyLeftBroadcast_cases (op : Tensor α → Tensor α → Res (Tensor α)) (x y : Tensor α) :
    ∃ x' y', Extends x x' (max x.shape.length y.shape.length) ∧
      Extends y y' (max x.shape.length y.shape.length) ∧
      applyLeftBroadcast op (.tensor x) (.tensor y) = (op x' y').map Leaf.tensor := by
  unfold applyLeftBroadcast
  simp only [Leaf.asTensor, ok_bind]
  rcases lt_trichotomy x.shape.length y.shape.length with h | h | h
  · obtain ⟨x', h1, h2⟩ := setupLeftBroadcastT_extends x y.shape h.le
    rw [max_eq_right h.le]
    refine ⟨x', y, h2, extends_self y le_rfl, ?_⟩
    rw [if_neg (not_lt.2 h.le), if_pos h, h1]
    simp only [ok_bind]
    cases op x' y <;> rfl
  · rw [h, max_self]
    refine ⟨x, y, extends_self x h.ge, extends_self y le_rfl, ?_⟩
    simp only [lt_irrefl, if_false]
    cases op x y <;> rfl
  · obtain ⟨y', h1, h2⟩ := setupLeftBroadcastT_extends y x.shape h.le
    rw [max_eq_left h.le]
    refine ⟨x, y', extends_self x le_rfl, h2, ?_⟩
    rw [if_pos h, h1]
    simp only [ok_bind]
    cases op x y' <;> rfl

theorem applyLeftBroadcast_ok {op : Tensor α → Tensor α → Res (Tensor α)} {a b c : Leaf α}
    (h : applyLeftBroadcast op a b = .ok c) :
    ∃ x y x' y' z, a = .tensor x ∧ b = .tensor y ∧
      Extends x x' (max x.shape.length y.shape.length) ∧
      Extends y y' (max x.shape.length y.shape.length) ∧ op x' y' = .ok z ∧ c = .tensor z := by
  cases a with
  | obj _ => cases h
  | tensor x =>
    cases b with
    | obj _ => cases h
    | tensor y =>
      obtain ⟨x', y', h1, h2, h3⟩ := applyLeftBroadcast_cases op x y
      rw [h3] at h
      cases hz : op x' y' with
      | error e => rw [hz] at h; cases h
      | ok z =>
        rw [hz] at h
        exact ⟨x, y, x', y', z, rfl, rfl, h1, h2, hz, by cases h; rfl⟩

theorem binaryLoop_ok {op : Tensor α → Tensor α → Res (Tensor α)} :
    ∀ {as bs out : List (Leaf α)}, as.length = bs.length → binaryLoop op as bs = .ok out →
      out.length = as.length ∧ ∀ (i : Nat) (a b : Leaf α), as[i]? = some a → bs[i]? = some b →
        ∃ c, out[i]? = some c ∧ applyLeftBroadcast op a b = .ok c
  | [], [], out, _, h => by
    simp only [binaryLoop, Except.ok.injEq] at h
    subst h
    exact ⟨rfl, fun i a b h => by simp at h⟩
  | [], _ :: _, _, h, _ => by simp at h
  | _ :: _, [], _, h, _ => by simp at h
  | a :: as, b :: bs, out, hl, h => by
    simp only [binaryLoop] at h
    split at h
    · cases h
    · rename_i x hx
      rw [wrapRuntime_ok] at hx
      rw [bind_ok] at h
      obtain ⟨xs, h1, h2⟩ := h
      cases h2
      obtain ⟨g1, g2⟩ := binaryLoop_ok (by simpa using hl) h1
      refine ⟨by simp [g1], fun i a' b' ha hb => ?_⟩
      cases i with
      | zero =>
        simp only [List.getElem?_cons_zero, Option.some.injEq] at ha hb
        subst ha; subst hb
        exact ⟨x, rfl, hx⟩
      | succ i =>
        simp only [List.getElem?_cons_succ] at ha hb ⊢
        exact g2 i a' b' ha hb

theorem binaryLoop_error {op : Tensor α → Tensor α → Res (Tensor α)} {e : Err} :
    ∀ {as bs : List (Leaf α)}, binaryLoop op as bs = .error e → e = .runtimeError
  | [], _, h => by simp [binaryLoop] at h
  | _ :: _, [], h => by simp [binaryLoop] at h
  | a :: as, b :: bs, h => by
    simp only [binaryLoop] at h
    split at h
    · rename_i e' hx
      cases h
      exact (wrapRuntime_error.1 hx).1
    · rw [bind_error] at h
      rcases h with h | ⟨xs, -, h⟩
      · exact binaryLoop_error h
      · cases h

theorem binaryLoop_of {op : Tensor α → Tensor α → Res (Tensor α)} :
    ∀ {as bs : List (Leaf α)}, (∀ (i : Nat) (a b : Leaf α), as[i]? = some a → bs[i]? = some b →
      ∃ c, applyLeftBroadcast op a b = .ok c) → ∃ out, binaryLoop op as bs = .ok out
  | [], _, _ => ⟨_, by simp [binaryLoop]; rfl⟩
  | _ :: _, [], _ => ⟨_, by simp [binaryLoop]; rfl⟩
  | a :: as, b :: bs, h => by
    obtain ⟨c, hc⟩ := h 0 a b rfl rfl
    obtain ⟨out, ho⟩ := binaryLoop_of (as := as) (bs := bs) (op := op)
      fun i a b ha hb => h (i + 1) a b (by simpa using ha) (by simpa using hb)
    exact ⟨c :: out, by simp only [binaryLoop, hc, wrapRuntime, ho]; rfl⟩

/-! ### Alignment -/

theorem align_cases (a b : PyTree β) :
    (Fits a.treeStructure b.treeStructure ∧
      ∃ a', broadcastPytreeShape a b = .ok a' ∧ alignOperands a b = .ok (a', b)) ∨
    (¬ Descends a.treeStructure b.treeStructure ∧ Fits b.treeStructure a.treeStructure ∧
      ∃ b', broadcastPytreeShape b a = .ok b' ∧ alignOperands a b = .ok (a, b')) ∨
    (¬ Fits a.treeStructure b.treeStructure ∧
      (Descends a.treeStructure b.treeStructure ∨ ¬ Fits b.treeStructure a.treeStructure) ∧
      alignOperands a b = .error .runtimeError) := by
  unfold alignOperands
  rcases broadcast_cases a b with ⟨h1, r, h2⟩ | ⟨h1, h2⟩ | ⟨h1, h1', h2⟩
  · exact .inl ⟨h1, r, h2, by rw [h2]; rfl⟩
  · rw [h2]
    rcases broadcast_cases b a with ⟨g1, r, g2⟩ | ⟨g1, g2⟩ | ⟨g1, g1', g2⟩
    · exact .inr (.inl ⟨h1, g1, r, g2, by simp only [g2]; rfl⟩)
    · exact .inr (.inr ⟨fun h => h1 (fits_descends _ _ h), .inr fun h => g1 (fits_descends _ _ h),
        by simp only [g2]; rfl⟩)
    · exact .inr (.inr ⟨fun h => h1 (fits_descends _ _ h), .inr g1', by simp only [g2]; rfl⟩)
  · rw [h2]
    exact .inr (.inr ⟨h1', .inl h1, rfl⟩)

theorem exec_ok_iff {op : Tensor α → Tensor α → Res (Tensor α)} {a b r : PyTree (Leaf α)} :
    executeBinaryOperator op a b = .ok r ↔
      ∃ a' b' out, alignOperands a b = .ok (a', b') ∧
        binaryLoop op a'.treeLeaves b'.treeLeaves = .ok out ∧
        treeUnflatten a'.treeStructure out = .ok r := by
  unfold executeBinaryOperator
  rw [bind_ok]
  constructor
  · rintro ⟨⟨a', b'⟩, h1, h2⟩
    simp only at h2
    rw [bind_ok] at h2
    obtain ⟨out, h2, h3⟩ := h2
    exact ⟨a', b', out, h1, h2, h3⟩
  · rintro ⟨a', b', out, h1, h2, h3⟩
    exact ⟨(a', b'), h1, by simp only [h2, ok_bind]; exact h3⟩

theorem align_structure {a b a' b' : PyTree β} (h : alignOperands a b = .ok (a', b')) :
    a'.treeStructure = b'.treeStructure := by
  rcases align_cases a b with ⟨-, r, h1, h2⟩ | ⟨-, -, r, h1, h2⟩ | ⟨-, -, h2⟩
  · rw [h2] at h; cases h; exact (broadcast_ok h1).2.1
  · rw [h2] at h; cases h; exact (broadcast_ok h1).2.1.symm
  · rw [h2] at h; cases h

theorem treeLeaves_length_of {s : PyTree β} {t : PyTree γ} (h : s.treeStructure = t.treeStructure) :
    s.treeLeaves.length = t.treeLeaves.length := leaves_length_of_struct h

/-! ### Leaf numbers and paths -/

theorem leavesL_append (cs ds : List (PyTree β)) : leavesL (cs ++ ds) = leavesL cs ++ leavesL ds := by
  simp [leavesL_eq]

/-- Number of leaves before child `i`. -/
def offset (ds : List TreeDef) (i : Nat) : Nat := (leavesL (ds.take i)).length

theorem getElem?_leavesL {cs : List (PyTree β)} {i j : Nat} {c : PyTree β} (hc : cs[i]? = some c)
    (hj : j < c.leaves.length) :
    (leavesL cs)[offset (mapL (fun _ => ()) cs) i + j]? = c.leaves[j]? := by
  have h1 : offset (mapL (fun _ => ()) cs) i = (leavesL (cs.take i)).length := by
    unfold offset
    rw [mapL_eq, ← List.map_take, ← mapL_eq, leavesL_map, List.length_map]
  rw [h1]
  obtain ⟨hi, rfl⟩ := List.getElem?_eq_some_iff.1 hc
  have h2 : cs = cs.take i ++ (cs[i] :: cs.drop (i + 1)) := by
    rw [← List.drop_eq_getElem_cons hi, List.take_append_drop]
  have h3 : leavesL cs = leavesL (cs.take i) ++ (cs[i].leaves ++ leavesL (cs.drop (i + 1))) := by
    rw [← leavesL, ← leavesL_append, ← h2]
  rw [h3, List.getElem?_append_right (by omega), Nat.add_sub_cancel_left,
    List.getElem?_append_left hj]

/-- A leaf path has a leaf number, the same for all trees of that structure. -/
theorem path_index : ∀ (p : List Step) (d : TreeDef), d.atPath p = some (.leaf ()) →
    ∃ i : Nat, ∀ {δ : Type} (t : PyTree δ), t.struct = d →
      ∃ y, t.atPath p = some (.leaf y) ∧ t.leaves[i]? = some y
  | [], d, h => by
    simp only [atPath, Option.some.injEq] at h
    subst h
    refine ⟨0, fun t ht => ?_⟩
    cases t with
    | leaf y => exact ⟨y, rfl, rfl⟩
    | none => cases ht
    | node _ _ => cases ht
  | s :: p, .leaf _, h => by simp [atPath] at h
  | s :: p, .none, h => by simp [atPath] at h
  | s :: p, .node k ds, h => by
    simp only [atPath] at h
    cases hc : child k ds s with
    | none => rw [hc] at h; cases h
    | some d =>
      rw [hc] at h
      obtain ⟨n, hn, hd⟩ := child_some hc
      obtain ⟨i, hi⟩ := path_index p d h
      refine ⟨offset ds n + i, fun t ht => ?_⟩
      obtain ⟨cs, rfl, hcs⟩ := struct_node_inv ht
      subst hcs
      rw [mapL_eq, List.getElem?_map] at hd
      cases hcn : cs[n]? with
      | none => rw [hcn] at hd; cases hd
      | some c =>
        rw [hcn] at hd
        simp only [Option.map_some, Option.some.injEq] at hd
        obtain ⟨y, h1, h2⟩ := hi c hd
        refine ⟨y, by simp [atPath, child, hn, hcn, h1], ?_⟩
        have hj : i < c.leaves.length := by
          rcases Nat.lt_or_ge i c.leaves.length with h | h
          · exact h
          · rw [List.getElem?_eq_none h] at h2; cases h2
        rw [leaves, getElem?_leavesL hcn hj]; exact h2

/-- Every leaf number is that of a path. -/
theorem index_path : ∀ (t : PyTree β), t.WF → ∀ (i : Nat) (x : β), t.leaves[i]? = some x →
    ∃ p, ∀ {δ : Type} (u : PyTree δ), u.struct = t.struct →
      ∃ y, u.atPath p = some (.leaf y) ∧ u.leaves[i]? = some y
  | .leaf x, _, i, y, h => by
    have : i = 0 := by
      simp only [leaves] at h
      rcases i with _ | i
      · rfl
      · simp at h
    subst this
    refine ⟨[], fun u hu => ?_⟩
    cases u with
    | leaf y => exact ⟨y, rfl, rfl⟩
    | none => cases hu
    | node _ _ => cases hu
  | .none, _, i, x, h => by simp [leaves] at h
  | .node k cs, hw, i, x, h => by
    have key : ∃ n j c, n < cs.length ∧ cs[n]? = some c ∧ i = offset (mapL (fun _ => ()) cs) n + j ∧
        ∃ p, ∀ {δ : Type} (u : PyTree δ), u.struct = c.struct →
          ∃ y, u.atPath p = some (.leaf y) ∧ u.leaves[j]? = some y := by
      exact indexL cs hw.2 i x h
    obtain ⟨n, j, c, hn, hc, rfl, p, hp⟩ := key
    have hstep : ∃ st, childIndex k st = some n := by
      cases k with
      | list => exact ⟨.idx n, rfl⟩
      | tuple => exact ⟨.idx n, rfl⟩
      | user _ => exact ⟨.idx n, rfl⟩
      | dict ks =>
        obtain ⟨hnd, hl⟩ := hw.1 ks rfl
        have hn' : n < ks.length := hl ▸ hn
        refine ⟨.key ks[n], ?_⟩
        simp only [childIndex]
        rw [List.idxOf?_eq_some_iff]
        refine ⟨hn', by simp, fun j hj => ?_⟩
        intro he
        have he' : ks[j] = ks[n] := by simpa using he
        have := (List.Nodup.getElem_inj_iff hnd).1 he'
        omega
    obtain ⟨st, hst⟩ := hstep
    refine ⟨st :: p, fun u hu => ?_⟩
    obtain ⟨us, rfl, hus⟩ := struct_node_inv hu
    have hun : (mapL (fun _ => ()) us)[n]? = some c.struct := by
      rw [hus, mapL_eq, List.getElem?_map, hc]; rfl
    rw [mapL_eq, List.getElem?_map] at hun
    cases hcn : us[n]? with
    | none => rw [hcn] at hun; cases hun
    | some v =>
      rw [hcn] at hun
      simp only [Option.map_some, Option.some.injEq] at hun
      obtain ⟨y, h1, h2⟩ := hp v hun
      refine ⟨y, by simp [atPath, child, hst, hcn, h1], ?_⟩
      have hj : j < v.leaves.length := by
        rcases Nat.lt_or_ge j v.leaves.length with h | h
        · exact h
        · rw [List.getElem?_eq_none h] at h2; cases h2
      rw [leaves, ← hus, getElem?_leavesL hcn hj]; exact h2
where
  /-- the child that holds a leaf number -/
  indexL : ∀ (cs : List (PyTree β)), WFL cs → ∀ (i : Nat) (x : β), (leavesL cs)[i]? = some x →
    ∃ n j c, n < cs.length ∧ cs[n]? = some c ∧ i = offset (mapL (fun _ => ()) cs) n + j ∧
        ∃ p, ∀ {δ : Type} (u : PyTree δ), u.struct = c.struct →
          ∃ y, u.atPath p = some (.leaf y) ∧ u.leaves[j]? = some y
    | [], _, i, x, h => by simp [leavesL] at h
    | c :: cs, hw, i, x, h => by
      simp only [leavesL] at h
      rcases Nat.lt_or_ge i c.leaves.length with hi | hi
      · rw [List.getElem?_append_left hi] at h
        exact ⟨0, i, c, by simp, rfl, by simp [offset, leavesL], index_path c hw.1 i x h⟩
      · rw [List.getElem?_append_right hi] at h
        obtain ⟨n, j, d, h1, h2, h3, h4⟩ := indexL cs hw.2 _ x h
        refine ⟨n + 1, j, d, by simpa using h1, by simpa using h2, ?_, h4⟩
        have : offset (mapL (fun _ => ()) (c :: cs)) (n + 1)
            = c.leaves.length + offset (mapL (fun _ => ()) cs) n := by
          simp only [offset, mapL, List.take_succ_cons, leavesL, List.length_append]
          rw [show (c.map fun _ => ()).leaves.length = c.leaves.length from leaves_struct_length c]
        omega

theorem wfl_iff (cs : List (PyTree β)) : WFL cs ↔ ∀ c ∈ cs, c.WF := by
  induction cs with
  | nil => simp [WFL]
  | cons c cs ih => simp [WFL, ih]

mutual
theorem wf_canon : ∀ t : PyTree β, t.WF → t.canon.WF
  | .leaf _, _ => trivial
  | .none, _ => trivial
  | .node k cs, h => by
    have hc := wfl_canon cs h.2
    simp only [canon]
    cases k with
    | list => exact ⟨fun ks hk => (by cases hk), hc⟩
    | tuple => exact ⟨fun ks hk => (by cases hk), hc⟩
    | user _ => exact ⟨fun ks hk => (by cases hk), hc⟩
    | dict ks =>
      obtain ⟨hn, hl⟩ := h.1 ks rfl
      have hl' : ks.length = (canonL cs).length := by rw [canonL_eq, List.length_map]; exact hl
      have hp := sortKV_perm (ks.zip (canonL cs))
      refine ⟨fun ks' hk => ?_, ?_⟩
      · simp only [Kind.dict.injEq] at hk
        subst hk
        exact ⟨((hp.map Prod.fst).nodup_iff).2 (nodup_zip_fst hn hl'), by simp⟩
      · rw [wfl_iff]
        intro c hc'
        have hs := hp.map Prod.snd
        rw [List.map_snd_zip (le_of_eq hl'.symm)] at hs
        exact (wfl_iff _).1 hc c (hs.mem_iff.1 hc')
theorem wfl_canon : ∀ cs : List (PyTree β), WFL cs → WFL (canonL cs)
  | [], _ => trivial
  | c :: cs, h => ⟨wf_canon c h.1, wfl_canon cs h.2⟩
end

end Utils
end JaxAct
