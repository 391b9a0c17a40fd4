import Verif.Basic.PyTree
import Mathlib.Tactic.Common

/-! # Pytree lemmas -/

namespace JaxAct.PyTree
variable {β γ δ : Type}

/-! ### map -/

theorem mapL_eq (f : β → γ) (cs : List (PyTree β)) : mapL f cs = cs.map (map f) := by
  induction cs with
  | nil => rfl
  | cons c cs ih => simp [mapL, ih]

theorem canonL_eq (cs : List (PyTree β)) : canonL cs = cs.map canon := by
  induction cs with
  | nil => rfl
  | cons c cs ih => simp [canonL, ih]

theorem leavesL_eq (cs : List (PyTree β)) : leavesL cs = (cs.map leaves).flatten := by
  induction cs with
  | nil => rfl
  | cons c cs ih => simp [leavesL, ih]

mutual
theorem map_map (f : β → γ) (g : γ → δ) : ∀ t : PyTree β, (t.map f).map g = t.map (g ∘ f)
  | leaf x => rfl
  | none => rfl
  | node k cs => by simp [map, mapL_mapL f g cs]
theorem mapL_mapL (f : β → γ) (g : γ → δ) : ∀ cs : List (PyTree β),
    mapL g (mapL f cs) = mapL (g ∘ f) cs
  | [] => rfl
  | c :: cs => by simp [mapL, map_map f g c, mapL_mapL f g cs]
end

mutual
theorem map_id' : ∀ t : PyTree β, t.map (fun x => x) = t
  | leaf x => rfl
  | none => rfl
  | node k cs => by simp [map, mapL_id' cs]
theorem mapL_id' : ∀ cs : List (PyTree β), mapL (fun x => x) cs = cs
  | [] => rfl
  | c :: cs => by simp [mapL, map_id' c, mapL_id' cs]
end

mutual
theorem leaves_map (f : β → γ) : ∀ t : PyTree β, (t.map f).leaves = t.leaves.map f
  | leaf x => rfl
  | none => rfl
  | node k cs => by simp [map, leaves, leavesL_map f cs]
theorem leavesL_map (f : β → γ) : ∀ cs : List (PyTree β), leavesL (mapL f cs) = (leavesL cs).map f
  | [] => rfl
  | c :: cs => by simp [mapL, leavesL, leaves_map f c, leavesL_map f cs]
end

@[simp] theorem struct_map (f : β → γ) (t : PyTree β) : (t.map f).struct = t.struct := by
  simp only [struct, map_map, Function.comp_def]

@[simp] theorem struct_struct (t : PyTree β) : t.struct.struct = t.struct := by
  simp only [struct, map_map, Function.comp_def]

theorem leaves_struct_length (t : PyTree β) : t.struct.leaves.length = t.leaves.length := by
  simp [struct, leaves_map]

/-! ### Sorting of dict entries -/

instance leTotal : Std.Total (fun x y : String × PyTree β => x.1 ≤ y.1) :=
  ⟨fun x y => le_total x.1 y.1⟩
instance leTrans : IsTrans (String × PyTree β) (fun x y => x.1 ≤ y.1) :=
  ⟨fun _ _ _ h h' => le_trans h h'⟩

theorem sortKV_sorted (l : List (String × PyTree β)) :
    (sortKV l).Pairwise (fun x y => x.1 ≤ y.1) := List.pairwise_insertionSort _ _

theorem sortKV_perm (l : List (String × PyTree β)) : (sortKV l).Perm l :=
  List.perm_insertionSort _ _

theorem sortKV_of_sorted {l : List (String × PyTree β)} (h : l.Pairwise (fun x y => x.1 ≤ y.1)) :
    sortKV l = l := by
  unfold sortKV; exact h.insertionSort_eq

theorem orderedInsert_map (f : β → γ) (a : String × PyTree β) (l : List (String × PyTree β)) :
    (l.orderedInsert (fun x y => x.1 ≤ y.1) a).map (Prod.map id (map f)) =
    (l.map (Prod.map id (map f))).orderedInsert (fun x y => x.1 ≤ y.1) (Prod.map id (map f) a) := by
  induction l with
  | nil => rfl
  | cons b l ih =>
    simp only [List.orderedInsert, List.map_cons, Prod.map_fst, id_eq]
    split
    · simp
    · simp [ih]

theorem sortKV_map (f : β → γ) (l : List (String × PyTree β)) :
    (sortKV l).map (Prod.map id (map f)) = sortKV (l.map (Prod.map id (map f))) := by
  induction l with
  | nil => rfl
  | cons a l ih =>
    simp only [sortKV, List.insertionSort, List.foldr_cons, List.map_cons] at *
    rw [orderedInsert_map, ih]

theorem sortNode_map (f : β → γ) (k : Kind) (cs : List (PyTree β)) :
    (sortNode k cs).map f = sortNode k (cs.map (map f)) := by
  cases k with
  | list => simp [sortNode, map, mapL_eq]
  | tuple => simp [sortNode, map, mapL_eq]
  | user _ => simp [sortNode, map, mapL_eq]
  | dict ks =>
    have hz : ks.zip (cs.map (map f)) = (ks.zip cs).map (Prod.map id (map f)) := by
      rw [List.zip_map_right]
    simp only [sortNode, map, mapL_eq, hz, ← sortKV_map, List.map_map]
    rfl

mutual
theorem canon_map (f : β → γ) : ∀ t : PyTree β, (t.map f).canon = t.canon.map f
  | leaf x => rfl
  | none => rfl
  | node k cs => by
      simp only [map, canon]
      rw [sortNode_map, canonL_map f cs, mapL_eq]
theorem canonL_map (f : β → γ) : ∀ cs : List (PyTree β), canonL (mapL f cs) = mapL f (canonL cs)
  | [] => rfl
  | c :: cs => by simp [canonL, mapL, canon_map f c, canonL_map f cs]
end

/-! ### Canonical trees -/

mutual
/-- Every dict is in key order, with one value per key. -/
def IsCanon : PyTree β → Prop
  | leaf _ => True
  | none => True
  | node k cs => (∀ ks, k = .dict ks → ks.Pairwise (· ≤ ·) ∧ ks.length = cs.length) ∧ IsCanonL cs
/-- `IsCanon` on children. -/
def IsCanonL : List (PyTree β) → Prop
  | [] => True
  | c :: cs => IsCanon c ∧ IsCanonL cs
end

theorem isCanonL_iff (cs : List (PyTree β)) : IsCanonL cs ↔ ∀ c ∈ cs, IsCanon c := by
  induction cs with
  | nil => simp [IsCanonL]
  | cons c cs ih => simp [IsCanonL, ih]

theorem zip_fst_snd {A B : Type} (l : List (A × B)) : (l.map Prod.fst).zip (l.map Prod.snd) = l := by
  induction l with
  | nil => rfl
  | cons a l ih => simp [ih]

theorem isCanon_sortNode {k : Kind} {cs : List (PyTree β)} (h : ∀ c ∈ cs, IsCanon c) :
    IsCanon (sortNode k cs) := by
  cases k with
  | list => simp [sortNode, IsCanon, isCanonL_iff]; exact h
  | tuple => simp [sortNode, IsCanon, isCanonL_iff]; exact h
  | user _ => simp [sortNode, IsCanon, isCanonL_iff]; exact h
  | dict ks =>
    simp only [sortNode, IsCanon, isCanonL_iff, Kind.dict.injEq, forall_eq']
    refine ⟨⟨?_, by simp⟩, ?_⟩
    · rw [List.pairwise_map]; exact sortKV_sorted _
    · intro c hc
      rw [List.mem_map] at hc
      obtain ⟨kv, hkv, rfl⟩ := hc
      have := (sortKV_perm _).mem_iff.1 hkv
      exact h _ (List.of_mem_zip this).2

mutual
theorem isCanon_canon : ∀ t : PyTree β, IsCanon t.canon
  | leaf _ => trivial
  | none => trivial
  | node k cs => by
      simp only [canon]
      exact isCanon_sortNode ((isCanonL_iff _).1 (isCanonL_canonL cs))
theorem isCanonL_canonL : ∀ cs : List (PyTree β), IsCanonL (canonL cs)
  | [] => trivial
  | c :: cs => ⟨isCanon_canon c, isCanonL_canonL cs⟩
end

theorem pairwise_zip_fst {A B : Type} {r : A → A → Prop} :
    ∀ {ks : List A} {cs : List B}, ks.Pairwise r → (ks.zip cs).Pairwise (fun x y => r x.1 y.1)
  | [], _, _ => by simp
  | _ :: _, [], _ => by simp
  | k :: ks, c :: cs, h => by
    rw [List.zip_cons_cons, List.pairwise_cons]
    rw [List.pairwise_cons] at h
    exact ⟨fun p hp => h.1 _ (List.of_mem_zip hp).1, pairwise_zip_fst h.2⟩

mutual
theorem canon_of_isCanon : ∀ t : PyTree β, IsCanon t → t.canon = t
  | leaf _, _ => rfl
  | none, _ => rfl
  | node k cs, h => by
      simp only [IsCanon] at h
      simp only [canon, canonL_of_isCanonL cs h.2]
      cases k with
      | list => rfl
      | tuple => rfl
      | user _ => rfl
      | dict ks =>
        obtain ⟨h1, h2⟩ := h.1 ks rfl
        have hs : sortKV (ks.zip cs) = ks.zip cs :=
          sortKV_of_sorted (pairwise_zip_fst (r := (· ≤ ·)) h1)
        simp only [sortNode, hs]
        rw [List.map_fst_zip (le_of_eq h2), List.map_snd_zip (le_of_eq h2.symm)]
theorem canonL_of_isCanonL : ∀ cs : List (PyTree β), IsCanonL cs → canonL cs = cs
  | [], _ => rfl
  | c :: cs, h => by
      simp only [IsCanonL] at h
      simp [canonL, canon_of_isCanon c h.1, canonL_of_isCanonL cs h.2]
end

@[simp] theorem canon_canon (t : PyTree β) : t.canon.canon = t.canon :=
  canon_of_isCanon _ (isCanon_canon t)

mutual
theorem isCanon_map (f : β → γ) : ∀ t : PyTree β, IsCanon (t.map f) ↔ IsCanon t
  | leaf _ => by simp [map, IsCanon]
  | none => by simp [map, IsCanon]
  | node k cs => by
      have := isCanonL_map f cs
      rw [mapL_eq] at this
      simp only [map, IsCanon, mapL_eq, List.length_map, this]
theorem isCanonL_map (f : β → γ) : ∀ cs : List (PyTree β), IsCanonL (mapL f cs) ↔ IsCanonL cs
  | [] => by simp [mapL, IsCanonL]
  | c :: cs => by simp [mapL, IsCanonL, isCanon_map f c, isCanonL_map f cs]
end

theorem isCanon_of_struct_eq {s : PyTree β} {t : PyTree γ} (h : s.struct = t.struct)
    (ht : IsCanon t) : IsCanon s := by
  rw [← isCanon_map (fun _ => ()) s]
  have : IsCanon t.struct := (isCanon_map _ t).2 ht
  rw [← h] at this; exact this

/-! ### fill -/

mutual
theorem fill_struct_append : ∀ (t : PyTree β) (q : List β),
    fill t.struct (t.leaves ++ q) = some (t, q)
  | leaf x, q => rfl
  | none, q => rfl
  | node k cs, q => by
      have := fillL_struct_append cs q
      simp only [struct, map, leaves, fill]
      rw [this]
theorem fillL_struct_append : ∀ (cs : List (PyTree β)) (q : List β),
    fillL (mapL (fun _ => ()) cs) (leavesL cs ++ q) = some (cs, q)
  | [], q => rfl
  | c :: cs, q => by
      have h1 := fill_struct_append c (leavesL cs ++ q)
      have h2 := fillL_struct_append cs q
      simp only [struct] at h1
      simp only [mapL, leavesL, fillL, List.append_assoc, h1, h2]
end

theorem fill_struct (t : PyTree β) : fill t.struct t.leaves = some (t, []) := by
  have := fill_struct_append t []
  simpa using this

mutual
theorem fill_some : ∀ (d : TreeDef) (ls q : List β) (t : PyTree β),
    fill d ls = some (t, q) → t.struct = d ∧ ls = t.leaves ++ q
  | leaf _, x :: ls, q, t, h => by
      simp only [fill, Option.some.injEq, Prod.mk.injEq] at h
      obtain ⟨rfl, rfl⟩ := h
      exact ⟨rfl, rfl⟩
  | leaf _, [], q, t, h => by simp [fill] at h
  | none, ls, q, t, h => by
      simp only [fill, Option.some.injEq, Prod.mk.injEq] at h
      obtain ⟨rfl, rfl⟩ := h
      exact ⟨rfl, rfl⟩
  | node k cs, ls, q, t, h => by
      simp only [fill] at h
      split at h
      · rename_i ts q' hts
        simp only [Option.some.injEq, Prod.mk.injEq] at h
        obtain ⟨rfl, rfl⟩ := h
        have := fillL_some cs ls q' ts hts
        exact ⟨by simp [struct, map, this.1], this.2⟩
      · cases h
theorem fillL_some : ∀ (ds : List TreeDef) (ls q : List β) (ts : List (PyTree β)),
    fillL ds ls = some (ts, q) → mapL (fun _ => ()) ts = ds ∧ ls = leavesL ts ++ q
  | [], ls, q, ts, h => by
      simp only [fillL, Option.some.injEq, Prod.mk.injEq] at h
      obtain ⟨rfl, rfl⟩ := h
      exact ⟨rfl, rfl⟩
  | d :: ds, ls, q, ts, h => by
      simp only [fillL] at h
      split at h
      · rename_i t q' ht
        split at h
        · rename_i ts' q'' hts
          simp only [Option.some.injEq, Prod.mk.injEq] at h
          obtain ⟨rfl, rfl⟩ := h
          have h1 := fill_some d ls q' t ht
          have h2 := fillL_some ds q' q'' ts' hts
          have h1' := h1.1
          simp only [struct] at h1'
          exact ⟨by simp [mapL, h1', h2.1], by simp [leavesL, h1.2, h2.2]⟩
        · cases h
      · cases h
end

mutual
theorem fill_ge : ∀ (d : TreeDef) (ls : List β), d.leaves.length ≤ ls.length →
    ∃ t q, fill d ls = some (t, q) ∧ ls.length = d.leaves.length + q.length
  | leaf _, x :: ls, _ => ⟨leaf x, ls, rfl, by simp [leaves]; omega⟩
  | leaf _, [], h => by simp [leaves] at h
  | none, ls, _ => ⟨none, ls, rfl, by simp [leaves]⟩
  | node k cs, ls, h => by
      obtain ⟨ts, q, h1, h2⟩ := fillL_ge cs ls (by simpa [leaves] using h)
      exact ⟨node k ts, q, by simp [fill, h1], by simp [leaves, h2]⟩
theorem fillL_ge : ∀ (ds : List TreeDef) (ls : List β), (leavesL ds).length ≤ ls.length →
    ∃ ts q, fillL ds ls = some (ts, q) ∧ ls.length = (leavesL ds).length + q.length
  | [], ls, _ => ⟨[], ls, rfl, by simp [leavesL]⟩
  | d :: ds, ls, h => by
      simp only [leavesL, List.length_append] at h
      obtain ⟨t, q, h1, h2⟩ := fill_ge d ls (by omega)
      obtain ⟨ts, q', h3, h4⟩ := fillL_ge ds q (by omega)
      exact ⟨t :: ts, q', by simp [fillL, h1, h3], by simp [leavesL]; omega⟩
end

/-- `tree_unflatten` succeeds exactly when the number of leaves is right, and then rebuilds a tree
with that structure and those leaves. -/
theorem treeUnflatten_ok_iff {d : TreeDef} {ls : List β} {t : PyTree β} :
    treeUnflatten d ls = .ok t ↔ t.struct = d ∧ t.leaves = ls := by
  unfold treeUnflatten
  constructor
  · intro h
    split at h
    · rename_i t' hf
      cases h
      have := fill_some _ _ _ _ hf
      exact ⟨this.1, by simpa using this.2.symm⟩
    · cases h
    · cases h
  · rintro ⟨rfl, rfl⟩
    rw [fill_struct]

theorem treeUnflatten_ok {d : TreeDef} {ls : List β} (h : ls.length = d.leaves.length) :
    ∃ t, treeUnflatten d ls = .ok t := by
  obtain ⟨t, q, h1, h2⟩ := fill_ge d ls (le_of_eq h.symm)
  have : q = [] := by
    cases q with
    | nil => rfl
    | cons => simp at h2; omega
  subst this
  exact ⟨t, by simp [treeUnflatten, h1]⟩

theorem treeUnflatten_error {d : TreeDef} {ls : List β} {e : Err}
    (h : treeUnflatten d ls = .error e) : e = .valueError ∧ ls.length ≠ d.leaves.length := by
  refine ⟨?_, fun hl => ?_⟩
  · unfold treeUnflatten at h; split at h <;> cases h <;> rfl
  · obtain ⟨t, ht⟩ := treeUnflatten_ok hl
    rw [ht] at h; cases h

/-! ### flatten facts -/

theorem treeStructure_leaves_length (t : PyTree β) :
    t.treeStructure.leaves.length = t.treeLeaves.length := leaves_struct_length _

theorem treeLeaves_map (f : β → γ) (t : PyTree β) : (t.map f).treeLeaves = t.treeLeaves.map f := by
  simp [treeLeaves, canon_map, leaves_map]

@[simp] theorem treeStructure_map (f : β → γ) (t : PyTree β) :
    (t.map f).treeStructure = t.treeStructure := by
  simp [treeStructure, canon_map]

@[simp] theorem treeLeaves_canon (t : PyTree β) : t.canon.treeLeaves = t.treeLeaves := by
  simp [treeLeaves]

@[simp] theorem treeStructure_canon (t : PyTree β) : t.canon.treeStructure = t.treeStructure := by
  simp [treeStructure]

/-- A tree whose structure is that of a canonical tree flattens to its own leaves. -/
theorem flatten_of_struct {t : PyTree β} {s : PyTree γ} (h : t.struct = s.treeStructure) :
    t.canon = t := by
  refine canon_of_isCanon _ (isCanon_of_struct_eq (t := s.canon) h (isCanon_canon s))

/-- Trees are equal when structure and leaves are. -/
theorem eq_of_struct_leaves {s t : PyTree β} (h : s.struct = t.struct) (hl : s.leaves = t.leaves) :
    s = t := by
  have h1 := fill_struct s
  rw [h, hl, fill_struct t] at h1
  simpa using h1.symm

/-- `tree_unflatten` on the structure of some tree: the result has that structure and exactly the
given leaves, also when flattened again. -/
theorem unflatten_treeStructure {s : PyTree γ} {ls : List β} {t : PyTree β}
    (h : treeUnflatten s.treeStructure ls = .ok t) :
    t.treeStructure = s.treeStructure ∧ t.treeLeaves = ls ∧ t.canon = t := by
  obtain ⟨h1, h2⟩ := treeUnflatten_ok_iff.1 h
  have hc := flatten_of_struct h1
  exact ⟨by rw [treeStructure, hc, h1], by rw [treeLeaves, hc, h2], hc⟩

theorem mapMRes_ok_iff {f : β → Res γ} {ls : List β} {out : List γ} :
    mapMRes f ls = .ok out ↔ List.Forall₂ (fun x y => f x = .ok y) ls out := by
  induction ls generalizing out with
  | nil =>
    simp only [mapMRes, Except.ok.injEq, List.forall₂_nil_left_iff]
    exact eq_comm
  | cons x xs ih =>
    simp only [mapMRes]
    rcases hx : f x with e | y
    · constructor
      · intro h; cases h
      · intro h; cases h with
        | cons h1 h2 => rw [hx] at h1; cases h1
    · rcases hxs : mapMRes f xs with e | ys
      · constructor
        · intro h; cases h
        · intro h; cases h with
          | cons h1 h2 => have := ih.2 h2; rw [hxs] at this; cases this
      · have h2 := ih.1 hxs
        constructor
        · intro h; cases h; exact List.Forall₂.cons hx h2
        · intro h
          cases h with
          | cons h1 h3 =>
            rw [hx] at h1; cases h1
            have := ih.2 h3; rw [hxs] at this; cases this; rfl

theorem treeMap_ok_iff {f : β → Res γ} {t : PyTree β} {r : PyTree γ} :
    t.treeMap f = .ok r ↔ r.struct = t.treeStructure ∧
      List.Forall₂ (fun x y => f x = .ok y) t.treeLeaves r.leaves := by
  unfold treeMap
  rcases h : mapMRes f t.treeLeaves with e | ls
  · constructor
    · intro h'; cases h'
    · rintro ⟨_, h2⟩; rw [← mapMRes_ok_iff, h] at h2; cases h2
  · show treeUnflatten t.treeStructure ls = .ok r ↔ _
    rw [treeUnflatten_ok_iff, ← mapMRes_ok_iff, h]
    constructor
    · rintro ⟨h1, rfl⟩; exact ⟨h1, rfl⟩
    · rintro ⟨h1, h2⟩; cases h2; exact ⟨h1, rfl⟩

/-! ### Sorting dicts permutes the leaves -/

theorem leaves_sortNode_perm {k : Kind} {cs : List (PyTree β)}
    (hk : ∀ ks, k = .dict ks → ks.length = cs.length) :
    (sortNode k cs).leaves.Perm (leavesL cs) := by
  cases k with
  | list => exact List.Perm.refl _
  | tuple => exact List.Perm.refl _
  | user _ => exact List.Perm.refl _
  | dict ks =>
    simp only [sortNode, leaves, leavesL_eq]
    have h1 : ((sortKV (ks.zip cs)).map Prod.snd).Perm cs := by
      have h := (sortKV_perm (ks.zip cs)).map Prod.snd
      rwa [List.map_snd_zip (le_of_eq (hk ks rfl).symm)] at h
    exact (h1.map leaves).flatten

mutual
theorem treeLeaves_perm : ∀ t : PyTree β, t.WF → t.canon.leaves.Perm t.leaves
  | leaf _, _ => List.Perm.refl _
  | none, _ => List.Perm.refl _
  | node k cs, h => by
    simp only [WF] at h
    simp only [canon, leaves]
    refine (leaves_sortNode_perm fun ks hk => ?_).trans (treeLeavesL_perm cs h.2)
    rw [canonL_eq, List.length_map]; exact (h.1 ks hk).2
theorem treeLeavesL_perm : ∀ cs : List (PyTree β), WFL cs →
    (leavesL (canonL cs)).Perm (leavesL cs)
  | [], _ => List.Perm.refl _
  | c :: cs, h => by
    simp only [WFL] at h
    exact (treeLeaves_perm c h.1).append (treeLeavesL_perm cs h.2)
end

theorem mem_treeLeaves_iff {t : PyTree β} (h : t.WF) {l : β} : l ∈ t.canon.leaves ↔ l ∈ t.leaves :=
  (treeLeaves_perm t h).mem_iff

end JaxAct.PyTree
