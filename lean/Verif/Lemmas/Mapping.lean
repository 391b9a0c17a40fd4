import Verif.Spec.Mapping
import Verif.Lemmas.Binary

/-!
# Same mapping iff same flattening
-/

namespace JaxAct.PyTree
open Utils
variable {β : Type}

theorem head_canon {t : PyTree β} (h : t.WF) : t.canon.head = t.head := by
  cases t with
  | leaf _ => rfl
  | none => rfl
  | node k cs =>
    cases k with
    | list => simp [canon, sortNode, head, canonL_eq]
    | tuple => simp [canon, sortNode, head, canonL_eq]
    | user _ => simp [canon, sortNode, head, canonL_eq]
    | dict ks =>
      obtain ⟨hn, hl⟩ := h.1 ks rfl
      simp only [canon, sortNode, head, Head.dict.injEq]
      have hl' : ks.length = (canonL cs).length := by rw [canonL_eq, List.length_map]; exact hl
      have hp := (sortKV_perm (ks.zip (canonL cs))).map Prod.fst
      rw [List.map_fst_zip (le_of_eq hl')] at hp
      ext s
      simp only [List.mem_toFinset]
      exact hp.mem_iff

theorem wf_atPath : ∀ (p : List Step) (t u : PyTree β), t.WF → t.atPath p = some u → u.WF
  | [], t, u, h, hp => by simp only [atPath, Option.some.injEq] at hp; exact hp ▸ h
  | _ :: _, .leaf _, _, _, hp => by simp [atPath] at hp
  | _ :: _, .none, _, _, hp => by simp [atPath] at hp
  | s :: p, .node k cs, u, h, hp => by
    simp only [atPath] at hp
    cases hc : child k cs s with
    | none => rw [hc] at hp; cases hp
    | some c =>
      rw [hc] at hp
      obtain ⟨i, -, h2⟩ := child_some hc
      exact wf_atPath p c u (wfl_mem h.2 c (List.mem_of_getElem? h2)) hp

theorem sameMapping_canon {t : PyTree β} (h : t.WF) : SameMapping t.canon t := by
  intro p
  rw [atPath_canon p t h]
  cases hp : t.atPath p with
  | none => rfl
  | some u => simp [head_canon (wf_atPath p t u h hp)]

theorem SameMapping.symm {s t : PyTree β} (h : SameMapping s t) : SameMapping t s :=
  fun p => (h p).symm

theorem SameMapping.trans {s t u : PyTree β} (h : SameMapping s t) (h' : SameMapping t u) :
    SameMapping s u := fun p => (h p).trans (h' p)

theorem sameMapping_child {k k' : Kind} {cs ds : List (PyTree β)}
    (h : SameMapping (node k cs) (node k' ds)) {st : Step} {c : PyTree β}
    (hc : child k cs st = some c) : ∃ d, child k' ds st = some d ∧ SameMapping c d := by
  have h1 := h [st]
  simp only [atPath, hc, Option.map_some] at h1
  cases hd : child k' ds st with
  | none => rw [hd] at h1; cases h1
  | some d =>
    refine ⟨d, rfl, fun p => ?_⟩
    have := h (st :: p)
    simpa only [atPath, hc, hd] using this

/-- Trees that are the same as mappings have the same canonical form. -/
theorem canon_eq_of_sameMapping : ∀ (s t : PyTree β), s.WF → t.WF → SameMapping s t →
    s.canon = t.canon
  | .leaf x, t, _, _, h => by
    have h0 := h []
    simp only [atPath, Option.map_some, Option.some.injEq, head] at h0
    cases t with
    | leaf y => simp only [Head.leaf.injEq] at h0; rw [h0]
    | none => cases h0
    | node k ds => cases k <;> cases h0
  | .none, t, _, _, h => by
    have h0 := h []
    simp only [atPath, Option.map_some, Option.some.injEq, head] at h0
    cases t with
    | leaf y => cases h0
    | none => rfl
    | node k ds => cases k <;> cases h0
  | .node k cs, t, hs, ht, h => by
    have h0 := h []
    simp only [atPath, Option.map_some, Option.some.injEq] at h0
    have ihc : ∀ c ∈ cs, ∀ d : PyTree β, d.WF → SameMapping c d → c.canon = d.canon :=
      fun c hc d hd hcd => canon_eq_of_sameMapping c d (wfl_mem hs.2 c hc) hd hcd
    cases t with
    | leaf y => cases k <;> cases h0
    | none => cases k <;> cases h0
    | node k' ds =>
      have seq : cs.length = ds.length → (∀ i : Nat, ∃ st, childIndex k st = some i ∧
          childIndex k' st = some i) → canonL cs = canonL ds := by
        intro hl hst
        rw [canonL_eq, canonL_eq]
        refine List.ext_getElem (by simpa using hl) fun i hi hi' => ?_
        simp only [List.length_map] at hi hi'
        obtain ⟨st, e1, e2⟩ := hst i
        have hc : child k cs st = some cs[i] := by
          simp only [child, e1, Option.bind_some, List.getElem?_eq_getElem hi]
        obtain ⟨d, hd, hcd⟩ := sameMapping_child h hc
        have : d = ds[i] := by
          simp only [child, e2, Option.bind_some, List.getElem?_eq_getElem hi',
            Option.some.injEq] at hd
          exact hd.symm
        subst this
        simp only [List.getElem_map]
        exact ihc _ (List.getElem_mem hi) _ (wfl_mem ht.2 _ (List.getElem_mem hi')) hcd
      cases k with
      | list =>
        cases k' with
        | list =>
          simp only [head, Head.list.injEq] at h0
          simp only [canon, sortNode, seq h0 fun i => ⟨.idx i, rfl, rfl⟩]
        | tuple => cases h0
        | user _ => cases h0
        | dict _ => cases h0
      | tuple =>
        cases k' with
        | list => cases h0
        | tuple =>
          simp only [head, Head.tuple.injEq] at h0
          simp only [canon, sortNode, seq h0 fun i => ⟨.idx i, rfl, rfl⟩]
        | user _ => cases h0
        | dict _ => cases h0
      | user c =>
        cases k' with
        | list => cases h0
        | tuple => cases h0
        | user c' =>
          simp only [head, Head.user.injEq] at h0
          obtain ⟨rfl, h0⟩ := h0
          simp only [canon, sortNode, seq h0 fun i => ⟨.idx i, rfl, rfl⟩]
        | dict _ => cases h0
      | dict ks =>
        cases k' with
        | list => cases h0
        | tuple => cases h0
        | user _ => cases h0
        | dict ks' =>
          obtain ⟨hn, hl⟩ := hs.1 ks rfl
          obtain ⟨hn', hl'⟩ := ht.1 ks' rfl
          have cl : ks.length = (canonL cs).length := by rw [canonL_eq, List.length_map]; exact hl
          have cl' : ks'.length = (canonL ds).length := by
            rw [canonL_eq, List.length_map]; exact hl'
          have key : ∀ (es : List (PyTree β)) (js : List String), js.Nodup →
              js.length = es.length → ∀ s c, (s, c) ∈ js.zip (canonL es) ↔
              ∃ c0, child (.dict js) es (.key s) = some c0 ∧ c0.canon = c := by
            intro es js h1 h2 s c
            rw [canonL_eq, List.zip_map_right, List.mem_map]
            constructor
            · rintro ⟨⟨s', c'⟩, hm, he⟩
              simp only [Prod.map_apply, id_eq, Prod.mk.injEq] at he
              obtain ⟨rfl, rfl⟩ := he
              exact ⟨c', (child_dict h1 h2).2 hm, rfl⟩
            · rintro ⟨c0, hc0, rfl⟩
              exact ⟨(s, c0), (child_dict h1 h2).1 hc0, rfl⟩
          have hperm : (ks.zip (canonL cs)).Perm (ks'.zip (canonL ds)) := by
            refine (List.perm_ext_iff_of_nodup (List.Nodup.of_map Prod.fst (nodup_zip_fst hn cl))
              (List.Nodup.of_map Prod.fst (nodup_zip_fst hn' cl'))).2 ?_
            rintro ⟨s, c⟩
            rw [key cs ks hn hl, key ds ks' hn' hl']
            constructor
            · rintro ⟨c0, hc0, rfl⟩
              obtain ⟨d, hd, hcd⟩ := sameMapping_child h hc0
              obtain ⟨i, -, g⟩ := child_some hc0
              obtain ⟨j, -, g'⟩ := child_some hd
              exact ⟨d, hd, (ihc c0 (List.mem_of_getElem? g) d
                (wfl_mem ht.2 _ (List.mem_of_getElem? g')) hcd).symm⟩
            · rintro ⟨d, hd, rfl⟩
              obtain ⟨c0, hc0, hdc⟩ := sameMapping_child h.symm hd
              obtain ⟨i, -, g⟩ := child_some hc0
              obtain ⟨j, -, g'⟩ := child_some hd
              exact ⟨c0, hc0, ihc c0 (List.mem_of_getElem? g) d
                (wfl_mem ht.2 _ (List.mem_of_getElem? g')) hdc.symm⟩
          have hsort : sortKV (ks.zip (canonL cs)) = sortKV (ks'.zip (canonL ds)) := by
            have hp := ((sortKV_perm (ks.zip (canonL cs))).trans hperm).trans
              (sortKV_perm (ks'.zip (canonL ds))).symm
            refine hp.eq_of_pairwise (le := fun x y : String × PyTree β => x.1 ≤ y.1) ?_
              (sortKV_sorted _) (sortKV_sorted _)
            intro a b ha hb h1 h2
            have h3 : a.1 = b.1 := le_antisymm h1 h2
            have ha' := (sortKV_perm _).mem_iff.1 ha
            have hb' := hperm.mem_iff.2 ((sortKV_perm _).mem_iff.1 hb)
            exact List.inj_on_of_nodup_map (nodup_zip_fst hn cl) ha' hb' h3
          simp only [canon, sortNode, hsort]
termination_by s => sizeOf s
decreasing_by
  have := List.sizeOf_lt_of_mem hc
  simp_wf
  omega

theorem canon_eq_iff_sameMapping {s t : PyTree β} (hs : s.WF) (ht : t.WF) :
    s.canon = t.canon ↔ SameMapping s t :=
  ⟨fun h => ((h ▸ (sameMapping_canon hs).symm : SameMapping s t.canon)).trans (sameMapping_canon ht),
    canon_eq_of_sameMapping s t hs ht⟩

theorem canon_eq_iff_flatten {s t : PyTree β} :
    s.canon = t.canon ↔ s.treeLeaves = t.treeLeaves ∧ s.treeStructure = t.treeStructure :=
  ⟨fun h => by simp [treeLeaves, treeStructure, h], fun h => eq_of_struct_leaves h.2 h.1⟩

end JaxAct.PyTree
