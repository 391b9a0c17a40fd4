import Verif.Lemmas.Layers
import Verif.Lemmas.Types

/-! # Carries with the same signature are alike -/

namespace JaxAct
open PyTree
variable {α β : Type}

/-- Dicts in key order are determined by lookup. -/
theorem sortKV_eq_of_get? {d e : List (String × PyTree β)} (hd : Dict.WF d) (he : Dict.WF e)
    (h : ∀ n, Dict.get? d n = Dict.get? e n) : sortKV d = sortKV e := by
  have hperm : d.Perm e := by
    refine (List.perm_ext_iff_of_nodup hd.of_map he.of_map).2 ?_
    rintro ⟨n, t⟩
    have key : ∀ {d : List (String × PyTree β)}, Dict.WF d →
        ((n, t) ∈ d ↔ Dict.get? d n = some t) := fun {d} hd =>
      ⟨fun hm => Dict.get?_of_mem hd hm, fun hm => Dict.mem_of_get? hm⟩
    rw [key hd, key he, h]
  have hp := ((sortKV_perm d).trans hperm).trans (sortKV_perm e).symm
  refine hp.eq_of_pairwise (le := fun x y : String × PyTree β => x.1 ≤ y.1) ?_
    (sortKV_sorted _) (sortKV_sorted _)
  intro a b ha hb h1 h2
  exact List.inj_on_of_nodup_map hd ((sortKV_perm _).mem_iff.1 ha)
    (hperm.mem_iff.2 ((sortKV_perm _).mem_iff.1 hb)) (le_antisymm h1 h2)

/-- The tree of the types of the leaves, dicts in key order. -/
def types (t : PyTree (Leaf α)) : PyTree (Option Aval) := t.canon.map fun l => (Atom.leaf l).aval

theorem treeTypes_eq_iff {t : PyTree (Leaf α)} {u : PyTree (Leaf β)} : types t = types u ↔ TreesAlike t u := by
  have hf : ∀ (l : Leaf α) (l' : Leaf β), (Atom.leaf l).aval = (Atom.leaf l').aval ↔ l.type = l'.type := by
    intro l l'
    cases l <;> cases l' <;> simp [Atom.aval, Leaf.type]
  have hl : ∀ (ls : List (Leaf α)) (ls' : List (Leaf β)), ls.map (fun l => (Atom.leaf l).aval) =
      ls'.map (fun l => (Atom.leaf l).aval) ↔ ls.map Leaf.type = ls'.map Leaf.type := by
    intro ls ls'
    rw [← List.forall₂_eq_eq_eq, ← List.forall₂_eq_eq_eq]
    simp only [List.forall₂_map_left_iff, List.forall₂_map_right_iff, hf]
  unfold types TreesAlike
  constructor
  · intro h
    refine ⟨?_, ?_⟩
    · have := congrArg struct h
      rwa [struct_map, struct_map] at this
    · have := congrArg leaves h
      rw [leaves_map, leaves_map] at this
      exact (hl _ _).1 this
  · rintro ⟨h1, h2⟩
    refine eq_of_struct_leaves ?_ ?_
    · rw [struct_map, struct_map]; exact h1
    · rw [leaves_map, leaves_map]; exact (hl _ _).2 h2

/-- A dict with the types of its trees, in key order. -/
def Dict.types (d : Dict (PyTree (Leaf α))) : List (String × PyTree (Option Aval)) :=
  sortKV (d.map fun kv => (kv.1, JaxAct.types kv.2))

theorem Dict.tree_types (d : Dict (PyTree (Leaf α))) : d.tree.canon.map Atom.aval =
    .node (.dict (d.types.map Prod.fst)) (d.types.map Prod.snd) := by
  have h : d.types = d.sorted.map (Prod.map id (PyTree.map fun l => (Atom.leaf l).aval)) := by
    unfold Dict.types Dict.sorted
    rw [sortKV_map, List.map_map]
    rfl
  rw [Dict.tree_canon, h]
  simp only [Dict.tree, PyTree.map, mapL_eq, List.map_map, Dict.keys, PyTree.node.injEq,
    Kind.dict.injEq]
  refine ⟨List.map_congr_left fun kv _ => rfl, List.map_congr_left fun kv _ => ?_⟩
  simp only [Function.comp_apply, PyTree.map_map, Prod.map_snd]
  rfl

theorem Dict.tree_types_eq_iff {d : Dict (PyTree (Leaf α))} {e : Dict (PyTree (Leaf β))} :
    d.tree.canon.map Atom.aval = e.tree.canon.map Atom.aval ↔ d.types = e.types := by
  rw [Dict.tree_types, Dict.tree_types]
  constructor
  · intro h
    simp only [PyTree.node.injEq, Kind.dict.injEq] at h
    exact List.ext_getElem (by simpa using congrArg List.length h.1) fun i h1 h2 => by
      have e1 := congrArg (fun l : List String => l[i]?) h.1
      have e2 := congrArg (fun l : List (PyTree (Option Aval)) => l[i]?) h.2
      simp only [List.getElem?_map, List.getElem?_eq_getElem h1, List.getElem?_eq_getElem h2,
        Option.map_some, Option.some.injEq] at e1 e2
      exact Prod.ext e1 e2
  · intro h; rw [h]

theorem Dict.get?_map_types (d : Dict (PyTree (Leaf α))) (n : String) :
    Dict.get? (d.map fun kv => (kv.1, JaxAct.types kv.2)) n = (d.get? n).map JaxAct.types := by
  induction d with
  | nil => rfl
  | cons kv e ih => simp only [List.map_cons, Dict.get?_cons, ih]; split <;> rfl

theorem Dict.wf_map_types {d : Dict (PyTree (Leaf α))} :
    Dict.WF (d.map fun kv => (kv.1, JaxAct.types kv.2)) ↔ d.WF := by
  have : Dict.keys (d.map fun kv => (kv.1, JaxAct.types kv.2)) = d.keys := by
    simp [Dict.keys, Function.comp_def]
  unfold Dict.WF; rw [this]

theorem Dict.types_eq_iff {d : Dict (PyTree (Leaf α))} {e : Dict (PyTree (Leaf β))} (hd : d.WF) :
    d.types = e.types ↔ e.WF ∧ DictsAlike d e := by
  have hrel : ∀ n, Option.Rel TreesAlike (d.get? n) (e.get? n) ↔
      (d.get? n).map JaxAct.types = (e.get? n).map JaxAct.types := by
    intro n
    cases d.get? n with
    | none => cases e.get? n with
      | none => exact ⟨fun _ => rfl, fun _ => .none⟩
      | some u => exact ⟨fun h => (nomatch h), fun h => (nomatch h)⟩
    | some t => cases e.get? n with
      | none => exact ⟨fun h => (nomatch h), fun h => (nomatch h)⟩
      | some u =>
        constructor
        · rintro ⟨⟩
          rename_i h
          simp [treeTypes_eq_iff.2 h]
        · intro h
          exact .some (treeTypes_eq_iff.1 (Option.some.inj h))
  constructor
  · intro h
    have hperm : (d.map fun kv => (kv.1, JaxAct.types kv.2)).Perm
        (e.map fun kv => (kv.1, JaxAct.types kv.2)) := by
      unfold Dict.types at h
      exact ((sortKV_perm _).symm.trans (h ▸ .refl _)).trans (sortKV_perm _)
    have hd' := Dict.wf_map_types.2 hd
    have he' : Dict.WF (e.map fun kv => (kv.1, JaxAct.types kv.2)) := by
      unfold Dict.WF Dict.keys at hd' ⊢
      exact (hperm.map Prod.fst).nodup_iff.1 hd'
    refine ⟨Dict.wf_map_types.1 he', fun n => ?_⟩
    rw [hrel, ← Dict.get?_map_types, ← Dict.get?_map_types]
    exact Dict.get?_perm hperm hd' n
  · rintro ⟨he, h⟩
    refine sortKV_eq_of_get? (Dict.wf_map_types.2 hd) (Dict.wf_map_types.2 he) fun n => ?_
    rw [Dict.get?_map_types, Dict.get?_map_types]
    exact (hrel n).1 (h n)

/-! ### Signatures -/

theorem avals_eq {as : List (Atom α)} {vs : List Aval} :
    avals as = some vs ↔ as.map Atom.aval = vs.map some := by
  rw [avals_some_iff, ← List.forall₂_eq_eq_eq, List.forall₂_map_left_iff, List.forall₂_map_right_iff]

theorem avals_ne_none {as : List (Atom α)} :
    (∃ vs, avals as = some vs) ↔ ∀ a ∈ as, a.aval ≠ Option.none := by
  induction as with
  | nil => simp [avals]
  | cons a as ih =>
    constructor
    · rintro ⟨vs, h⟩
      rw [avals_eq] at h
      cases vs with
      | nil => cases h
      | cons v vs =>
        simp only [List.map_cons, List.cons.injEq] at h
        intro b hb
        rcases List.mem_cons.1 hb with rfl | hb
        · rw [h.1]; simp
        · exact ih.1 ⟨vs, avals_eq.2 h.2⟩ b hb
    · intro h
      obtain ⟨vs, hvs⟩ := ih.2 fun b hb => h b (List.mem_cons_of_mem _ hb)
      obtain ⟨v, hv⟩ := Option.ne_none_iff_exists'.1 (h a List.mem_cons_self)
      exact ⟨v :: vs, avals_eq.2 (by simp [hv, avals_eq.1 hvs])⟩

theorem flatten_map_inj {A : Type} : ∀ {xs ys : List (List A)}, xs.map List.length = ys.map List.length →
    xs.flatten = ys.flatten → xs = ys
  | [], [], _, _ => rfl
  | [], _ :: _, h, _ => by cases h
  | _ :: _, [], h, _ => by cases h
  | x :: xs, y :: ys, h, hf => by
    simp only [List.map_cons, List.cons.injEq] at h
    simp only [List.flatten_cons] at hf
    obtain ⟨h1, h2⟩ := List.append_inj hf h.1
    rw [h1, flatten_map_inj h.2 h2]

/-- The types of all fields of a state. -/
def RawState.types (r : RawState (Atom α)) : List (PyTree (Option Aval)) :=
  r.fields.map fun t => t.canon.map Atom.aval

theorem map_pair_iff {A A' B C : Type} {f : A → B} {g : A → C} {f' : A' → B} {g' : A' → C} :
    ∀ {xs : List A} {ys : List A'}, (xs.map f = ys.map f' ∧ xs.map g = ys.map g') ↔
      xs.map (fun x => (f x, g x)) = ys.map (fun x => (f' x, g' x))
  | [], [] => by simp
  | [], _ :: _ => by simp
  | _ :: _, [] => by simp
  | x :: xs, y :: ys => by
    have ih := map_pair_iff (f := f) (g := g) (f' := f') (g' := g') (xs := xs) (ys := ys)
    simp only [List.map_cons, List.cons.injEq, Prod.mk.injEq, ← ih]
    tauto

theorem canon_types_iff {t : PyTree (Atom α)} {u : PyTree (Atom β)} :
    t.canon.map Atom.aval = u.canon.map Atom.aval ↔ t.treeStructure = u.treeStructure ∧
      t.treeLeaves.map Atom.aval = u.treeLeaves.map Atom.aval := by
  constructor
  · intro h
    refine ⟨?_, ?_⟩
    · have := congrArg struct h
      rwa [struct_map, struct_map] at this
    · have := congrArg leaves h
      rwa [leaves_map, leaves_map] at this
  · rintro ⟨h1, h2⟩
    refine eq_of_struct_leaves ?_ ?_
    · rw [struct_map, struct_map]; exact h1
    · rw [leaves_map, leaves_map]; exact h2

theorem flatten_types {fs : List (PyTree (Atom α))} {gs : List (PyTree (Atom β))} :
    ((fs.map treeStructure = gs.map treeStructure ∧
      (fs.map fun t => t.treeLeaves.length) = gs.map fun t => t.treeLeaves.length) ∧
      (fs.map treeLeaves).flatten.map Atom.aval = (gs.map treeLeaves).flatten.map Atom.aval) ↔
    (fs.map fun t => t.canon.map Atom.aval) = gs.map fun t => t.canon.map Atom.aval := by
  have hpair : (fs.map fun t => t.canon.map Atom.aval) = (gs.map fun t => t.canon.map Atom.aval) ↔
      (fs.map treeStructure = gs.map treeStructure ∧
        (fs.map fun t => t.treeLeaves.map Atom.aval) = gs.map fun t => t.treeLeaves.map Atom.aval) := by
    rw [map_pair_iff]
    simp only [← List.forall₂_eq_eq_eq, List.forall₂_map_left_iff, List.forall₂_map_right_iff,
      canon_types_iff, Prod.mk.injEq]
  rw [hpair]
  simp only [List.map_flatten, List.map_map]
  constructor
  · rintro ⟨⟨h1, h2⟩, h3⟩
    refine ⟨h1, ?_⟩
    refine flatten_map_inj ?_ h3
    simpa only [List.map_map, Function.comp_def, List.length_map] using h2
  · rintro ⟨h1, h2⟩
    refine ⟨⟨h1, ?_⟩, ?_⟩
    · have := congrArg (List.map List.length) h2
      simpa only [List.map_map, Function.comp_def, List.length_map] using this
    · have := congrArg List.flatten h2
      simpa only [Function.comp_def] using this

/-- Equal signatures mean equal types. -/
theorem Carry.sig_eq_iff {x : Carry α} {y : Carry β} {g : CarrySig} (hx : x.sig = some g) :
    y.sig = some g ↔ x.controller.state.raw.types = y.controller.state.raw.types ∧
      types x.state = types y.state := by
  have key : ∀ {γ : Type} {x : Carry γ} {g : CarrySig}, x.sig = some g ↔
      (flattenObj x.controller.raw).2 = g.controllerDef ∧
      (flattenObj x.controller.raw).1.map Atom.aval = g.controllerLeaves.map some ∧
      x.state.treeStructure = g.stateDef ∧
      (x.state.treeLeaves.map Atom.leaf).map Atom.aval = g.stateLeaves.map some := by
    intro γ x g
    unfold Carry.sig
    rw [← avals_eq, ← avals_eq]
    constructor
    · intro h
      split at h
      · rename_i cl sl h1 h2
        cases h
        exact ⟨rfl, h1, rfl, h2⟩
      · cases h
    · rintro ⟨h1, h2, h3, h4⟩
      rw [h2, h4]
      simp only [h1, h3]
  obtain ⟨a1, a2, a3, a4⟩ := key.1 hx
  rw [key, ← a1, ← a2, ← a3, ← a4]
  have h1 : types x.state = types y.state ↔ x.state.treeStructure = y.state.treeStructure ∧
      (x.state.treeLeaves.map Atom.leaf).map Atom.aval =
        (y.state.treeLeaves.map Atom.leaf).map Atom.aval := by
    have := canon_types_iff (t := x.state.map Atom.leaf) (u := y.state.map Atom.leaf)
    simp only [canon_map, PyTree.map_map, treeStructure_map, treeLeaves_map] at this
    exact this
  have h2 := flatten_types (fs := x.controller.state.raw.fields)
    (gs := y.controller.state.raw.fields)
  have h3 : x.controller.state.raw.types = y.controller.state.raw.types ↔
      (flattenObj x.controller.raw).2 = (flattenObj y.controller.raw).2 ∧
      (flattenObj x.controller.raw).1.map Atom.aval =
        (flattenObj y.controller.raw).1.map Atom.aval := by
    unfold RawState.types
    rw [← h2]
    simp only [flattenObj, Controller.raw, treeFlattenState_eq, ObjAux.controller.injEq,
      StateDef.mk.injEq]
  rw [h1, h3]
  constructor
  · rintro ⟨b1, b2, b3, b4⟩; exact ⟨⟨b1.symm, b2.symm⟩, b3.symm, b4.symm⟩
  · rintro ⟨⟨b1, b2⟩, b3, b4⟩; exact ⟨b1.symm, b2.symm, b3.symm, b4.symm⟩

theorem raw_types_iff {s : ACTStates α} {s' : ACTStates β} (ha : s.accumulators.WF) (hd : s.defaults.WF)
    (hu : s.updates.WF) (he : s.error_mode = Option.none) :
    s.raw.types = s'.raw.types ↔ StatesAlike s s' ∧ s'.accumulators.WF ∧ s'.defaults.WF ∧
      s'.updates.WF := by
  simp only [RawState.types, RawState.fields, RawState.asDict, ACTStates.raw, List.map_cons,
    List.map_nil, List.cons.injEq, and_true, Dict.tree_types_eq_iff, Dict.types_eq_iff ha,
    Dict.types_eq_iff hd, Dict.types_eq_iff hu]
  have ht : ∀ (t : Tensor α) (u : Tensor β), PyTree.map Atom.aval t.tree.canon = PyTree.map Atom.aval u.tree.canon ↔
      TensorsAlike t u := by
    intro t u
    simp [Tensor.tree, PyTree.canon, PyTree.map, Atom.aval, TensorsAlike]
  have hm : PyTree.map Atom.aval (errorModeTree (α := α) s.error_mode).canon =
      PyTree.map Atom.aval (errorModeTree (α := β) s'.error_mode).canon ↔
      s.error_mode = s'.error_mode := by
    rw [he]
    cases s'.error_mode <;> simp [errorModeTree, PyTree.canon, PyTree.map]
  simp only [ht, hm]
  constructor
  · rintro ⟨-, h1, h2, h3, ⟨h4, h4'⟩, ⟨h5, h5'⟩, ⟨h6, h6'⟩, -, h8⟩
    exact ⟨⟨h1, h2, h3, h4', h5', h6', h8⟩, h5, h4, h6⟩
  · rintro ⟨⟨h1, h2, h3, h4', h5', h6', h8⟩, h5, h4, h6⟩
    exact ⟨rfl, h1, h2, h3, ⟨h4, h4'⟩, ⟨h5, h5'⟩, ⟨h6, h6'⟩, rfl, h8⟩

/-- Every leaf is a tensor. -/
def AllTensors (t : PyTree (Leaf α)) : Prop := ∀ l ∈ t.treeLeaves, ∃ a : Tensor α, l = .tensor a

theorem aval_leaf_ne_none {l : Leaf α} :
    (Atom.leaf l).aval ≠ Option.none ↔ ∃ a : Tensor α, l = .tensor a := by
  cases l <;> simp [Atom.aval]

theorem Dict.tree_leaves_avals {d : Dict (PyTree (Leaf α))} :
    (∀ a ∈ d.tree.treeLeaves, a.aval ≠ Option.none) ↔ ∀ kv ∈ d, AllTensors kv.2 := by
  have hl : ∀ a, a ∈ d.tree.treeLeaves ↔ ∃ kv ∈ d, ∃ l ∈ kv.2.treeLeaves, a = Atom.leaf l := by
    intro a
    unfold treeLeaves
    rw [Dict.tree_canon]
    simp only [Dict.tree, leaves, leavesL_eq, List.map_map, ← List.flatMap_def, List.mem_flatMap,
      Function.comp_apply, leaves_map, List.mem_map]
    constructor
    · rintro ⟨kv, hkv, l, hl, rfl⟩
      have := (sortKV_perm _).mem_iff.1 hkv
      obtain ⟨kv', hkv', rfl⟩ := List.mem_map.1 this
      exact ⟨kv', hkv', l, hl, rfl⟩
    · rintro ⟨kv, hkv, l, hl, rfl⟩
      exact ⟨(kv.1, kv.2.canon), (sortKV_perm _).mem_iff.2 (List.mem_map.2 ⟨kv, hkv, rfl⟩), l, hl,
        rfl⟩
  constructor
  · intro h kv hkv l hlm
    exact aval_leaf_ne_none.1 (h _ ((hl _).2 ⟨kv, hkv, l, hlm, rfl⟩))
  · intro h a ha
    obtain ⟨kv, hkv, l, hlm, rfl⟩ := (hl a).1 ha
    exact aval_leaf_ne_none.2 (h kv hkv l hlm)

/-- What `while_loop` accepts as a carry. -/
theorem Carry.sig_some_iff {x : Carry α} : (∃ g, x.sig = some g) ↔
    x.controller.state.error_mode = Option.none ∧
    (∀ kv ∈ x.controller.state.defaults, AllTensors kv.2) ∧
    (∀ kv ∈ x.controller.state.accumulators, AllTensors kv.2) ∧
    (∀ kv ∈ x.controller.state.updates, AllTensors kv.2) ∧ AllTensors x.state := by
  have h1 : (∃ g, x.sig = some g) ↔ (∃ vs, avals (flattenObj x.controller.raw).1 = some vs) ∧
      ∃ vs, avals (x.state.treeLeaves.map Atom.leaf) = some vs := by
    unfold Carry.sig
    constructor
    · rintro ⟨g, h⟩
      split at h
      · rename_i cl sl h1 h2
        exact ⟨⟨cl, h1⟩, ⟨sl, h2⟩⟩
      · cases h
    · rintro ⟨⟨cl, h1⟩, ⟨sl, h2⟩⟩
      exact ⟨_, by rw [h1, h2]⟩
  rw [h1, avals_ne_none, avals_ne_none]
  have h2 : (∀ a ∈ x.state.treeLeaves.map Atom.leaf, Atom.aval a ≠ Option.none) ↔
      AllTensors x.state := by
    simp only [List.forall_mem_map, aval_leaf_ne_none, AllTensors]
  rw [h2]
  simp only [flattenObj, Controller.raw, treeFlattenState_eq, RawState.fields, RawState.asDict,
    ACTStates.raw, List.map_cons, List.map_nil, List.flatten_cons, List.flatten_nil,
    List.forall_mem_append, Dict.tree_leaves_avals]
  have h3 : ∀ t : Tensor α, ∀ a ∈ t.tree.treeLeaves, a.aval ≠ Option.none := by
    intro t a ha
    simp only [Tensor.tree, treeLeaves, PyTree.canon, leaves, List.mem_singleton] at ha
    subst ha
    simp [Atom.aval]
  have h4 : ∀ y : α, ∀ a ∈ (PyTree.leaf (Atom.float y)).treeLeaves, a.aval ≠ Option.none := by
    intro y a ha
    simp only [treeLeaves, PyTree.canon, leaves, List.mem_singleton] at ha
    subst ha
    simp [Atom.aval]
  have h5 : (∀ a ∈ (errorModeTree (α := α) x.controller.state.error_mode).treeLeaves,
      a.aval ≠ Option.none) ↔ x.controller.state.error_mode = Option.none := by
    cases x.controller.state.error_mode <;>
      simp [errorModeTree, treeLeaves, PyTree.canon, leaves, Atom.aval]
  rw [h5]
  have h6 := h3 x.controller.state.iterations
  have h7 := h3 x.controller.state.residuals
  have h8 := h3 x.controller.state.probabilities
  have h9 := h4 x.controller.state.epsilon
  have h10 := h4 x.controller.state.depression_constant
  constructor
  · rintro ⟨⟨-, -, -, -, b1, b2, b3, -, b4, -⟩, b5⟩
    exact ⟨b4, b1, b2, b3, b5⟩
  · rintro ⟨b4, b1, b2, b3, b5⟩
    exact ⟨⟨h9, h6, h7, h8, b1, b2, b3, h10, b4, by simp⟩, b5⟩

/-- Carries with the same signature are alike. -/
theorem Carry.alike_of_sig {x : Carry α} {y : Carry β} {g : CarrySig} (hx : x.sig = some g)
    (hy : y.sig = some g) (hwf : x.controller.state.WF) :
    StatesAlike x.controller.state y.controller.state ∧ y.controller.state.WF ∧
      TreesAlike x.state y.state := by
  obtain ⟨h1, h2⟩ := (Carry.sig_eq_iff hx).1 hy
  obtain ⟨h3, h4, h5, h6⟩ := (raw_types_iff hwf.acc_keys hwf.def_keys hwf.upd_keys
    (Carry.sig_some_iff.1 ⟨g, hx⟩).1).1 h1
  exact ⟨h3, h3.wf hwf h4 h5 h6, treeTypes_eq_iff.1 h2⟩

/-- Alike carries have the same signature. -/
theorem Carry.sig_of_alike {x : Carry α} {y : Carry β} {g : CarrySig} (hx : x.sig = some g)
    (hwf : x.controller.state.WF) (hwf' : y.controller.state.WF)
    (hs : StatesAlike x.controller.state y.controller.state) (ht : TreesAlike x.state y.state) :
    y.sig = some g :=
  (Carry.sig_eq_iff hx).2 ⟨(raw_types_iff hwf.acc_keys hwf.def_keys hwf.upd_keys
    (Carry.sig_some_iff.1 ⟨g, hx⟩).1).2 ⟨hs, hwf'.acc_keys, hwf'.def_keys, hwf'.upd_keys⟩,
    treeTypes_eq_iff.2 ht⟩

end JaxAct
