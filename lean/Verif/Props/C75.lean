import Verif.Model.Carry
import Verif.Lemmas.Sig
import Verif.Props.C20Demo

/-! # C75 The loop carry passes through JAX unchanged and its counter cannot overflow -/

namespace JaxAct
open PyTree
variable {α β γ : Type}

/-! ### Metadata -/

private theorem treeFlattenMeta_eq (m : RawMeta β) : treeFlattenMeta m =
    (m.num_iterations.treeLeaves ++ m.max_num_iterations.treeLeaves,
      ⟨[m.num_iterations.treeStructure, m.max_num_iterations.treeStructure],
        [m.num_iterations.treeLeaves.length, m.max_num_iterations.treeLeaves.length]⟩) := by
  simp [treeFlattenMeta, metaFlatten, flattenFields, RawMeta.asDict]

private theorem meta_ok (m : RawMeta β) (ls : List γ)
    (h : ls.length = (treeFlattenMeta m).1.length) :
    ∃ r : RawMeta γ, treeUnflattenMeta (treeFlattenMeta m).2 ls = .ok r ∧
      r.num_iterations.struct = m.num_iterations.treeStructure ∧
      r.max_num_iterations.struct = m.max_num_iterations.treeStructure ∧
      r.num_iterations.leaves ++ r.max_num_iterations.leaves = ls := by
  rw [treeFlattenMeta_eq] at h ⊢
  obtain ⟨gs, hg⟩ := cut_of_length
    (ns := [m.num_iterations.treeLeaves.length, m.max_num_iterations.treeLeaves.length]) (ls := ls)
    (by simpa using h)
  obtain ⟨h1, h2⟩ := cut_some hg
  obtain ⟨ts, h3, h4, h5⟩ := unflattenFields_ok gs
    [m.num_iterations.treeStructure, m.max_num_iterations.treeStructure] (by
      rw [h2]; simp [treeStructure_leaves_length])
  obtain ⟨a, b, rfl⟩ := List.length_eq_two.1 (by simpa using congrArg List.length h4)
  simp only [List.map_cons, List.map_nil, List.cons.injEq, and_true] at h4
  refine ⟨⟨a, b⟩, ?_, h4.1, h4.2, ?_⟩
  · simp only [treeUnflattenMeta, hg, metaUnflatten, h3]
    rfl
  · rw [← h1, ← h5]; simp

private theorem struct_canon_eq {t : PyTree β} {s : PyTree γ} (h : t.struct = s.treeStructure) :
    t.canon = t :=
  canon_of_isCanon t (isCanon_of_struct_eq h (isCanon_canon s))

private theorem meta_flatten {m : RawMeta β} {r : RawMeta γ}
    (h1 : r.num_iterations.struct = m.num_iterations.treeStructure)
    (h2 : r.max_num_iterations.struct = m.max_num_iterations.treeStructure) :
    treeFlattenMeta r = (r.num_iterations.leaves ++ r.max_num_iterations.leaves,
      (treeFlattenMeta m).2) := by
  have e1 := struct_canon_eq h1
  have e2 := struct_canon_eq h2
  have l1 : r.num_iterations.treeLeaves = r.num_iterations.leaves := congrArg leaves e1
  have l2 : r.max_num_iterations.treeLeaves = r.max_num_iterations.leaves := congrArg leaves e2
  have s1 : r.num_iterations.treeStructure = m.num_iterations.treeStructure :=
    (congrArg struct e1).trans h1
  have s2 : r.max_num_iterations.treeStructure = m.max_num_iterations.treeStructure :=
    (congrArg struct e2).trans h2
  have n1 : r.num_iterations.treeLeaves.length = m.num_iterations.treeLeaves.length := by
    rw [← treeStructure_leaves_length, s1, treeStructure_leaves_length]
  have n2 : r.max_num_iterations.treeLeaves.length = m.max_num_iterations.treeLeaves.length := by
    rw [← treeStructure_leaves_length, s2, treeStructure_leaves_length]
  rw [treeFlattenMeta_eq, treeFlattenMeta_eq, s1, s2, n1, n2, l1, l2]

/-- C75, metadata: unflattening with any values of the right number (tracers, arrays, shapes) succeeds
and flattens back to those values and the same treedef; any other number raises `ValueError`. -/
theorem C75_metadata (m : RawMeta β) (ls : List γ) :
    (ls.length = (treeFlattenMeta m).1.length →
      ∃ r : RawMeta γ, treeUnflattenMeta (treeFlattenMeta m).2 ls = .ok r ∧
        treeFlattenMeta r = (ls, (treeFlattenMeta m).2)) ∧
    (ls.length ≠ (treeFlattenMeta m).1.length →
      treeUnflattenMeta (treeFlattenMeta m).2 ls = .error .valueError) := by
  constructor
  · intro h
    obtain ⟨r, h1, h2, h3, h4⟩ := meta_ok m ls h
    exact ⟨r, h1, by rw [meta_flatten h2 h3, h4]⟩
  · intro h
    rw [treeFlattenMeta_eq] at h ⊢
    unfold treeUnflattenMeta
    cases hc : cut [m.num_iterations.treeLeaves.length, m.max_num_iterations.treeLeaves.length] ls with
    | none => rfl
    | some gs =>
      obtain ⟨h1, h2⟩ := cut_some hc
      refine absurd ?_ h
      rw [← h1, List.length_flatten, h2]
      simp

/-- C75, metadata: the registered `state_unflatten` of `act.py` on arbitrary arguments, as for states (C34)
but with two fields. -/
theorem C75_metadata_unflatten (aux : List TreeDef) (flat : List (List β)) :
    (¬ (∀ x ∈ flat.zip aux, x.1.length = x.2.leaves.length) →
      metaUnflatten aux flat = .error .valueError) ∧
    ((∀ x ∈ flat.zip aux, x.1.length = x.2.leaves.length) →
      (min flat.length aux.length = 2 → ∃ m : RawMeta β, metaUnflatten aux flat = .ok m) ∧
      (min flat.length aux.length ≠ 2 → metaUnflatten aux flat = .error .typeError)) := by
  obtain ⟨h1, h2⟩ := unflattenFields_zip flat aux
  refine ⟨fun h => by simp only [metaUnflatten, h2 h]; rfl, fun h => ?_⟩
  obtain ⟨ts, h3, h4⟩ := h1 h
  rw [← h4]
  simp only [metaUnflatten, h3]
  refine ⟨fun h9 => ?_, fun h9 => ?_⟩
  · obtain ⟨x, y, rfl⟩ := List.length_eq_two.1 h9
    exact ⟨_, rfl⟩
  · show RawMeta.ofValues ts = _
    unfold RawMeta.ofValues
    split
    · exact absurd rfl h9
    · rfl

/-- Two fields, one field too few, and a field with a leaf too many. -/
example : metaUnflatten [.leaf (), .leaf ()] [[1], [2]] = .ok ⟨.leaf 1, .leaf 2⟩ ∧
    metaUnflatten [.leaf (), .leaf ()] [[1]] = .error .typeError ∧
    metaUnflatten [.leaf (), .leaf ()] [[1, 3], [2]] = .error .valueError := ⟨rfl, rfl, rfl⟩

/-- C75, metadata: the two counts come back as they were. -/
theorem C75_metadata_roundtrip (m : ACTMetaData) :
    treeUnflattenMeta (treeFlattenMeta (m.raw : RawMeta (CarryAtom α))).2
      (treeFlattenMeta (m.raw : RawMeta (CarryAtom α))).1 = .ok m.raw := rfl

/-! ### The whole carry -/

private theorem fields_map (f : β → γ) (s : RawState β) :
    (s.map f).fields = s.fields.map (PyTree.map f) := rfl

private theorem flatten_map (f : β → γ) (s : RawState β) :
    treeFlattenState (s.map f) = ((treeFlattenState s).1.map f, (treeFlattenState s).2) := by
  simp only [treeFlattenState_eq, fields_map, List.map_map, Function.comp_def, treeLeaves_map,
    treeStructure_map, List.length_map, List.map_flatten]

private theorem canon_map_state (f : β → γ) (s : RawState β) : (s.map f).canon = s.canon.map f := by
  simp only [RawState.map, RawState.canon, canon_map]

private theorem flattenObj_controller (s : RawState β) : flattenObj (RawObj.mk .controller s) =
    ((treeFlattenState s).1, .controller (treeFlattenState s).2) := rfl

private theorem cut_three (a b c : List β) :
    cut [a.length, b.length, c.length] (a ++ (b ++ c)) = some [a, b, c] := by
  have := cut_flatten [a, b, c]
  simpa using this

private theorem flatten_lens (m : RawMeta β) :
    (treeFlattenMeta m).2.lens.sum = (treeFlattenMeta m).1.length := by
  rw [treeFlattenMeta_eq]; simp

/-- C75: flattening the carry and unflattening it gives back the same controller, state and metadata,
with dictionaries in key order: the carry that `Model/Layers` hands to the next iteration. -/
theorem C75_carry_roundtrip (x : Carry α) :
    treeUnflattenCarry (treeFlattenCarry x.raw).2 (treeFlattenCarry x.raw).1 = .ok x.rebuild.raw := by
  have hc : unflattenObj (flattenObj x.raw.controller).2 (flattenObj x.raw.controller).1 =
      .ok x.rebuild.raw.controller := by
    show unflattenObj (flattenObj (RawObj.mk .controller _)).2 _ = _
    rw [flattenObj_controller]
    show (treeUnflattenState _ _ >>= _) = _
    rw [show (flattenObj x.raw.controller).1 =
      (treeFlattenState (x.controller.state.raw.map CarryAtom.atom)).1 from rfl,
      treeUnflattenState_roundtrip, canon_map_state, ACTStates.raw_canon]
    rfl
  have hs : treeUnflatten x.raw.state.treeStructure x.raw.state.treeLeaves =
      .ok x.rebuild.raw.state := by
    rw [treeUnflatten_ok_iff]
    have : x.rebuild.raw.state = x.raw.state.canon := (canon_map _ _).symm
    rw [this]
    exact ⟨rfl, rfl⟩
  have hm : treeUnflattenMeta (treeFlattenMeta x.raw.metadata).2 (treeFlattenMeta x.raw.metadata).1 =
      .ok x.rebuild.raw.metadata := rfl
  have hcut := cut_three (flattenObj x.raw.controller).1 x.raw.state.treeLeaves
    (treeFlattenMeta x.raw.metadata).1
  unfold treeUnflattenCarry treeFlattenCarry
  simp only [flatten_lens, treeStructure_leaves_length, hcut, hc, hs, hm]
  rfl

/-- C75: the same with any values in the leaf positions, as `while_loop` puts tracers and arrays there:
unflattening with the right number of values succeeds and flattening gives them back with the same
treedef; any other number raises `ValueError`. -/
theorem C75_carry_rebuild (x : Carry α) (ls : List γ) :
    (ls.length = (treeFlattenCarry x.raw).1.length →
      ∃ y : RawCarry γ, treeUnflattenCarry (treeFlattenCarry x.raw).2 ls = .ok y ∧
        treeFlattenCarry y = (ls, (treeFlattenCarry x.raw).2)) ∧
    (ls.length ≠ (treeFlattenCarry x.raw).1.length →
      treeUnflattenCarry (treeFlattenCarry x.raw).2 ls = .error .valueError) := by
  have hd : (treeFlattenCarry x.raw).1.length =
      [(treeFlattenCarry x.raw).2.controllerLen, (treeFlattenCarry x.raw).2.state.leaves.length,
        (treeFlattenCarry x.raw).2.metadata.lens.sum].sum := by
    show ((flattenObj x.raw.controller).1 ++ (x.raw.state.treeLeaves ++
      (treeFlattenMeta x.raw.metadata).1)).length = [(flattenObj x.raw.controller).1.length,
      x.raw.state.treeStructure.leaves.length, (treeFlattenMeta x.raw.metadata).2.lens.sum].sum
    rw [flatten_lens, treeStructure_leaves_length]
    simp
  constructor
  · intro h
    rw [hd] at h
    obtain ⟨gs, hg⟩ := cut_of_length h
    obtain ⟨h1, h2⟩ := cut_some hg
    obtain ⟨a, b, c, rfl⟩ := List.length_eq_three.1 (by simpa using congrArg List.length h2)
    simp only [List.map_cons, List.map_nil, List.cons.injEq, and_true] at h2
    obtain ⟨ha, hb, hc⟩ := h2
    obtain ⟨r, r1, r2, r3⟩ := treeUnflattenState_ok (x.controller.state.raw.map CarryAtom.atom) a ha
    obtain ⟨t, ht⟩ := treeUnflatten_ok (d := x.raw.state.treeStructure) hb
    obtain ⟨m, m1, m2⟩ := (C75_metadata x.raw.metadata c).1 (by
      rw [hc]; exact flatten_lens x.raw.metadata)
    obtain ⟨t1, t2⟩ := treeUnflatten_ok_iff.1 ht
    have tc := struct_canon_eq t1
    have hflat := treeUnflattenState_flatten r2 r3
    refine ⟨⟨⟨.controller, r⟩, t, m⟩, ?_, ?_⟩
    · unfold treeUnflattenCarry
      rw [hg]
      show (unflattenObj (.controller (treeFlattenState _).2) a >>= _) = _
      show ((treeUnflattenState (treeFlattenState (x.controller.state.raw.map CarryAtom.atom)).2 a
        >>= _) >>= _) = _
      rw [r1]
      show (treeUnflatten x.raw.state.treeStructure b >>= _) = _
      rw [ht]
      show (treeUnflattenMeta (treeFlattenMeta x.raw.metadata).2 c >>= _) = _
      rw [m1]
      rfl
    · have e1 : (flattenObj (RawObj.mk .controller r)) =
          (a, (flattenObj x.raw.controller).2) := by
        rw [flattenObj_controller, hflat]
        rfl
      have e2 : t.treeLeaves = b := (congrArg leaves tc).trans t2
      have e3 : t.treeStructure = x.raw.state.treeStructure := (congrArg struct tc).trans t1
      unfold treeFlattenCarry
      simp only [e1, e2, e3, m2, Prod.mk.injEq]
      refine ⟨?_, ?_⟩
      · rw [← h1]; simp
      · simp only [CarryDef.mk.injEq, and_true]
        exact ha
  · intro h
    rw [hd] at h
    unfold treeUnflattenCarry
    cases hc : cut [(treeFlattenCarry x.raw).2.controllerLen,
        (treeFlattenCarry x.raw).2.state.leaves.length,
        (treeFlattenCarry x.raw).2.metadata.lens.sum] ls with
    | none => rfl
    | some gs =>
      obtain ⟨h1, h2⟩ := cut_some hc
      exact absurd (by rw [← h1, ← h2, List.length_flatten]) h

private theorem types_eq (x : Carry α) : x.types =
    (⟨(flattenObj x.controller.raw).1.length, (flattenObj x.controller.raw).2,
        x.state.treeStructure, ⟨[.leaf (), .leaf ()], [1, 1]⟩⟩,
      (flattenObj x.controller.raw).1.map Atom.aval ++
        ((x.state.treeLeaves.map Atom.leaf).map Atom.aval ++
          [some ⟨[], .i32⟩, some ⟨[], .i32⟩])) := by
  have h1 : flattenObj x.raw.controller =
      ((flattenObj x.controller.raw).1.map CarryAtom.atom, (flattenObj x.controller.raw).2) := by
    show flattenObj (RawObj.mk .controller _) = _
    rw [flattenObj_controller, flatten_map]
    rfl
  have h2 : x.raw.state.treeLeaves = x.state.treeLeaves.map fun l => .atom (.leaf l) :=
    treeLeaves_map _ _
  have h3 : x.raw.state.treeStructure = x.state.treeStructure := treeStructure_map _ _
  unfold Carry.types treeFlattenCarry
  rw [h1, h2, h3]
  simp only [List.length_map, List.map_append, List.map_map, Function.comp_def, CarryAtom.aval]
  rfl

/-- C75: what `while_loop` compares.  It accepts a carry exactly if `Carry.sig` is defined, and two
carries have the same tree structure and leaf types exactly if their `Carry.sig` agree: nothing is lost
by leaving out the metadata there. -/
theorem C75_types (x y : Carry α) :
    ((∃ g, x.sig = some g) ↔ Option.none ∉ x.types.2) ∧
    ((∃ g, x.sig = some g) → (x.sig = y.sig ↔ x.types = y.types)) := by
  have key : ∀ {x : Carry α} {g : CarrySig}, x.sig = some g ↔
      (flattenObj x.controller.raw).2 = g.controllerDef ∧
      (flattenObj x.controller.raw).1.map Atom.aval = g.controllerLeaves.map some ∧
      x.state.treeStructure = g.stateDef ∧
      (x.state.treeLeaves.map Atom.leaf).map Atom.aval = g.stateLeaves.map some := by
    intro x g
    unfold Carry.sig
    rw [← avals_eq, ← avals_eq]
    constructor
    · intro h
      split at h
      · rename_i cl sl h1 h2
        cases h
        exact ⟨rfl, h1, rfl, h2⟩
      · cases h
    · rintro ⟨h1, h2, h3, h4⟩
      rw [h2, h4]
      simp only [h1, h3]
  constructor
  · have : (∃ g, x.sig = some g) ↔ (∃ vs, avals (flattenObj x.controller.raw).1 = some vs) ∧
        ∃ vs, avals (x.state.treeLeaves.map Atom.leaf) = some vs := by
      constructor
      · rintro ⟨g, h⟩
        obtain ⟨-, h2, -, h4⟩ := key.1 h
        exact ⟨⟨_, avals_eq.2 h2⟩, ⟨_, avals_eq.2 h4⟩⟩
      · rintro ⟨⟨vs, h1⟩, ⟨ws, h2⟩⟩
        exact ⟨⟨_, vs, _, ws⟩, key.2 ⟨rfl, avals_eq.1 h1, rfl, avals_eq.1 h2⟩⟩
    rw [this, avals_ne_none, avals_ne_none, types_eq]
    simp only [List.mem_append, List.mem_map, List.mem_cons, not_or, not_exists, not_and,
      reduceCtorEq, List.not_mem_nil, or_self, not_false_iff, and_true, ne_eq]
  · rintro ⟨g, hg⟩
    obtain ⟨a1, a2, a3, a4⟩ := key.1 hg
    rw [hg, eq_comm, key, ← a1, ← a2, ← a3, ← a4, types_eq, types_eq]
    simp only [Prod.mk.injEq, CarryDef.mk.injEq, and_true]
    constructor
    · rintro ⟨h1, h2, h3, h4⟩
      have hl := congrArg List.length h2
      simp only [List.length_map] at hl
      exact ⟨⟨hl.symm, h1.symm, h3.symm⟩, by rw [h2, h4]⟩
    · rintro ⟨⟨h1, h2, h3⟩, h4⟩
      have hs := congrArg (fun d : TreeDef => d.leaves.length) h3
      simp only [treeStructure_leaves_length] at hs
      obtain ⟨e1, e2⟩ := List.append_inj h4 (by simpa using h1)
      obtain ⟨e3, -⟩ := List.append_inj e2 (by simpa using hs)
      exact ⟨h2.symm, e1.symm, h3.symm, e3.symm⟩

/-! ### The counter -/

variable [Arith α]

private theorem adapter32_eq (l : Layer α) (check : Bool) {x : Carry α}
    (h : x.metadata.increaseCounter32 = x.metadata.increaseCounter) :
    l.adapter32 check x = l.adapter check x := by
  unfold Layer.adapter32 Layer.adapter
  rw [h]

private theorem increase32 {m : ACTMetaData} (h0 : 0 ≤ m.num_iterations)
    (h1 : m.num_iterations < 2 ^ 31 - 1) : m.increaseCounter32 = m.increaseCounter := by
  have : (m.num_iterations + 1).bmod (2 ^ 32) = m.num_iterations + 1 :=
    Int.bmod_eq_of_le (by omega) (by omega)
  simp only [ACTMetaData.increaseCounter32, ACTMetaData.increaseCounter, addInt32, this]

private theorem step_meta {l : Layer α} {check : Bool} {x y : Carry α}
    (h : (l.adapter check x).map Carry.rebuild = .ok y) :
    y.metadata = x.metadata.increaseCounter := by
  cases ha : l.adapter check x with
  | error e => rw [ha] at h; cases h
  | ok z => rw [ha] at h; cases h; exact (Layer.adapter_metadata ha :)

private theorem steps32 {l : Layer α} {check : Bool} {x z : Carry α}
    (h0 : 0 ≤ x.metadata.num_iterations) (h1 : x.metadata.max_num_iterations < 2 ^ 31) :
    WhileSteps isActNotComplete (fun x => (l.adapter32 check x).map Carry.rebuild) x z ↔
      WhileSteps isActNotComplete (fun x => (l.adapter check x).map Carry.rebuild) x z := by
  have hinc : ∀ {x : Carry α}, 0 ≤ x.metadata.num_iterations →
      x.metadata.max_num_iterations < 2 ^ 31 → isActNotComplete x = true →
      l.adapter32 check x = l.adapter check x := by
    intro x h0 h1 hc
    simp only [isActNotComplete, Bool.and_eq_true, decide_eq_true_eq] at hc
    exact adapter32_eq l check (increase32 h0 (by omega))
  constructor
  · intro h
    induction h with
    | stop x hc => exact .stop x hc
    | next x y z hc hs _ ih =>
      rw [hinc h0 h1 hc] at hs
      have hm := step_meta hs
      exact .next x y z hc hs (ih (by rw [hm]; exact Int.add_nonneg h0 (by decide))
        (by rw [hm]; exact h1))
  · intro h
    induction h with
    | stop x hc => exact .stop x hc
    | next x y z hc hs _ ih =>
      have hm := step_meta hs
      refine .next x y z hc ?_ (ih (by rw [hm]; exact Int.add_nonneg h0 (by decide))
        (by rw [hm]; exact h1))
      rw [hinc h0 h1 hc]
      exact hs

/-- C75: the counter of the loop never overflows.  With an int32 counter that wraps around, and any
`max_iterations` that is an int32, `execute_act` has the outcomes it has with a counter that does not
overflow. -/
theorem C75_no_overflow (l : Layer α) (s0 : PyTree (Leaf α)) (dep : α) (max : Int) (check : Bool)
    (hmax : max < 2 ^ 31) (r : Res (Controller α × PyTree (Leaf α))) :
    l.ExecuteAct32 s0 dep max check r ↔ l.ExecuteAct s0 dep max check r := by
  unfold Layer.ExecuteAct32 Layer.ExecuteAct
  cases l.prepare check s0 dep with
  | error e => rfl
  | ok c =>
    have hb : l.adapter32 check (Carry.rebuild ⟨c, s0, ⟨0, max⟩⟩) =
        l.adapter check (Carry.rebuild ⟨c, s0, ⟨0, max⟩⟩) :=
      adapter32_eq l check (increase32 (m := ⟨0, max⟩) (le_refl (0 : Int)) (by show (0 : Int) < _; decide))
    have hw : ∀ q, WhileLoop Carry.sig Carry.rebuild isActNotComplete (l.adapter32 check)
          ⟨c, s0, ⟨0, max⟩⟩ q ↔
        WhileLoop Carry.sig Carry.rebuild isActNotComplete (l.adapter check) ⟨c, s0, ⟨0, max⟩⟩ q := by
      intro q
      unfold WhileLoop
      rw [hb]
      cases Carry.sig (Carry.mk c s0 ⟨0, max⟩) with
      | none => rfl
      | some t =>
        dsimp only
        cases l.adapter check (Carry.rebuild ⟨c, s0, ⟨0, max⟩⟩) with
        | error e => rfl
        | ok out =>
          dsimp only
          split
          · refine exists_congr fun z => and_congr_left fun _ => ?_
            exact steps32 (le_refl (0 : Int)) hmax
          · rfl
    simp only [hw]

/-! ### Examples -/

open Fixtures

/-- A carry with a dictionary as user state. -/
private def demo : Carry ℚ :=
  ⟨⟨simple⟩, .node (.dict ["b", "a"]) [bare (vec [1, 2]), bare (col 3 4)], ⟨3, 10⟩⟩

/-- It has eleven leaves, the two counts being the last ones, and `while_loop` accepts it. -/
example : (treeFlattenCarry demo.raw).1.length = 11 ∧ Option.none ∉ demo.types.2 ∧
    demo.types.2.drop 7 =
      [some ⟨[2, 1], .f32⟩, some ⟨[2], .f32⟩, some ⟨[], .i32⟩, some ⟨[], .i32⟩] := by decide +kernel

/-- A string as `error_mode` is a leaf without a type. -/
example : Option.none ∈ (Carry.mk ⟨{ simple with error_mode := some "standard" }⟩
    (bare (vec [1, 2])) ⟨0, 10⟩).types.2 := by decide +kernel

/-- The metadata with two counts from an array of traced values. -/
example : (treeFlattenMeta (⟨.leaf 3, .leaf 10⟩ : RawMeta Nat)).1 = [3, 10] ∧
    ∃ r : RawMeta String, treeUnflattenMeta (treeFlattenMeta (⟨.leaf 3, .leaf 10⟩ : RawMeta Nat)).2
      ["n", "max"] = .ok r ∧ (treeFlattenMeta r).1 = ["n", "max"] := by
  refine ⟨rfl, ⟨.leaf "n", .leaf "max"⟩, rfl, rfl⟩

/-- The addition does wrap around: at `2^31 - 1` one more is negative. -/
example : addInt32 (2 ^ 31 - 1) 1 = - 2 ^ 31 ∧ addInt32 9 1 = 10 := by decide

end JaxAct
