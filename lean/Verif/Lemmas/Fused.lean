import Verif.Model.Fused
import Verif.Lemmas.Reset
import Verif.Lemmas.Iterate

/-!
# Two controllers in lockstep whose accumulators have the same types

Contracting the sums of `_update_accumulator` changes values of accumulators and nothing else.
-/

namespace JaxAct

/-- Both succeed with related results, or both raise the same exception. -/
inductive BothRel {β γ : Type} (R : β → γ → Prop) : Res β → Res γ → Prop
  | ok {x y} (h : R x y) : BothRel R (.ok x) (.ok y)
  | error (e : Err) : BothRel R (.error e) (.error e)

theorem BothRel.bind {β γ β' γ' : Type} {R : β → γ → Prop} {S : β' → γ' → Prop} {x : Res β} {y : Res γ}
    {f : β → Res β'} {g : γ → Res γ'} (h : BothRel R x y) (hf : ∀ a b, R a b → BothRel S (f a) (g b)) :
    BothRel S (x >>= f) (y >>= g) := by
  cases h with
  | ok h => exact hf _ _ h
  | error e => exact .error e

theorem BothRel.refl {β : Type} {R : β → β → Prop} (hR : ∀ x, R x x) (x : Res β) : BothRel R x x := by
  cases x with
  | ok x => exact .ok (hR x)
  | error e => exact .error e

theorem BothRel.ite {β γ : Type} {R : β → γ → Prop} {p q : Prop} [Decidable p] [Decidable q] (hpq : p ↔ q)
    {x x' : Res β} {y y' : Res γ} (h : BothRel R x y) (h' : BothRel R x' y') :
    BothRel R (if p then x else x') (if q then y else y') := by
  by_cases hp : p
  · rw [if_pos hp, if_pos (hpq.1 hp)]; exact h
  · rw [if_neg hp, if_neg fun hq => hp (hpq.2 hq)]; exact h'

section Types
variable {α : Type}

/-- Same dtype and shape. -/
def Tensor.Alike (a b : Tensor α) : Prop := a.dtype = b.dtype ∧ a.shape = b.shape

/-- Tensors of the same dtype and shape, or the same foreign object. -/
inductive Leaf.Alike : Leaf α → Leaf α → Prop
  | tensor {a b : Tensor α} (h : a.Alike b) : Leaf.Alike (.tensor a) (.tensor b)
  | obj (o) : Leaf.Alike (.obj o) (.obj o)

/-- Same structure, leaves alike. -/
def PyTree.Alike (s t : PyTree (Leaf α)) : Prop :=
  s.treeStructure = t.treeStructure ∧ List.Forall₂ Leaf.Alike s.treeLeaves t.treeLeaves

/-- The same names in the same order, the trees alike. -/
def Dict.Alike (d e : Dict (PyTree (Leaf α))) : Prop :=
  List.Forall₂ (fun x y => x.1 = y.1 ∧ PyTree.Alike x.2 y.2) d e

theorem Tensor.Alike.refl (a : Tensor α) : a.Alike a := ⟨rfl, rfl⟩

theorem Leaf.Alike.refl : ∀ l : Leaf α, Leaf.Alike l l
  | .tensor _ => .tensor ⟨rfl, rfl⟩
  | .obj _ => .obj _

theorem PyTree.Alike.refl (t : PyTree (Leaf α)) : PyTree.Alike t t :=
  ⟨rfl, List.forall₂_same.2 fun l _ => Leaf.Alike.refl l⟩

theorem Dict.Alike.refl (d : Dict (PyTree (Leaf α))) : Dict.Alike d d :=
  List.forall₂_same.2 fun x _ => ⟨rfl, PyTree.Alike.refl x.2⟩

theorem Dict.Alike.keys {d e : Dict (PyTree (Leaf α))} (h : Dict.Alike d e) :
    Dict.keys d = Dict.keys e := by
  unfold Dict.keys
  induction h with
  | nil => rfl
  | cons h _ ih => simp only [List.map_cons, h.1, ih]

theorem Dict.Alike.get? {d e : Dict (PyTree (Leaf α))} (h : Dict.Alike d e) (n : String) :
    (Dict.get? d n = none ∧ Dict.get? e n = none) ∨
    ∃ s t, Dict.get? d n = some s ∧ Dict.get? e n = some t ∧ PyTree.Alike s t := by
  induction h with
  | nil => exact .inl ⟨rfl, rfl⟩
  | @cons x y _ _ h _ ih =>
    obtain ⟨k, s⟩ := x
    obtain ⟨k', t⟩ := y
    obtain ⟨rfl, h2⟩ := h
    simp only [Dict.get?]
    split
    · exact .inr ⟨_, _, rfl, rfl, h2⟩
    · exact ih

theorem Dict.Alike.getItem {d e : Dict (PyTree (Leaf α))} (h : Dict.Alike d e) (n : String) :
    BothRel PyTree.Alike (Dict.getItem d n) (Dict.getItem e n) := by
  unfold Dict.getItem
  rcases h.get? n with ⟨h1, h2⟩ | ⟨s, t, h1, h2, h3⟩
  · rw [h1, h2]; exact .error _
  · rw [h1, h2]; exact .ok h3

theorem Dict.Alike.set {d e : Dict (PyTree (Leaf α))} (h : Dict.Alike d e) (n : String)
    {s t : PyTree (Leaf α)} (hst : PyTree.Alike s t) : Dict.Alike (Dict.set d n s) (Dict.set e n t) := by
  induction h with
  | nil => exact .cons ⟨rfl, hst⟩ .nil
  | @cons x y _ _ h hr ih =>
    obtain ⟨k, s'⟩ := x
    obtain ⟨k', t'⟩ := y
    obtain ⟨rfl, h2⟩ := h
    simp only [Dict.set]
    split
    · exact .cons ⟨rfl, hst⟩ hr
    · exact .cons ⟨rfl, h2⟩ ih

theorem canon_node (k : Kind) (cs : List (PyTree (Leaf α))) :
    ∃ k' cs', (PyTree.node k cs).canon = .node k' cs' := by
  simp only [PyTree.canon]
  unfold PyTree.sortNode
  split <;> exact ⟨_, _, rfl⟩

theorem treeShape_alike {s t : PyTree (Leaf α)} (h : PyTree.Alike s t) :
    Controller.treeShape s = Controller.treeShape t := by
  obtain ⟨h1, h2⟩ := h
  cases s <;> cases t <;>
    first
      | rfl
      | (simp [PyTree.treeStructure, PyTree.canon, PyTree.struct, PyTree.map] at h1; done)
      | (rename_i l k cs
         obtain ⟨k', cs', e⟩ := canon_node k cs
         simp only [PyTree.treeStructure, e] at h1
         simp [PyTree.canon, PyTree.struct, PyTree.map] at h1
         done)
      | (rename_i k cs l
         obtain ⟨k', cs', e⟩ := canon_node k cs
         simp only [PyTree.treeStructure, e] at h1
         simp [PyTree.canon, PyTree.struct, PyTree.map] at h1
         done)
      | skip
  rename_i l m
  simp only [PyTree.treeLeaves, PyTree.canon, PyTree.leaves, List.forall₂_cons, List.forall₂_nil_left_iff,
    and_true] at h2
  cases h2 with
  | tensor h => exact congrArg some h.2
  | obj o => rfl

/-! ### Merging -/

theorem mergeLoop_rel {f g : Leaf α → Leaf α → Res (Leaf α)}
    {R : Leaf α → Leaf α → Prop}
    (hfg : ∀ a b u v, Leaf.Alike a b → R u v → BothRel Leaf.Alike (f a u) (g b v)) :
    ∀ {as bs us vs : List (Leaf α)}, List.Forall₂ Leaf.Alike as bs → List.Forall₂ R us vs →
    BothRel (List.Forall₂ Leaf.Alike) (Utils.mergeLoop f as us) (Utils.mergeLoop g bs vs)
  | _, _, _, _, .nil, _ => by simp only [Utils.mergeLoop]; exact .ok .nil
  | _, _, _, _, .cons _ _, .nil => by simp only [Utils.mergeLoop]; exact .ok .nil
  | _, _, _, _, .cons h hs, .cons k ks => by
    simp only [Utils.mergeLoop]
    exact (hfg _ _ _ _ h k).bind fun x y hxy => (mergeLoop_rel hfg hs ks).bind fun xs ys hxys =>
      .ok (.cons hxy hxys)

theorem unflatten_rel {s t : PyTree (Leaf α)} (h : s.treeStructure = t.treeStructure)
    {ls ms : List (Leaf α)} (hl : List.Forall₂ Leaf.Alike ls ms) :
    BothRel PyTree.Alike (PyTree.treeUnflatten s.treeStructure ls)
      (PyTree.treeUnflatten t.treeStructure ms) := by
  cases h1 : PyTree.treeUnflatten s.treeStructure ls with
  | error e =>
    obtain ⟨rfl, h3⟩ := PyTree.treeUnflatten_error h1
    cases h2 : PyTree.treeUnflatten t.treeStructure ms with
    | error e' =>
      obtain ⟨rfl, -⟩ := PyTree.treeUnflatten_error h2
      exact .error _
    | ok t' =>
      obtain ⟨e1, e2⟩ := PyTree.treeUnflatten_ok_iff.1 h2
      refine absurd ?_ h3
      rw [hl.length_eq, ← e2, h, ← e1]
      exact (PyTree.leaves_struct_length _).symm
  | ok s' =>
    obtain ⟨e1, e2⟩ := PyTree.treeUnflatten_ok_iff.1 h1
    obtain ⟨t', h2⟩ := PyTree.treeUnflatten_ok (d := t.treeStructure) (ls := ms) (by
      rw [← hl.length_eq, ← e2, ← h, ← e1]
      exact (PyTree.leaves_struct_length _).symm)
    rw [h2]
    obtain ⟨a1, a2, -⟩ := PyTree.unflatten_treeStructure h1
    obtain ⟨b1, b2, -⟩ := PyTree.unflatten_treeStructure h2
    exact .ok ⟨by rw [a1, b1, h], by rw [a2, b2]; exact hl⟩

theorem mergePytrees_rel {f g : Leaf α → Leaf α → Res (Leaf α)} {R : Leaf α → Leaf α → Prop}
    (hfg : ∀ a b u v, Leaf.Alike a b → R u v → BothRel Leaf.Alike (f a u) (g b v))
    {s t u v : PyTree (Leaf α)} (h : PyTree.Alike s t) (hu : List.Forall₂ R u.treeLeaves v.treeLeaves) :
    BothRel PyTree.Alike (Utils.mergePytrees f s u) (Utils.mergePytrees g t v) := by
  unfold Utils.mergePytrees
  simp only
  rw [h.2.length_eq, hu.length_eq]
  split
  · exact .error _
  · exact (mergeLoop_rel hfg h.2 hu).bind fun ls ms hl => unflatten_rel h.1 hl

/-! ### Leaves -/

variable [Arith α]

theorem binop_rel (op op' : DType → α → α → α) {a b u v : Tensor α} (h : a.Alike b) (k : u.Alike v) :
    BothRel Tensor.Alike (Tensor.binop op a u) (Tensor.binop op' b v) := by
  cases h1 : Tensor.binop op a u with
  | error e =>
    obtain ⟨e1, rfl⟩ := Tensor.binop_error h1
    cases h2 : Tensor.binop op' b v with
    | error e' =>
      obtain ⟨-, rfl⟩ := Tensor.binop_error h2
      rw [h.2, k.2]; exact .error _
    | ok r =>
      obtain ⟨-, e2, -⟩ := Tensor.binop_ok h2
      rw [← h.2, ← k.2, e1] at e2; cases e2
  | ok r =>
    obtain ⟨e0, e1, -⟩ := Tensor.binop_ok h1
    obtain ⟨r', h2, h3⟩ := Tensor.binop_of (op := op') (a := b) (b := v) (s := r.shape)
      (by rw [← h.2, ← k.2]; exact e1)
    obtain ⟨e2, -, -⟩ := Tensor.binop_ok h2
    rw [h2]
    exact .ok ⟨by rw [e0, e2, h.1, k.1], h3.symm⟩

omit [Arith α] in
theorem select_rel (p : Arr Bool) {a b u v : Tensor α} (h : a.Alike b) (k : u.Alike v) :
    BothRel Tensor.Alike (Tensor.select p a u) (Tensor.select p b v) := by
  obtain ⟨h1, h2⟩ := h
  obtain ⟨k1, k2⟩ := k
  simp only [Tensor.shape] at h2 k2
  unfold Tensor.select
  have e1 : (a.arr.shape = u.arr.shape ∧ a.dtype = u.dtype) ↔ (b.arr.shape = v.arr.shape ∧ b.dtype = v.dtype) := by
    rw [h1, h2, k1, k2]
  by_cases hs : a.arr.shape = u.arr.shape ∧ a.dtype = u.dtype
  · rw [dif_pos hs, dif_pos (e1.1 hs)]
    by_cases hp : p.shape = a.arr.shape
    · rw [dif_pos hp, dif_pos (hp.trans h2)]
      exact .ok ⟨h1, h2⟩
    · rw [dif_neg hp, dif_neg (show ¬ p.shape = b.arr.shape from fun h => hp (h.trans h2.symm))]
      split
      · exact .ok ⟨h1, h2⟩
      · exact .error _
  · rw [dif_neg hs, dif_neg fun h => hs (e1.2 h)]
    exact .error _

theorem fusedSum_rel (fma : DType → α → α → α → α) {a b : Tensor α} (h : a.Alike b) (w u : Tensor α) :
    BothRel Tensor.Alike (fusedSum fma a w u)
      (do let m ← Tensor.binop Arith.mul w u; Tensor.binop Arith.add b m) := by
  unfold fusedSum
  simp only
  split
  · rename_i hd
    cases h1 : Arr.bmap2 Prod.mk (Tensor.conv (DType.promote w.dtype u.dtype) w).arr
        (Tensor.conv (DType.promote w.dtype u.dtype) u).arr with
    | none =>
      rw [Arr.bmap2_eq_none] at h1
      have h1' : Arr.bshape w.shape u.shape = none := by simpa using h1
      cases h2 : Tensor.binop Arith.mul w u with
      | error e => obtain ⟨-, rfl⟩ := Tensor.binop_error h2; exact .error _
      | ok r => obtain ⟨-, e2, -⟩ := Tensor.binop_ok h2; rw [h1'] at e2; cases e2
    | some xy =>
      have e1 := Arr.bmap2_shape h1
      have e1' : Arr.bshape w.shape u.shape = some xy.shape := by simpa using e1
      obtain ⟨m, h2, h3⟩ := Tensor.binop_of (op := Arith.mul) e1'
      obtain ⟨e2, -, -⟩ := Tensor.binop_ok h2
      rw [h2, ok_bind]
      simp only
      cases h4 : Arr.bmap2 (fun z xy => fma (DType.promote w.dtype u.dtype) xy.1 xy.2 z)
          (Tensor.conv (DType.promote w.dtype u.dtype) a).arr xy with
      | none =>
        rw [Arr.bmap2_eq_none] at h4
        have h4' : Arr.bshape a.shape xy.shape = none := by simpa using h4
        cases h5 : Tensor.binop Arith.add b m with
        | error e =>
          obtain ⟨-, rfl⟩ := Tensor.binop_error h5
          rw [h.2, h3]; exact .error _
        | ok r =>
          obtain ⟨-, e5, -⟩ := Tensor.binop_ok h5
          rw [← h.2, h3, h4'] at e5; cases e5
      | some r =>
        have e4 := Arr.bmap2_shape h4
        have e4' : Arr.bshape a.shape xy.shape = some r.shape := by simpa using e4
        obtain ⟨r', h5, h6⟩ := Tensor.binop_of (op := Arith.add) (a := b) (b := m) (s := r.shape)
          (by rw [← h.2, h3]; exact e4')
        obtain ⟨e5, -, -⟩ := Tensor.binop_ok h5
        rw [h5]
        exact .ok ⟨by rw [e5, e2, ← h.1]; exact hd.symm, h6.symm⟩
  · exact (BothRel.refl (R := fun x y => x = y) (fun _ => rfl) (Tensor.binop Arith.mul w u)).bind
      fun x y e => by subst e; exact binop_rel _ _ h (Tensor.Alike.refl _)

namespace Controller

theorem updateFused_rel (fma : DType → α → α → α → α) {c d : Controller α}
    (hc : c.haltedBatches = d.haltedBatches) (w : Tensor α) {a b : Leaf α} (h : Leaf.Alike a b)
    (u : Leaf α) : BothRel Leaf.Alike (c.updateFused fma a u w) (d.updateAccumulator b u w) := by
  cases h with
  | obj o => exact .error _
  | tensor h =>
    rename_i a b
    cases u with
    | obj o => exact .error _
    | tensor u =>
      unfold updateFused updateAccumulator
      simp only [Leaf.asTensor, ok_bind]
      rw [h.2, hc]
      split
      · exact .error _
      · refine (BothRel.refl (R := fun x y => x = y) (fun _ => rfl) _).bind fun x _ e => ?_
        subst e
        refine (BothRel.refl (R := fun x y => x = y) (fun _ => rfl) _).bind fun y _ e => ?_
        subst e
        refine (BothRel.refl (R := fun x y => x = y) (fun _ => rfl) _).bind fun z _ e => ?_
        subst e
        have e : (do
            let m ← Tensor.binop Arith.mul x u
            let new ← Tensor.binop Arith.add b m
            let r ← Tensor.select z b new
            pure (Leaf.tensor r) : Res (Leaf α)) = (do
              let m ← Tensor.binop Arith.mul x u
              Tensor.binop Arith.add b m) >>= fun new => Tensor.select z b new >>= fun r =>
                pure (Leaf.tensor r) := by rw [bind_assoc]
        rw [e]
        exact (fusedSum_rel fma h x u).bind fun r r' hr => (select_rel z h hr).bind fun q q' hq =>
          .ok (Leaf.Alike.tensor hq)

theorem commitLoopFused_rel (fma : DType → α → α → α → α) {c d : Controller α}
    (hc : c.haltedBatches = d.haltedBatches) (w : Tensor α) : ∀ (names : List String)
    {a b : Dict (PyTree (Leaf α))} (u : Dict (PyTree (Leaf α))), Dict.Alike a b →
    BothRel (fun x y => Dict.Alike x.1 y.1 ∧ x.2 = y.2) (c.commitLoopFused fma w names a u)
      (d.commitLoop w names b u)
  | [], _, _, _, h => .ok ⟨h, rfl⟩
  | n :: names, a, b, u, h => by
    have key : BothRel PyTree.Alike (c.commitOneFused fma w a u n) (d.commitOne w b u n) := by
      unfold commitOneFused commitOne
      refine (h.getItem n).bind fun s t hst => ?_
      refine (BothRel.refl (R := fun x y => x = y) (fun _ => rfl) _).bind fun y _ e => ?_
      subst e
      split
      · exact .error _
      · exact mergePytrees_rel (R := fun x y => x = y) (fun a b u v hab huv => by
          subst huv; exact updateFused_rel fma hc w hab u) hst (List.forall₂_eq_eq_eq ▸ rfl)
    unfold commitLoopFused commitLoop
    cases hx : c.commitOneFused fma w a u n with
    | error e =>
      rw [hx] at key
      cases key' : d.commitOne w b u n with
      | error e' => exact .error _
      | ok t => rw [key'] at key; cases key
    | ok s =>
      rw [hx] at key
      cases key' : d.commitOne w b u n with
      | error e' => rw [key'] at key; cases key
      | ok t =>
        rw [key'] at key
        cases key with
        | ok hst => exact commitLoopFused_rel fma hc w names _ (h.set n hst)

/-- Alike states: the accumulators alike, the rest the same. -/
structure Alike (c d : Controller α) : Prop where
  accumulators : Dict.Alike c.state.accumulators d.state.accumulators
  rest : d.state = { c.state with accumulators := d.state.accumulators }

omit [Arith α] in
theorem Alike.refl (c : Controller α) : Alike c c := ⟨Dict.Alike.refl _, rfl⟩

theorem Alike.iterate (fma : DType → α → α → α → α) {c d : Controller α} (h : Alike c d) (x : Tensor α) :
    BothRel Alike (c.iterateFusedSums fma x) (d.iterateAct x) := by
  obtain ⟨s⟩ := c
  obtain ⟨t⟩ := d
  obtain ⟨h1, h2⟩ := h
  simp only at h1 h2
  generalize t.accumulators = B at h1 h2
  subst h2
  unfold iterateFusedSums iterateAct
  refine BothRel.ite Iff.rfl (.error _) ?_
  · refine (BothRel.refl (R := fun x y => x = y) (fun _ => rfl) (processProbabilities ⟨s⟩ x.clip01)).bind
      fun y _ e => ?_
    subst e
    obtain ⟨w, r, p⟩ := y
    have hk : (Controller.accumulators ⟨s⟩).keys =
        (Controller.accumulators ⟨{ s with accumulators := B }⟩).keys := h1.keys
    simp only [hk]
    refine (commitLoopFused_rel fma (c := ⟨s⟩) (d := ⟨{ s with accumulators := B }⟩) rfl w _ s.updates h1).bind
      fun a b hab => ?_
    obtain ⟨a, u⟩ := a
    obtain ⟨b, v⟩ := b
    obtain ⟨hab, huv⟩ := hab
    simp only at hab huv
    subst huv
    simp only
    refine (BothRel.refl (R := fun x y => x = y) (fun _ => rfl)
      (Tensor.select (haltedBatches ⟨s⟩) s.iterations s.iterations.addOne)).bind fun y _ e => ?_
    subst e
    rw [ACTStates.replace_core, ACTStates.replace_core, ok_bind, ok_bind]
    exact .ok ⟨hab, rfl⟩

omit [Arith α] in
theorem resetLoop_rel (m : Arr Bool) (defaults : Dict (PyTree (Leaf α))) :
    ∀ {a b : Dict (PyTree (Leaf α))}, Dict.Alike a b → ∀ {o o' : Dict (PyTree (Leaf α))}, Dict.Alike o o' →
    BothRel Dict.Alike (resetLoop m defaults a o) (resetLoop m defaults b o')
  | _, _, .nil, _, _, h => .ok h
  | (n, s) :: as, (n', t) :: bs, .cons hx hr, o, o', h => by
    obtain ⟨e, hst⟩ := hx
    simp only at e hst
    subst e
    simp only [resetLoop]
    refine (BothRel.refl (R := fun x y => x = y) (fun _ => rfl) (Dict.getItem defaults n)).bind fun y _ e => ?_
    subst e
    refine (mergePytrees_rel (R := fun x y => x = y) (fun a b u v hab huv => ?_) hst
      (List.forall₂_eq_eq_eq ▸ rfl)).bind fun p q hpq => resetLoop_rel m defaults hr (h.set n hpq)
    subst huv
    unfold resetLeaf
    rw [treeShape_alike hst]
    refine (BothRel.refl (R := fun x y => x = y) (fun _ => rfl) _).bind fun y _ e => ?_
    subst e
    cases hab with
    | obj o => exact .error _
    | tensor hab =>
      rename_i a b
      simp only [Leaf.asTensor, ok_bind]
      rw [hab.2]
      refine (BothRel.refl (R := fun x y => x = y) (fun _ => rfl) _).bind fun z _ e => ?_
      subst e
      refine (BothRel.refl (R := fun x y => x = y) (fun _ => rfl) _).bind fun z' _ e => ?_
      subst e
      exact (select_rel z hab (Tensor.Alike.refl _)).bind fun q q' hq => .ok (Leaf.Alike.tensor hq)

theorem Alike.reset {c d : Controller α} (h : Alike c d) : BothRel Alike c.resetBatches d.resetBatches := by
  obtain ⟨s⟩ := c
  obtain ⟨t⟩ := d
  obtain ⟨h1, h2⟩ := h
  simp only at h1 h2
  generalize t.accumulators = B at h1 h2
  subst h2
  unfold resetBatches
  simp only
  split
  · exact .error _
  · refine (BothRel.refl (R := fun x y => x = y) (fun _ => rfl) _).bind fun y _ e => ?_
    subst e
    refine (BothRel.refl (R := fun x y => x = y) (fun _ => rfl) _).bind fun z _ e => ?_
    subst e
    refine (BothRel.refl (R := fun x y => x = y) (fun _ => rfl) _).bind fun w _ e => ?_
    subst e
    refine (resetLoop_rel _ _ h1 (.nil)).bind fun a b hab => ?_
    rw [ACTStates.replace_core, ACTStates.replace_core, ok_bind, ok_bind]
    exact .ok ⟨hab, rfl⟩

omit [Arith α] in
theorem Alike.cache {c d : Controller α} (h : Alike c d) (n : String) (x : PyTree (Leaf α)) :
    BothRel Alike (c.cacheUpdate n x) (d.cacheUpdate n x) := by
  obtain ⟨s⟩ := c
  obtain ⟨t⟩ := d
  obtain ⟨h1, h2⟩ := h
  simp only at h1 h2
  generalize t.accumulators = B at h1 h2
  subst h2
  unfold cacheUpdate
  simp only
  split
  · exact .error _
  · refine (BothRel.refl (R := fun x y => x = y) (fun _ => rfl) _).bind fun y _ e => ?_
    subst e
    split
    · exact .error _
    · rw [ACTStates.replace_core, ACTStates.replace_core, ok_bind, ok_bind]
      exact .ok ⟨h1, rfl⟩

end Controller

theorem runFusedSums_rel (fma : DType → α → α → α → α) : ∀ (ops : List (Op α)) {c d : Controller α},
    Controller.Alike c d → BothRel Controller.Alike (runFusedSums fma c ops) (run d ops)
  | [], _, _, h => .ok h
  | op :: ops, c, d, h => by
    unfold runFusedSums run
    refine BothRel.bind (R := Controller.Alike) ?_ fun c' d' h' => runFusedSums_rel fma ops h'
    cases op with
    | iterate x => exact h.iterate fma x
    | cache n x => exact h.cache n x
    | reset => exact h.reset

end Types
end JaxAct
