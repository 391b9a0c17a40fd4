import Verif.Lemmas.Builder
import Verif.Props.Fixtures

/-! # C25 define_accumulator_by_shape builds the filled tree -/

namespace JaxAct
variable {α : Type} [Arith α]
open Builder

/-- A list of ints. -/
def intList (ns : List Nat) : PyTree ShapeItem := .node .list (ns.map fun n => .leaf (.int n))

mutual
/-- Specification: the tree of tensors that a tree of shapes stands for. -/
inductive FilledFrom (dtype : DType) (fill : α) : PyTree ShapeItem → PyTree (Leaf α) → Prop
  /-- a list of ints becomes a filled tensor of that shape -/
  | shape (ns : List Nat) : FilledFrom dtype fill (intList ns)
      (.leaf (.tensor ⟨dtype, Arr.full ns (Arith.cast dtype fill)⟩))
  | none : FilledFrom dtype fill .none .none
  /-- any other container is kept -/
  | node (k : Kind) (cs : List (PyTree ShapeItem)) (ts : List (PyTree (Leaf α))) :
      (∀ ns, .node k cs ≠ intList ns) → FilledFromL dtype fill cs ts →
      FilledFrom dtype fill (.node k cs) (.node k ts)
/-- `FilledFrom` on children. -/
inductive FilledFromL (dtype : DType) (fill : α) :
    List (PyTree ShapeItem) → List (PyTree (Leaf α)) → Prop
  | nil : FilledFromL dtype fill [] []
  | cons {c t cs ts} : FilledFrom dtype fill c t → FilledFromL dtype fill cs ts →
      FilledFromL dtype fill (c :: cs) (t :: ts)
end

theorem allInts_some {cs : List (PyTree ShapeItem)} {ns : List Nat} :
    allInts cs = some ns ↔ cs = ns.map fun n => .leaf (.int n) := by
  induction cs generalizing ns with
  | nil => cases ns <;> simp [allInts]
  | cons c cs ih =>
    cases c with
    | leaf x =>
      cases x with
      | int n =>
        simp only [allInts, Option.map_eq_some_iff, ih]
        constructor
        · rintro ⟨m, rfl, rfl⟩; rfl
        · cases ns with
          | nil => simp
          | cons m ns =>
            simp only [List.map_cons, List.cons.injEq, PyTree.leaf.injEq, ShapeItem.int.injEq]
            rintro ⟨rfl, rfl⟩; exact ⟨ns, rfl, rfl, rfl⟩
      | other => cases ns <;> simp [allInts]
    | none => cases ns <;> simp [allInts]
    | node k cs => cases ns <;> simp [allInts]

/-- The filled tensor of a leaf. -/
def filledLeaf (dtype : DType) (fill : α) : ShapeLeaf → Leaf α
  | .bad => .obj ""
  | .shape s => .tensor ⟨dtype, Arr.full s (Arith.cast dtype fill)⟩

theorem collapse_intList (ns : List Nat) : collapseShapes (intList ns) = .leaf (.shape ns) := by
  simp only [intList, collapseShapes, allInts_some.2 rfl]

theorem collapse_node {k : Kind} {cs : List (PyTree ShapeItem)}
    (h : ∀ ns, PyTree.node k cs ≠ intList ns) :
    collapseShapes (.node k cs) = .node k (collapseShapesL cs) := by
  cases k with
  | list =>
    simp only [collapseShapes]
    cases h' : allInts cs with
    | some ns => exact absurd (by rw [intList, ← allInts_some.1 h']) (h ns)
    | none => rfl
  | tuple => rfl
  | user _ => rfl
  | dict ks => rfl

mutual
theorem filledFrom_iff (dtype : DType) (fill : α) : ∀ (s : PyTree ShapeItem) (t : PyTree (Leaf α)),
    FilledFrom dtype fill s t ↔ (∀ l ∈ (collapseShapes s).leaves, l ≠ .bad) ∧
      t = (collapseShapes s).map (filledLeaf dtype fill)
  | .leaf x, t => by
    constructor
    · intro h; cases h
    · rintro ⟨h, -⟩; simp [collapseShapes, PyTree.leaves] at h
  | .none, t => by
    constructor
    · intro h; cases h; simp [collapseShapes, PyTree.leaves, PyTree.map]
    · rintro ⟨-, rfl⟩; exact .none
  | .node k cs, t => by
    by_cases hi : ∃ ns, PyTree.node k cs = intList ns
    · obtain ⟨ns, hns⟩ := hi
      rw [hns, collapse_intList]
      simp only [PyTree.leaves, PyTree.map, filledLeaf, List.mem_singleton, forall_eq, ne_eq,
        reduceCtorEq, not_false_eq_true, true_and]
      constructor
      · intro h
        generalize hx : intList ns = x at h
        cases h with
        | shape ms =>
          have : ns = ms := by
            have := allInts_some.2 (PyTree.node.inj hx).2
            rw [allInts_some.2 rfl] at this
            exact Option.some.inj this
          rw [this]
        | none => cases hx
        | node k' cs' ts' hne _ => exact absurd hx.symm (hne ns)
      · rintro rfl; exact .shape ns
    · have hne : ∀ ns, PyTree.node k cs ≠ intList ns := fun ns h => hi ⟨ns, h⟩
      rw [collapse_node hne]
      simp only [PyTree.leaves, PyTree.map]
      constructor
      · intro h
        generalize hx : PyTree.node k cs = x at h
        cases h with
        | shape ms => exact absurd hx (hne ms)
        | none => cases hx
        | node k' cs' ts' _ hl =>
          cases hx
          obtain ⟨h1, h2⟩ := (filledFromL_iff dtype fill cs ts').1 hl
          exact ⟨h1, by rw [h2]⟩
      · rintro ⟨h1, rfl⟩
        exact .node _ _ _ hne ((filledFromL_iff dtype fill cs _).2 ⟨h1, rfl⟩)
theorem filledFromL_iff (dtype : DType) (fill : α) :
    ∀ (s : List (PyTree ShapeItem)) (t : List (PyTree (Leaf α))),
    FilledFromL dtype fill s t ↔ (∀ l ∈ PyTree.leavesL (collapseShapesL s), l ≠ .bad) ∧
      t = PyTree.mapL (filledLeaf dtype fill) (collapseShapesL s)
  | [], t => by
    constructor
    · intro h; cases h; simp [collapseShapesL, PyTree.leavesL, PyTree.mapL]
    · rintro ⟨-, rfl⟩; exact .nil
  | c :: cs, t => by
    simp only [collapseShapesL, PyTree.leavesL, PyTree.mapL, List.mem_append]
    constructor
    · intro h
      cases h with
      | cons h1 h2 =>
        obtain ⟨a1, a2⟩ := (filledFrom_iff dtype fill c _).1 h1
        obtain ⟨b1, b2⟩ := (filledFromL_iff dtype fill cs _).1 h2
        refine ⟨?_, by rw [a2, b2]⟩
        rintro l (hl | hl)
        · exact a1 l hl
        · exact b1 l hl
    · rintro ⟨h, rfl⟩
      exact .cons ((filledFrom_iff dtype fill c _).2 ⟨fun l hl => h l (.inl hl), rfl⟩)
        ((filledFromL_iff dtype fill cs _).2 ⟨fun l hl => h l (.inr hl), rfl⟩)
end

theorem mem_leaves_canon {β : Type} {l : β} {t : PyTree β} (ht : t.WF) :
    l ∈ t.canon.leaves ↔ l ∈ t.leaves := PyTree.mem_treeLeaves_iff ht

mutual
theorem collapse_wf : ∀ s : PyTree ShapeItem, s.WF → (collapseShapes s).WF
  | .leaf _, _ => by simp [collapseShapes, PyTree.WF]
  | .none, _ => by simp [collapseShapes, PyTree.WF]
  | .node k cs, h => by
    by_cases hi : ∃ ns, PyTree.node k cs = intList ns
    · obtain ⟨ns, hns⟩ := hi
      rw [hns, collapse_intList]; trivial
    · rw [collapse_node fun ns h => hi ⟨ns, h⟩]
      simp only [PyTree.WF] at h ⊢
      refine ⟨fun ks hk => ?_, collapseL_wf cs h.2⟩
      obtain ⟨h1, h2⟩ := h.1 ks hk
      exact ⟨h1, by rw [h2, collapseL_length]⟩
theorem collapseL_wf : ∀ s : List (PyTree ShapeItem), PyTree.WFL s →
    PyTree.WFL (collapseShapesL s)
  | [], _ => by simp [collapseShapesL, PyTree.WFL]
  | c :: cs, h => by
    simp only [PyTree.WFL, collapseShapesL] at h ⊢
    exact ⟨collapse_wf c h.1, collapseL_wf cs h.2⟩
theorem collapseL_length : ∀ s : List (PyTree ShapeItem), (collapseShapesL s).length = s.length
  | [] => rfl
  | c :: cs => by simp only [collapseShapesL, List.length_cons, collapseL_length cs]
end

theorem mapMRes_shapes_error {dtype : DType} {fill : α} {ls : List ShapeLeaf}
    (h : .bad ∈ ls) : PyTree.mapMRes (shapeToTensor dtype fill) ls = .error .valueError := by
  induction ls with
  | nil => cases h
  | cons l ls ih =>
    cases l with
    | bad => rfl
    | shape s =>
      have := ih (by simpa using h)
      simp [PyTree.mapMRes, shapeToTensor, this]

/-- C25, valid shapes: the call is `define_accumulator_directly` on the filled tree (with its dicts
in key order, the form in which JAX rebuilds them). -/
theorem C25_valid_shapes (b : Builder α) (name : String) (shapes : PyTree ShapeItem)
    (hwf : shapes.WF) (dtype : DType) (fill : α) {t : PyTree (Leaf α)}
    (h : FilledFrom dtype fill shapes t) :
    b.defineAccumulatorByShape name shapes dtype fill =
      b.defineAccumulatorDirectly name t.canon := by
  obtain ⟨h1, rfl⟩ := (filledFrom_iff dtype fill shapes t).1 h
  have : (collapseShapes shapes).treeMap (shapeToTensor dtype fill) =
      .ok ((collapseShapes shapes).map (filledLeaf dtype fill)).canon := by
    rw [PyTree.treeMap_ok_iff, PyTree.canon_map, PyTree.struct_map]
    refine ⟨rfl, ?_⟩
    rw [PyTree.leaves_map, List.forall₂_map_right_iff]
    refine List.forall₂_same.2 fun l hl => ?_
    have hb := h1 l ((mem_leaves_canon (collapse_wf _ hwf)).1 hl)
    cases l with
    | bad => exact absurd rfl hb
    | shape s => rfl
  rw [defineAccumulatorByShape, this]
  rfl

/-- C25, corrupt shapes: `ValueError` if the tree stands for no tree of tensors. -/
theorem C25_corrupt_shapes (b : Builder α) (name : String) (shapes : PyTree ShapeItem)
    (hwf : shapes.WF) (dtype : DType) (fill : α) (h : ∀ t, ¬ FilledFrom dtype fill shapes t) :
    b.defineAccumulatorByShape name shapes dtype fill = .error .valueError := by
  have hb : ShapeLeaf.bad ∈ (collapseShapes shapes).treeLeaves := by
    by_contra hb
    refine h _ ((filledFrom_iff dtype fill shapes _).2 ⟨fun l hl => ?_, rfl⟩)
    rintro rfl
    exact hb ((mem_leaves_canon (collapse_wf _ hwf)).2 hl)
  rw [defineAccumulatorByShape, PyTree.treeMap, mapMRes_shapes_error hb]
  rfl

/-- C25: a tree of shapes stands for at most one tree of tensors. -/
theorem C25_unique {dtype : DType} {fill : α} {shapes : PyTree ShapeItem} {t t' : PyTree (Leaf α)}
    (h : FilledFrom dtype fill shapes t) (h' : FilledFrom dtype fill shapes t') : t = t' := by
  rw [((filledFrom_iff dtype fill shapes t).1 h).2, ((filledFrom_iff dtype fill shapes t').1 h').2]

section Example
open Fixtures
attribute [local instance] Arith.exact

/-- `{"m": [2, 3], "n": [[2], ()]}` with fill 7. -/
def exampleShapes : PyTree ShapeItem :=
  .node (.dict ["m", "n"]) [intList [2, 3], .node .list [intList [2], .node .tuple []]]

example : FilledFrom .f32 (7 : ℚ) exampleShapes
    (.node (.dict ["m", "n"]) [.leaf (.tensor ⟨.f32, Arr.full [2, 3] 7⟩),
      .node .list [.leaf (.tensor ⟨.f32, Arr.full [2] 7⟩), .node .tuple []]]) := by
  refine .node _ _ _ (fun ns h => ?_) (.cons (.shape [2, 3]) (.cons (.node _ _ _ (fun ns h => ?_)
    (.cons (.shape [2]) (.cons (.node _ _ _ (fun ns h => ?_) .nil) .nil))) .nil))
  · cases h
  · simp [intList] at h
    cases ns <;> simp at h
  · cases h

example : raised (defineAccumulatorByShape ⟨fresh⟩ "n" exampleShapes .f32 7) = none ∧
    raised (defineAccumulatorByShape ⟨fresh⟩ "n"
      (.node .list [intList [2], .leaf (.int 3)]) .f32 7) = some .valueError ∧
    raised (defineAccumulatorByShape ⟨fresh⟩ "n" exampleShapes .i32 7) = some .typeError := by
  decide +kernel

end Example
end JaxAct
