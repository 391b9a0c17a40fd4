import Verif.Props.C32

/-! # C72 Views of views

`transform` composes, and masks are combined by "and". -/

namespace JaxAct

namespace PyTree
variable {β γ δ : Type}

theorem forall₂_comp {f : β → Res γ} {g : γ → Res δ} : ∀ {xs : List β} {zs : List δ},
    List.Forall₂ (fun x z => (f x >>= g) = .ok z) xs zs ↔
      ∃ ys, List.Forall₂ (fun x y => f x = .ok y) xs ys ∧
        List.Forall₂ (fun y z => g y = .ok z) ys zs
  | [], zs => by
    constructor
    · intro h; cases h; exact ⟨[], .nil, .nil⟩
    · rintro ⟨ys, h1, h2⟩; cases h1; cases h2; exact .nil
  | x :: xs, zs => by
    constructor
    · intro h
      cases h with
      | cons h1 h2 =>
        obtain ⟨y, h3, h4⟩ := bind_ok.1 h1
        obtain ⟨ys, h5, h6⟩ := forall₂_comp.1 h2
        exact ⟨y :: ys, .cons h3 h5, .cons h4 h6⟩
    · rintro ⟨ys, h1, h2⟩
      cases h1 with
      | cons h3 h4 =>
        cases h2 with
        | cons h5 h6 => exact .cons (bind_ok.2 ⟨_, h3, h5⟩) (forall₂_comp.2 ⟨_, h4, h6⟩)

theorem treeMap_comp {f : β → Res γ} {g : γ → Res δ} {t : PyTree β} {r : PyTree δ} :
    t.treeMap (fun x => f x >>= g) = .ok r ↔ ∃ m, t.treeMap f = .ok m ∧ m.treeMap g = .ok r := by
  simp only [treeMap_ok_iff, forall₂_comp]
  constructor
  · rintro ⟨h1, ys, h2, h3⟩
    obtain ⟨m, hm⟩ := treeUnflatten_ok (d := t.treeStructure) (ls := ys)
      (by rw [← h2.length_eq, treeStructure_leaves_length])
    obtain ⟨h4, h5⟩ := treeUnflatten_ok_iff.1 hm
    have hc := flatten_of_struct h4
    refine ⟨m, ⟨h4, h5 ▸ h2⟩, ?_, ?_⟩
    · rw [treeStructure, hc, h4, h1]
    · rw [treeLeaves, hc, h5]; exact h3
  · rintro ⟨m, ⟨h1, h2⟩, h3, h4⟩
    have hc := flatten_of_struct h1
    rw [treeStructure, hc, h1] at h3
    rw [treeLeaves, hc] at h4
    exact ⟨h3, m.leaves, h2, h4⟩

end PyTree

theorem Dict.mapM_comp {V W X : Type} {f : V → Res W} {g : W → Res X} {k : V → Res X}
    (hk : ∀ v r, k v = .ok r ↔ ∃ m, f v = .ok m ∧ g m = .ok r) : ∀ {d : Dict V} {r : Dict X},
    d.mapM k = .ok r ↔ ∃ m, d.mapM f = .ok m ∧ m.mapM g = .ok r
  | [], r => by simp [Dict.mapM]
  | (n, v) :: d, r => by
    simp only [Dict.mapM, bind_ok, hk, Dict.mapM_comp hk (d := d), pure_eq_ok]
    constructor
    · rintro ⟨x, ⟨w, h1, h2⟩, r', ⟨m, h3, h4⟩, h5⟩
      refine ⟨(n, w) :: m, ⟨w, h1, m, h3, rfl⟩, ?_⟩
      simp only [Dict.mapM, bind_ok]
      exact ⟨x, h2, r', h4, h5⟩
    · rintro ⟨m, ⟨w, h1, m', h2, h3⟩, h4⟩
      cases h3
      simp only [Dict.mapM, bind_ok] at h4
      obtain ⟨x, h5, r', h6, h7⟩ := h4
      exact ⟨x, ⟨w, h1, h5⟩, r', ⟨m', h2, h6⟩, h7⟩

namespace Viewer
variable {α : Type}

theorem transform_ok_iff {v v' : Viewer α} {f : Tensor α → Res (Tensor α)} :
    v.transform f = .ok v' ↔ ∃ it re pr ac de, f v.state.iterations = .ok it ∧
      f v.state.residuals = .ok re ∧ f v.state.probabilities = .ok pr ∧
      Dict.mapM (PyTree.treeMap (onLeaf f)) v.state.accumulators = .ok ac ∧
      Dict.mapM (PyTree.treeMap (onLeaf f)) v.state.defaults = .ok de ∧
      v' = ⟨{ v.state with iterations := it, residuals := re, probabilities := pr,
                           accumulators := ac, defaults := de, updates := de }⟩ := by
  unfold transform
  simp only [bind_ok, Prod.exists, wrapRuntime_ok, transformBody, ACTStates.replace]
  constructor
  · rintro ⟨it, re, pr, ac, de, up, ⟨a1, g1, a2, g2, a3, g3, a4, g4, a5, g5, a6, g6, h1⟩, s, h2, h3⟩
    rw [g5] at g6
    cases g6
    cases h1
    cases h2
    cases h3
    exact ⟨_, _, _, _, _, g1, g2, g3, g4, g5, rfl⟩
  · rintro ⟨it, re, pr, ac, de, g1, g2, g3, g4, g5, rfl⟩
    exact ⟨it, re, pr, ac, de, de, ⟨it, g1, re, g2, pr, g3, ac, g4, de, g5, de, g5, rfl⟩, _, rfl, rfl⟩

theorem onLeaf_comp {f g : Tensor α → Res (Tensor α)} (l : Leaf α) (r : Leaf α) :
    onLeaf (fun t => f t >>= g) l = .ok r ↔ (onLeaf f l >>= onLeaf g) = .ok r := by
  simp only [onLeaf_ok_iff, bind_ok]
  constructor
  · rintro ⟨a, b, h1, ⟨m, h2, h3⟩, h4⟩
    exact ⟨.tensor m, ⟨a, m, h1, h2, rfl⟩, m, b, rfl, h3, h4⟩
  · rintro ⟨l', ⟨a, m, h1, h2, h3⟩, m', b, h4, h5, h6⟩
    rw [h3] at h4
    cases h4
    exact ⟨a, b, h1, ⟨m, h2, h5⟩, h6⟩

theorem treeMap_onLeaf_comp {f g : Tensor α → Res (Tensor α)} (t r : PyTree (Leaf α)) :
    t.treeMap (onLeaf fun t => f t >>= g) = .ok r ↔
      ∃ m, t.treeMap (onLeaf f) = .ok m ∧ m.treeMap (onLeaf g) = .ok r := by
  rw [← PyTree.treeMap_comp]
  simp only [PyTree.treeMap_ok_iff, onLeaf_comp]

theorem res_ext {β : Type} {x y : Res β} (hx : ∀ e, x = .error e → e = .runtimeError)
    (hy : ∀ e, y = .error e → e = .runtimeError) (h : ∀ v, x = .ok v ↔ y = .ok v) : x = y := by
  cases x with
  | ok v => exact ((h v).1 rfl).symm
  | error e =>
    cases y with
    | ok v => exact (h v).2 rfl
    | error e' => rw [hx e rfl, hy e' rfl]

/-- C72: transforming twice is transforming once with the composed function: the same viewer or the
same exception, for all functions, in any arithmetic. -/
theorem C72_transform_transform (v : Viewer α) (f g : Tensor α → Res (Tensor α)) :
    (v.transform f >>= fun w => w.transform g) = v.transform (fun t => f t >>= g) := by
  refine res_ext ?_ (fun e he => transform_error he) fun v' => ?_
  · intro e he
    rcases bind_error.1 he with h | ⟨w, -, h⟩
    · exact transform_error h
    · exact transform_error h
  · rw [bind_ok]
    simp only [transform_ok_iff, bind_ok, Dict.mapM_comp (treeMap_onLeaf_comp (f := f) (g := g))]
    constructor
    · rintro ⟨w, ⟨it, re, pr, ac, de, h1, h2, h3, h4, h5, rfl⟩, it', re', pr', ac', de', g1, g2, g3, g4,
        g5, rfl⟩
      exact ⟨it', re', pr', ac', de', ⟨it, h1, g1⟩, ⟨re, h2, g2⟩, ⟨pr, h3, g3⟩, ⟨ac, h4, g4⟩,
        ⟨de, h5, g5⟩, rfl⟩
    · rintro ⟨it', re', pr', ac', de', ⟨it, h1, g1⟩, ⟨re, h2, g2⟩, ⟨pr, h3, g3⟩, ⟨ac, h4, g4⟩,
        ⟨de, h5, g5⟩, rfl⟩
      exact ⟨_, ⟨it, re, pr, ac, de, h1, h2, h3, h4, h5, rfl⟩, it', re', pr', ac', de', g1, g2, g3, g4,
        g5, rfl⟩

/-- Functions that agree on the tensors of a viewer transform it alike. -/
theorem transform_congr {v : Viewer α} {f g : Tensor α → Res (Tensor α)}
    (h1 : f v.state.iterations = g v.state.iterations)
    (h2 : f v.state.residuals = g v.state.residuals)
    (h3 : f v.state.probabilities = g v.state.probabilities)
    (h4 : ∀ n t, (n, t) ∈ v.state.accumulators → ∀ l ∈ t.treeLeaves, onLeaf f l = onLeaf g l)
    (h5 : ∀ n t, (n, t) ∈ v.state.defaults → ∀ l ∈ t.treeLeaves, onLeaf f l = onLeaf g l) :
    v.transform f = v.transform g := by
  have tree : ∀ t : PyTree (Leaf α), (∀ l ∈ t.treeLeaves, onLeaf f l = onLeaf g l) →
      t.treeMap (onLeaf f) = t.treeMap (onLeaf g) := by
    intro t ht
    unfold PyTree.treeMap
    have : ∀ ls : List (Leaf α), (∀ l ∈ ls, onLeaf f l = onLeaf g l) →
        PyTree.mapMRes (onLeaf f) ls = PyTree.mapMRes (onLeaf g) ls := by
      intro ls
      induction ls with
      | nil => intro _; rfl
      | cons l ls ih =>
        intro hl
        simp only [PyTree.mapMRes]
        rw [hl l (by simp), ih fun x hx => hl x (by simp [hx])]
    rw [this _ ht]
  have dict : ∀ d : Dict (PyTree (Leaf α)),
      (∀ n t, (n, t) ∈ d → ∀ l ∈ t.treeLeaves, onLeaf f l = onLeaf g l) →
      d.mapM (PyTree.treeMap (onLeaf f)) = d.mapM (PyTree.treeMap (onLeaf g)) := by
    intro d
    induction d with
    | nil => intro _; rfl
    | cons a d ih =>
      obtain ⟨n, t⟩ := a
      intro h
      simp only [Dict.mapM]
      rw [tree t (h n t (by simp)), ih fun m u hu => h m u (by simp [hu])]
  unfold transform transformBody
  rw [h1, h2, h3, dict _ h4, dict _ h5]

end Viewer

/-! ### Masks -/

section Exact
open Viewer
variable {K : Type} [Field K] [LinearOrder K]
attribute [local instance] Arith.exact

/-- The mask applied to a number. -/
private def keepIf (m : Option Bool) (x : Option K) : Option K :=
  m.bind fun b => x.map fun y => if b then y else 0

private theorem applyMask_ofMask {m : Arr Bool} {t : Tensor K} (hp : m.shape <+: t.shape) :
    ∃ r, applyMask (Tensor.ofMask m) t = .ok r ∧ r.shape = t.shape ∧ r.dtype = t.dtype ∧
      ∀ i, r.at? i = keepIf (m.at? (i.take m.shape.length)) (t.at? i) := by
  obtain ⟨r, h1, h2, h3, h4⟩ := applyMask_prefix (mask := Tensor.ofMask (α := K) m) (t := t) rfl hp
  refine ⟨r, h1, h2, h3, fun i => ?_⟩
  by_cases hi : InB t.shape i
  · have hl : (i.take m.shape.length).length = m.shape.length := by
      rw [List.length_take, hi.length, min_eq_left hp.length_le]
    have := h4 (i.take m.shape.length) (i.drop m.shape.length) hl
    rw [List.take_append_drop] at this
    rw [this]
    have hm : (Tensor.ofMask (α := K) m).at? (i.take m.shape.length) =
        (m.at? (i.take m.shape.length)).map fun x => if x then 1 else 0 := by
      show (m.map Arith.ofBool).at? _ = _
      rw [Arr.at?_map]
      rfl
    rw [hm]
    have hf : ∀ (d : DType) (x : K), maskFactor d x = x := fun d x => by
      unfold maskFactor convS; split <;> rfl
    have hmul : ∀ (d : DType) (x y : K), Arith.mul d x y = x * y := fun _ _ _ => rfl
    unfold keepIf
    cases m.at? (i.take m.shape.length) with
    | none => rfl
    | some b =>
      cases t.at? i with
      | none => rfl
      | some x => cases b <;> simp [hf, hmul]
  · have e1 : r.at? i = none := Arr.at?_of_not (by show ¬ InB r.shape _; rw [h2]; exact hi)
    have e2 : t.at? i = none := Arr.at?_of_not hi
    rw [e1, e2]
    unfold keepIf
    cases m.at? (i.take m.shape.length) <;> rfl

/-- `m` is the entrywise "and" of `m₁` and `m₂`. -/
structure IsAnd (m m₁ m₂ : Arr Bool) : Prop where
  shape₁ : m.shape = m₁.shape
  shape₂ : m.shape = m₂.shape
  entries : ∀ i x y, m₁.at? i = some x → m₂.at? i = some y → m.at? i = some (x && y)

private theorem IsAnd.at? {m m₁ m₂ : Arr Bool} (h : IsAnd m m₁ m₂) (i : List Nat) :
    m.at? i = (m₁.at? i).bind fun x => (m₂.at? i).map fun y => x && y := by
  by_cases hi : InB m.shape i
  · obtain ⟨x, hx⟩ := Option.isSome_iff_exists.1 (Arr.at?_isSome.2 (h.shape₁ ▸ hi))
    obtain ⟨y, hy⟩ := Option.isSome_iff_exists.1 (Arr.at?_isSome.2 (h.shape₂ ▸ hi))
    rw [h.entries i x y hx hy, hx, hy]
    rfl
  · rw [Arr.at?_of_not hi, Arr.at?_of_not (h.shape₁ ▸ hi)]
    rfl

private theorem applyMask_and {m m₁ m₂ : Arr Bool} (h : IsAnd m m₁ m₂) {t : Tensor K}
    (hp : m.shape <+: t.shape) :
    (applyMask (Tensor.ofMask m₁) t >>= applyMask (Tensor.ofMask m₂)) =
      applyMask (Tensor.ofMask m) t := by
  obtain ⟨r, g1, g2, g3, g4⟩ := applyMask_ofMask (m := m₁) (t := t) (h.shape₁ ▸ hp)
  obtain ⟨q, k1, k2, k3, k4⟩ := applyMask_ofMask (m := m₂) (t := r) (by rw [g2]; exact h.shape₂ ▸ hp)
  obtain ⟨w, l1, l2, l3, l4⟩ := applyMask_ofMask (m := m) (t := t) hp
  rw [g1, ok_bind, k1, l1]
  congr 1
  refine Tensor.ext_at (by rw [k3, g3, l3]) (by rw [k2, g2, l2]) fun i => ?_
  rw [k4, g4, l4, h.at?, ← h.shape₁, ← h.shape₂]
  unfold keepIf
  cases m₁.at? (i.take m.shape.length) with
  | none => cases m₂.at? (i.take m.shape.length) <;> rfl
  | some x =>
    cases m₂.at? (i.take m.shape.length) with
    | none => rfl
    | some y =>
      cases t.at? i with
      | none => rfl
      | some z => cases x <;> cases y <;> simp

/-- C72: masking twice is masking once with the "and" of the masks. -/
theorem C72_mask_mask {v : Viewer K} (hwf : v.state.WF) {m m₁ m₂ : Arr Bool} (h : IsAnd m m₁ m₂)
    (hs : m.shape = v.state.probabilities.shape) :
    (v.maskData (Tensor.ofMask m₁) >>= fun w => w.maskData (Tensor.ofMask m₂)) =
      v.maskData (Tensor.ofMask m) := by
  have shp : ∀ m : Arr Bool, (Tensor.ofMask (α := K) m).shape = m.shape := fun _ => rfl
  have e1 : ∀ (m : Arr Bool) (w : Viewer K), m.shape = w.state.probabilities.shape →
      w.maskData (Tensor.ofMask m) = w.transform (applyMask (Tensor.ofMask m)) := by
    intro m w hw
    unfold maskData
    rw [if_neg (by simp [Tensor.ofMask]), if_neg (by rw [shp]; simp [hw])]
  have hs₁ : m₁.shape = v.state.probabilities.shape := h.shape₁.symm.trans hs
  have hs₂ : m₂.shape = v.state.probabilities.shape := h.shape₂.symm.trans hs
  have e2 : (v.maskData (Tensor.ofMask m₁) >>= fun w => w.maskData (Tensor.ofMask m₂)) =
      (v.transform (applyMask (Tensor.ofMask m₁)) >>= fun w =>
        w.transform (applyMask (Tensor.ofMask m₂))) := by
    rw [e1 m₁ v hs₁]
    cases hv : v.transform (applyMask (Tensor.ofMask m₁)) with
    | error e => rfl
    | ok w =>
      rw [ok_bind, ok_bind]
      refine e1 m₂ w ?_
      have := (transform_ok hv).probabilities
      obtain ⟨r, g1, g2, -⟩ := applyMask_ofMask (m := m₁) (t := v.state.probabilities)
        (by rw [hs₁]; exact List.prefix_refl _)
      rw [g1] at this
      cases this
      rw [g2, hs₂]
  rw [e2, C72_transform_transform, e1 m v hs]
  have leaf : ∀ l : Leaf K, (∃ a, l = Leaf.tensor a ∧ v.state.probabilities.shape <+: a.shape) →
      onLeaf (fun t => applyMask (Tensor.ofMask m₁) t >>= applyMask (Tensor.ofMask m₂)) l =
        onLeaf (applyMask (Tensor.ofMask m)) l := by
    rintro _ ⟨a, rfl, hp⟩
    show (applyMask (Tensor.ofMask m₁) a >>= applyMask (Tensor.ofMask m₂)) >>= _ = _
    rw [applyMask_and h (hs ▸ hp)]
    rfl
  refine transform_congr (applyMask_and h ?_) (applyMask_and h ?_) (applyMask_and h ?_) ?_ ?_
  · rw [hs, hwf.it_shape]; exact List.prefix_refl _
  · rw [hs, hwf.res_shape]; exact List.prefix_refl _
  · rw [hs]; exact List.prefix_refl _
  · intro n t ht l hl
    obtain ⟨a, ha, -, hp⟩ := hwf.batched n t (Dict.get?_of_mem hwf.acc_keys ht) l hl
    exact leaf l ⟨a, ha, hp⟩
  · intro n t ht l hl
    exact leaf l (WF_defaults_batched hwf (Dict.get?_of_mem hwf.def_keys ht) l hl)

private theorem masked_halted {v w : Viewer K} (hwf : v.state.WF) {m : Arr Bool}
    (hs : m.shape = v.state.probabilities.shape)
    (h : v.maskData (Tensor.ofMask m) = .ok w) :
    w.haltedBatches.shape = v.state.probabilities.shape ∧
    ∀ i y, m.at? i = some true → v.haltedBatches.at? i = some y →
      w.haltedBatches.at? i = some y := by
  obtain ⟨-, -, tr⟩ := maskData_ok h
  obtain ⟨r, g1, g2, g3, g4⟩ := applyMask_ofMask (m := m) (t := v.state.probabilities)
    (by rw [hs]; exact List.prefix_refl _)
  have hr := tr.probabilities
  rw [g1] at hr
  have hr : r = w.state.probabilities := by cases hr; rfl
  refine ⟨by rw [haltedBatches_shape, ← hr, g2], fun i y hx hy => ?_⟩
  have hb : InB v.state.probabilities.shape i := by
    rw [← hs]; exact Arr.at?_isSome.1 (by rw [hx]; rfl)
  obtain ⟨p, hp, hy'⟩ := haltedBatches_at hwf hb
  rw [hy] at hy'
  have hy' : y = decide (1 - v.state.epsilon < p) := by cases hy'; rfl
  have hw : w.state.probabilities.at? i = some p := by
    rw [← hr, g4, List.take_of_length_le (by rw [hb.length, hs]), hx, hp]
    rfl
  have : w.haltedBatches.at? i = (w.state.probabilities.at? i).map
      fun q => decide (1 - w.state.epsilon < q) := by
    unfold haltedBatches Tensor.gtFloat
    have : w.state.probabilities.dtype.isFloating = true := by rw [← hr, g3]; exact hwf.floating
    simp only [DType.withFloat_of this, Tensor.conv, if_true]
    rw [Arr.at?_map]
    rfl
  rw [this, hw, tr.epsilon, hy']
  rfl

/-- C72: the halted part of the halted part is the halted part, the unhalted part of the unhalted part
is the unhalted part, and the unhalted part of the halted part and the halted part of the unhalted
part are what masking everything gives. -/
theorem C72_parts {v : Viewer K} (hwf : v.state.WF) :
    (v.haltedOnly >>= haltedOnly) = v.haltedOnly ∧
    (v.unhaltedOnly >>= unhaltedOnly) = v.unhaltedOnly ∧
    (v.haltedOnly >>= unhaltedOnly) =
      v.maskData (Tensor.ofMask (v.haltedBatches.map fun _ => false)) ∧
    (v.unhaltedOnly >>= haltedOnly) =
      v.maskData (Tensor.ofMask (v.haltedBatches.map fun _ => false)) := by
  have hs := haltedBatches_shape v
  obtain ⟨h, hh⟩ := (C31_success_iff hwf (Tensor.ofMask v.haltedBatches)).1.2 ⟨rfl, hs⟩
  obtain ⟨u, hu⟩ := (C31_success_iff hwf (Tensor.ofMask (v.haltedBatches.map (!·)))).1.2 ⟨rfl, hs⟩
  obtain ⟨s1, t1⟩ := masked_halted hwf hs hh
  obtain ⟨s2, t2⟩ := masked_halted hwf (m := v.haltedBatches.map (!·)) hs hu
  have key : ∀ (m₁ m₂ m : Arr Bool) (w : Viewer K),
      v.maskData (Tensor.ofMask m₁) = .ok w → IsAnd m m₁ m₂ →
      m.shape = v.state.probabilities.shape →
      w.maskData (Tensor.ofMask m₂) = v.maskData (Tensor.ofMask m) := by
    intro m₁ m₂ m w hw hm hms
    have := C72_mask_mask hwf hm hms
    rw [hw, ok_bind] at this
    exact this
  have e1 : v.haltedOnly = .ok h := hh
  have e2 : v.unhaltedOnly = .ok u := hu
  rw [e1, e2]
  simp only [ok_bind]
  have val : ∀ {m : Arr Bool} {f : Bool → Bool} {i : List Nat} {x : Bool},
      (m.map f).at? i = some x ↔ ∃ y, m.at? i = some y ∧ f y = x := by
    intro m f i x
    rw [Arr.at?_map]
    simp
  refine ⟨?_, ?_, ?_, ?_⟩
  · rw [← hh]
    refine key _ _ _ h hh ⟨rfl, by rw [hs, s1], fun i x y hx hy => ?_⟩ hs
    cases x with
    | false => simp [hx]
    | true => rw [t1 i true hx hx] at hy; cases hy; simp [hx]
  · rw [← hu]
    refine key _ _ _ u hu ⟨rfl, by show v.haltedBatches.shape = u.haltedBatches.shape; rw [hs, s2],
      fun i x y hx hy => ?_⟩ hs
    obtain ⟨z, hz, rfl⟩ := val.1 hy
    obtain ⟨y', hy', rfl⟩ := val.1 hx
    cases y' with
    | true => simp [hx]
    | false => rw [t2 i false hx hy'] at hz; cases hz; simp [hx]
  · refine key _ _ _ h hh ⟨rfl, by show v.haltedBatches.shape = h.haltedBatches.shape; rw [hs, s1],
      fun i x y hx hy => ?_⟩ hs
    obtain ⟨z, hz, rfl⟩ := val.1 hy
    rw [val.2 ⟨x, hx, rfl⟩]
    cases x with
    | false => simp
    | true => rw [t1 i true hx hx] at hz; cases hz; rfl
  · refine key _ _ _ u hu ⟨rfl, by show v.haltedBatches.shape = u.haltedBatches.shape; rw [hs, s2],
      fun i x y hx hy => ?_⟩ hs
    obtain ⟨y', hy', rfl⟩ := val.1 hx
    rw [val.2 ⟨y', hy', rfl⟩]
    cases y' with
    | true => simp
    | false => rw [t2 i false hx hy'] at hy; cases hy; rfl

end Exact

section Example
open Fixtures Viewer
attribute [local instance] Arith.exact

/-- One element halted, one not; the hypotheses hold and the four views are not all the same. -/
example :
    let v : Viewer ℚ := ⟨{ fresh with probabilities := vec [1, 1/3] }⟩
    ((v.haltedOnly >>= haltedOnly).toOption.map fun w =>
      (w.state.probabilities.at? [0], w.state.probabilities.at? [1])) = some (some 1, some 0) ∧
    ((v.unhaltedOnly >>= unhaltedOnly).toOption.map fun w =>
      (w.state.probabilities.at? [0], w.state.probabilities.at? [1])) = some (some 0, some (1/3)) ∧
    ((v.unhaltedOnly >>= haltedOnly).toOption.map fun w =>
      (w.state.probabilities.at? [0], w.state.probabilities.at? [1])) = some (some 0, some 0) :=
  ⟨by decide +kernel, by decide +kernel, by decide +kernel⟩

/-- Masks that meet the hypotheses of `C72_mask_mask`. -/
example :
    IsAnd ⟨[2], fun _ _ => false⟩ ⟨[2], fun i _ => i.headD 0 == 0⟩ ⟨[2], fun i _ => i.headD 0 == 1⟩ ∧
    (⟨[2], fun _ _ => false⟩ : Arr Bool).shape = fresh.probabilities.shape ∧ fresh.WF := by
  refine ⟨⟨rfl, rfl, fun i x y hx hy => ?_⟩, rfl, fresh_wf⟩
  have hi : InB [2] i := Arr.at?_isSome.1 (by rw [hx]; rfl)
  simp only [Arr.at?, hi, dif_pos, Option.some.injEq] at hx hy ⊢
  subst hx hy
  by_cases h : i.headD 0 = 0 <;> simp_all

end Example
end JaxAct
