import Verif.Props.C31

/-! # C32 halted_only and unhalted_only partition the data -/

namespace JaxAct
open Viewer
variable {K : Type} [Field K] [LinearOrder K]
attribute [local instance] Arith.exact

/-- `x` is split into a kept and a zeroed copy: `y + z = x` and one of them is zero. -/
def Split (old a b : Option K) : Prop :=
  (old = none → a = none ∧ b = none) ∧
  ∀ x, old = some x → ∃ y z, a = some y ∧ b = some z ∧ y + z = x ∧ (y = 0 ∨ z = 0)

omit [LinearOrder K] in
theorem split_keep (o : Option K) : Split o o (o.map fun _ => 0) ∧ Split o (o.map fun _ => 0) o := by
  cases o with
  | none => simp [Split]
  | some x => simp [Split]

theorem haltedBatches_at {v : Viewer K} (hwf : v.state.WF) {b : List Nat}
    (hb : InB v.state.probabilities.shape b) :
    ∃ p, v.state.probabilities.at? b = some p ∧
      v.haltedBatches.at? b = some (decide (1 - v.state.epsilon < p)) := by
  obtain ⟨p, hp⟩ := Option.isSome_iff_exists.1 (Arr.at?_isSome.2 hb)
  refine ⟨p, hp, ?_⟩
  unfold haltedBatches Tensor.gtFloat
  simp only [DType.withFloat_of hwf.floating, Tensor.conv, if_true]
  rw [Arr.at?_map, hp]
  rfl

theorem haltedBatches_shape (v : Viewer K) : v.haltedBatches.shape = v.state.probabilities.shape := by
  unfold haltedBatches Tensor.gtFloat Tensor.conv
  simp only
  split <;> rfl

/-- C32: on a well-formed viewer both calls succeed, and every entry of every accumulator and default
leaf, of probabilities, residuals and iterations is the sum of the two views' entries, at most one of
them non-zero; the entry is in the first view where the element is halted (`p > 1 - epsilon`), in the
second where it is not. -/
theorem C32_partition {v : Viewer K} (hwf : v.state.WF) :
    ∃ h u, v.haltedOnly = .ok h ∧ v.unhaltedOnly = .ok u ∧
      ∀ b, InB v.state.probabilities.shape b →
        (∀ n k rest, Split (ACTStates.entry? v.state.accumulators n k (b ++ rest))
          (ACTStates.entry? h.state.accumulators n k (b ++ rest))
          (ACTStates.entry? u.state.accumulators n k (b ++ rest))) ∧
        (∀ n k rest, Split (ACTStates.entry? v.state.defaults n k (b ++ rest))
          (ACTStates.entry? h.state.defaults n k (b ++ rest))
          (ACTStates.entry? u.state.defaults n k (b ++ rest))) ∧
        Split (v.state.probabilities.at? b) (h.state.probabilities.at? b) (u.state.probabilities.at? b) ∧
        Split (v.state.residuals.at? b) (h.state.residuals.at? b) (u.state.residuals.at? b) ∧
        Split (v.state.iterations.at? b) (h.state.iterations.at? b) (u.state.iterations.at? b) ∧
        ∀ p, v.state.probabilities.at? b = some p → ∀ n k rest,
          (1 - v.state.epsilon < p → ACTStates.entry? h.state.accumulators n k (b ++ rest) =
            ACTStates.entry? v.state.accumulators n k (b ++ rest)) ∧
          (p ≤ 1 - v.state.epsilon → ACTStates.entry? u.state.accumulators n k (b ++ rest) =
            ACTStates.entry? v.state.accumulators n k (b ++ rest)) := by
  have hs := haltedBatches_shape v
  obtain ⟨h, hh⟩ := (C31_success_iff hwf (Tensor.ofMask v.haltedBatches)).1.2 ⟨rfl, hs⟩
  obtain ⟨u, hu⟩ := (C31_success_iff hwf (Tensor.ofMask (v.haltedBatches.map (!·)))).1.2 ⟨rfl, hs⟩
  refine ⟨h, u, hh, hu, fun b hb => ?_⟩
  have hb1 : b.length = (Tensor.ofMask (α := K) v.haltedBatches).shape.length := by
    rw [hb.length, ← hs]; rfl
  obtain ⟨h1, h0⟩ := C31_exact hwf hh hb1
  obtain ⟨u1, u0⟩ := C31_exact hwf hu (b := b) hb1
  have hmask : ∀ m : Arr Bool, (Tensor.ofMask (α := K) m).at? b =
      (m.at? b).map fun x => if x then 1 else 0 := by
    intro m
    unfold Tensor.ofMask
    rw [show (Tensor.at? (α := K) ⟨.bool, m.map Arith.ofBool⟩ b) = (m.map Arith.ofBool).at? b from rfl,
      Arr.at?_map]
    rfl
  rw [hmask] at h1 h0
  rw [hmask, Arr.at?_map] at u1 u0
  obtain ⟨p, hp, hhb⟩ := haltedBatches_at hwf hb
  rw [hhb] at h1 h0 u1 u0
  simp only [Option.map_some] at h1 h0 u1 u0
  by_cases hlt : 1 - v.state.epsilon < p
  · simp only [hlt, decide_true, Bool.not_true, if_true, Bool.false_eq_true, if_false, forall_const]
      at h1 u0
    obtain ⟨a1, a2, a3, a4, a5⟩ := h1
    obtain ⟨b1, b2, b3, b4, b5⟩ := u0
    refine ⟨fun n k r => ?_, fun n k r => ?_, ?_, ?_, ?_, fun q hq n k r => ⟨fun _ => a1 n k r, ?_⟩⟩
    · rw [a1, b1]; exact (split_keep _).1
    · rw [a2, b2]; exact (split_keep _).1
    · rw [a3, b3]; exact (split_keep _).1
    · rw [a4, b4]; exact (split_keep _).1
    · rw [a5, b5]; exact (split_keep _).1
    · intro hle
      rw [hp] at hq
      cases hq
      exact absurd hlt (not_lt.2 hle)
  · simp only [hlt, decide_false, Bool.not_false, if_true, Bool.false_eq_true, if_false, forall_const]
      at h0 u1
    obtain ⟨a1, a2, a3, a4, a5⟩ := h0
    obtain ⟨b1, b2, b3, b4, b5⟩ := u1
    refine ⟨fun n k r => ?_, fun n k r => ?_, ?_, ?_, ?_, fun q hq n k r => ⟨?_, fun _ => b1 n k r⟩⟩
    · rw [a1, b1]; exact (split_keep _).2
    · rw [a2, b2]; exact (split_keep _).2
    · rw [a3, b3]; exact (split_keep _).2
    · rw [a4, b4]; exact (split_keep _).2
    · rw [a5, b5]; exact (split_keep _).2
    · intro hlt'
      rw [hp] at hq
      cases hq
      exact absurd hlt' hlt

omit [Field K] [LinearOrder K] in
theorem entry_inB {s : ACTStates K} {d : Dict (PyTree (Leaf K))}
    (hd : ∀ n t, d.get? n = some t → ∀ l ∈ t.treeLeaves, ∃ a, l = Leaf.tensor a ∧
      s.probabilities.shape <+: a.shape)
    {n : String} {k : Nat} {i : List Nat} {x : K} (h : ACTStates.entry? d n k i = some x) :
    InB s.probabilities.shape (i.take s.probabilities.shape.length) := by
  unfold ACTStates.entry? ACTStates.leaf? at h
  cases hn : d.get? n with
  | none => rw [hn] at h; cases h
  | some t =>
    rw [hn] at h
    simp only at h
    cases hk : t.treeLeaves[k]? with
    | none => rw [hk] at h; cases h
    | some l =>
      rw [hk] at h
      obtain ⟨a, rfl, r, hr⟩ := hd n t hn l (List.mem_of_getElem? hk)
      have hi : InB a.shape i := Arr.at?_isSome.1 (by
        have : a.at? i = some x := h
        show (a.at? i).isSome
        rw [this]; rfl)
      rw [← hr] at hi
      exact Arr.inB_take hi

/-- C32, the same for every entry there is in an accumulator or a default. -/
theorem C32_every_entry {v h u : Viewer K} (hwf : v.state.WF) (hh : v.haltedOnly = .ok h)
    (hu : v.unhaltedOnly = .ok u) (n : String) (k : Nat) (i : List Nat) (x : K) :
    (ACTStates.entry? v.state.accumulators n k i = some x →
      ∃ y z, ACTStates.entry? h.state.accumulators n k i = some y ∧
        ACTStates.entry? u.state.accumulators n k i = some z ∧ y + z = x ∧ (y = 0 ∨ z = 0)) ∧
    (ACTStates.entry? v.state.defaults n k i = some x →
      ∃ y z, ACTStates.entry? h.state.defaults n k i = some y ∧
        ACTStates.entry? u.state.defaults n k i = some z ∧ y + z = x ∧ (y = 0 ∨ z = 0)) := by
  obtain ⟨h', u', g1, g2, g3⟩ := C32_partition hwf
  rw [hh] at g1
  rw [hu] at g2
  cases g1
  cases g2
  have hsplit := List.take_append_drop v.state.probabilities.shape.length i
  constructor
  · intro hx
    have hb := entry_inB (s := v.state) (fun n t ht l hl => by
      obtain ⟨a, ha, -, hp⟩ := hwf.batched n t ht l hl
      exact ⟨a, ha, hp⟩) hx
    have := ((g3 _ hb).1 n k (i.drop v.state.probabilities.shape.length)).2 x (by rw [hsplit]; exact hx)
    rwa [hsplit] at this
  · intro hx
    have hb := entry_inB (s := v.state) (fun n t ht l hl => WF_defaults_batched hwf ht l hl) hx
    have := ((g3 _ hb).2.1 n k (i.drop v.state.probabilities.shape.length)).2 x
      (by rw [hsplit]; exact hx)
    rwa [hsplit] at this

section Example
open Fixtures

/-- One element halted, one not. -/
example : fresh.WF ∧
    let v : Viewer ℚ := ⟨{ fresh with probabilities := vec [1, 1/3] }⟩
    (v.haltedOnly.toOption.map fun w => (w.state.probabilities.at? [0], w.state.probabilities.at? [1],
      ACTStates.entry? w.state.accumulators "tree" 1 [0, 0],
      ACTStates.entry? w.state.accumulators "tree" 1 [1, 0])) =
      some (some 1, some 0, some 1, some 0) ∧
    (v.unhaltedOnly.toOption.map fun w => (w.state.probabilities.at? [0], w.state.probabilities.at? [1],
      ACTStates.entry? w.state.accumulators "tree" 1 [0, 0],
      ACTStates.entry? w.state.accumulators "tree" 1 [1, 0])) =
      some (some 0, some (1/3), some 0, some 1) :=
  ⟨fresh_wf, by decide +kernel, by decide +kernel⟩

end Example
end JaxAct
