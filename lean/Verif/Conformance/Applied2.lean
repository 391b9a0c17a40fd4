import Verif.Conformance.Applied1
import Verif.Props.C22
import Verif.Props.C23
import Verif.Props.C24
import Verif.Props.C25
import Verif.Props.C26
import Verif.Props.C27
import Verif.Props.C28
import Verif.Props.C29
import Verif.Props.C30
import Verif.Props.C31
import Verif.Props.C32
import Verif.Props.C33
import Verif.Props.C34
import Verif.Props.C35
import Verif.Props.C39
import Verif.Props.C42
import Verif.Props.C43
import Verif.Props.C47
import Verif.Props.C48
import Verif.Props.C49

/-!
# The theorems applied, C23 to C49

Each theorem is applied to concrete objects, so its hypotheses can be met together.
-/

namespace JaxAct.Applied
open Fixtures ACTStates
attribute [local instance] Arith.exact

/-- The same for any type of result. -/
theorem appliedTo {R : Type} {r : Res R} {P : R → Prop} (h : raised r = Option.none)
    (hP : ∀ c, r = .ok c → P c) : ∃ c, r = .ok c ∧ P c := by
  cases r with
  | error e => cases h
  | ok c => exact ⟨c, rfl, hP c rfl⟩

/-- C23 -/
example : Builder.newBuilder [2, 3] (some .i32) (1/10 : ℚ) 1 = .error .valueError ∧
    Builder.newBuilder [2, 3] (some .f32) (1 : ℚ) 1 = .error .valueError ∧
    Builder.newBuilder [2, 3] (some .f32) (1/10 : ℚ) 1 = .error .typeError :=
  ⟨(C23_value_error_iff_partial _ _ _ _).2 (.inl ⟨_, rfl, rfl⟩),
    (C23_epsilon_exact _ _ (by rintro _ ⟨⟩; rfl) _ _).2 (by norm_num),
    (C23_never_succeeds _ _ _ _).2 (by rintro _ ⟨⟩; rfl) (by decide +kernel) (by decide +kernel)⟩

/-- C23, the constructor with the missing argument -/
example := C23_fresh_with_error_mode [2, 3] (d := .bf16) rfl (1/10 : ℚ) 1 none

/-- C24 -/
example : ∃ b, Builder.defineAccumulatorDirectly ⟨fresh⟩ "new" (pair (vec [1, 2]) (col 3 4)) = .ok b ∧
    b.state.accumulators.get? "new" = some (pair (vec [1, 2]) (col 3 4)) ∧
    b.state.updates.get? "new" = some .none ∧
    b.state.defaults.get? "out" = some (bare (col 0 0)) :=
  appliedTo (by decide +kernel) fun _ h =>
    ⟨(C24_define_lookup h "new").2.1, (C24_define_lookup h "new").2.2, (C24_define_lookup h "out").1⟩

/-- C24, the second of three leaves is at fault -/
example : Builder.defineAccumulatorDirectly ⟨fresh⟩ "new"
    (.node .list [bare (vec [1, 2]), .leaf (.obj "text"), bare (vec [1, 2, 3])]) = .error .typeError :=
  (C24_define_error_iff _ _ _ _).2 ⟨[.tensor (vec [1, 2])], .obj "text", [.tensor (vec [1, 2, 3])], rfl,
    by simpa using ⟨rfl, List.prefix_rfl⟩, .inl ⟨rfl, by rintro _ ⟨⟩⟩⟩

/-- A controller built by a program of definitions, then used for a round. -/
def built : Res (Controller ℚ) :=
  runBuild ⟨baseState [2] .f32 (1/10) 1 none⟩ exampleProgram >>= fun b =>
    run b.build (roundOps [round [1/2, 1] 3 4])

/-- C26 -/
example : ∃ c, built = .ok c ∧ c.state.WF ∧
    ∀ n, n ∈ c.state.updates.keys ↔ n ∈ c.state.accumulators.keys :=
  applied (by decide +kernel) fun _ h => by
    obtain ⟨b, hb, hc⟩ := bind_ok.1 h
    exact ⟨(C26_reachable_wf [2] rfl _ _ _ _ _ hb hc).2, (C26_aligned [2] rfl _ _ _ _ _ hb hc).2.1⟩

/-- C27 -/
example : ∃ b, Builder.deleteDefinition ⟨fresh⟩ "out" = .ok b ∧
    b.state.accumulators.get? "out" = none ∧
    b.state.accumulators.get? "tree" = some (pair (vec [0, 0]) (col 1 1)) := by
  obtain ⟨b, h, -, ha, -⟩ := C27_delete_defined fresh_wf (name := "out") (by decide)
  exact ⟨b, h, ha "out", ha "tree"⟩

/-- C27, round trips -/
example : (∃ b, Builder.defineAccumulatorDirectly ⟨fresh⟩ "new" (pair (vec [1, 2]) (col 3 4)) = .ok b ∧
      b.deleteDefinition "new" = .ok ⟨fresh⟩) ∧
    ∃ b₁ b₂, Builder.deleteDefinition ⟨fresh⟩ "out" = .ok b₁ ∧
      b₁.defineAccumulatorDirectly "out" (bare (col 0 0)) = .ok b₂ ∧
      b₂.state.accumulators.get? "tree" = fresh.accumulators.get? "tree" := by
  refine ⟨appliedTo (by decide +kernel) fun _ h => C27_define_delete fresh_wf (by decide) h, ?_⟩
  obtain ⟨b₁, b₂, h₁, h₂, h⟩ := C27_delete_define fresh_wf (name := "out") (t := bare (col 0 0)) rfl rfl rfl
  exact ⟨b₁, b₂, h₁, h₂, (h "tree").2.1⟩

/-- C28 -/
example : ∃ e, Editor.setProbabilities ⟨mixed, "standard"⟩ (vec [1/4, 1]) = .ok e ∧ e.state.WF :=
  appliedTo (by decide +kernel) fun _ h => (C28_wf_preserved mixed_wf rfl (.inl ⟨_, h⟩)).1

/-- C28, a refused value and a forced one -/
example : (¬ ∃ e, Editor.setResiduals ⟨mixed, "standard"⟩ (vec [1/4, 3/2]) = .ok e) ∧
    Editor.setResiduals ⟨mixed, "silence"⟩ (vec [1/4, 3/2]) =
      .ok ⟨{ mixed with residuals := vec [1/4, 3/2] }, "silence"⟩ :=
  ⟨fun h => absurd (((C28_exact_probability mixed_wf rfl _).2.1 h).2.2 [1] _ rfl).2 (by decide +kernel),
    (C28_silence (by decide)).2.1 _⟩

theorem bare_noNone (t : Tensor ℚ) : (bare t).NoNone := trivial

/-- C29 -/
example : ∃ e, Editor.setAccumulator ⟨smixed, "standard"⟩ "out" (bare (col 5 6)) = .ok e ∧
    e.state.WF ∧ ∀ p, (∃ c, e.build.iterateAct p = .ok c) ↔
      ∃ c, (Editor.build ⟨smixed, "standard"⟩).iterateAct p = .ok c :=
  appliedTo (by decide +kernel) fun _ h => C29_still_iterates_partial smixed_wf rfl
    (acc := bare (col 0 0)) rfl (bare_noNone _) (bare_noNone _) h

/-- C29, an update -/
example : ∃ e, Editor.setUpdates ⟨smixed, "standard"⟩ "out" (bare (col 5 6)) = .ok e ∧
    e.state.updates.get? "out" = some (bare (col 5 6)) ∧
    UpdateFits .f32 (bare (col 0 0)) (bare (col 5 6)) :=
  appliedTo (by decide +kernel) fun _ h => C29_update_fits_partial smixed_wf rfl (acc := bare (col 0 0))
    (d := bare (col 0 0)) rfl rfl (bare_noNone _) (bare_noNone _) h (by
      intro t ht
      have : t = col 0 0 := by simpa using (show Leaf.tensor t ∈ [Leaf.tensor (col 0 0)] from ht)
      subst this; rfl)

/-- C30 -/
example : Editor.setDefaults ⟨mixed, "standard"⟩ "nope" (bare (col 1 1)) = .error .jaxRuntimeError ∧
    Editor.setUpdates ⟨mixed, "standard"⟩ "nope" (bare (col 1 1)) = .error .keyError :=
  have := C30_unknown_name (e := ⟨mixed, "standard"⟩) mixed_wf rfl (name := "nope") (by decide)
    (bare (col 1 1))
  ⟨this.2.1, this.2.2.2 (by intro h; cases h)⟩

/-- C30, a known name -/
example : ∃ e, Editor.setUpdates ⟨mixed, "standard"⟩ "out" (bare (col 1 1)) = .ok e ∧
    e.state.updates.keys = ["out", "tree"] :=
  appliedTo (by decide +kernel) fun _ h =>
    (C30_no_name_added mixed_wf rfl "out" _ (.inr (.inr h))).2.2.2

/-- C31: only element 1 is kept. -/
example : ∃ v, Viewer.maskData ⟨mixed⟩ ⟨.bool, (vec [0, 1]).arr⟩ = .ok v ∧
    v.state.probabilities.at? [1] = some (1/2) ∧ v.state.probabilities.at? [0] = some 0 ∧
    entry? v.state.accumulators "tree" 1 [1, 0] = some 1 ∧
    entry? v.state.accumulators "tree" 1 [0, 0] = some 0 :=
  appliedTo (by decide +kernel) fun _ h => by
    have h1 := (C31_exact mixed_wf h (b := [1]) rfl).1 (by decide +kernel)
    have h0 := (C31_exact mixed_wf h (b := [0]) rfl).2 (by decide +kernel)
    exact ⟨h1.2.2.1.trans (by decide +kernel), h0.2.2.1.trans (by decide +kernel),
      (h1.1 "tree" 1 [0]).trans (by decide +kernel), (h0.1 "tree" 1 [0]).trans (by decide +kernel)⟩

/-- C32: element 0 is halted. -/
example : ∃ h u, Viewer.haltedOnly ⟨mixed⟩ = .ok h ∧ Viewer.unhaltedOnly ⟨mixed⟩ = .ok u ∧
    entry? h.state.accumulators "tree" 1 [0, 0] = some 1 ∧
    entry? u.state.accumulators "tree" 1 [1, 0] = some 1 := by
  obtain ⟨h, u, h1, h2, hs⟩ := C32_partition (v := ⟨mixed⟩) mixed_wf
  refine ⟨h, u, h1, h2, ?_, ?_⟩
  · exact (((hs [0] (by decide)).2.2.2.2.2 1 (by decide +kernel) "tree" 1 [0]).1
      (by norm_num [mixed, fresh])).trans (by decide +kernel)
  · exact (((hs [1] (by decide)).2.2.2.2.2 (1/2) (by decide +kernel) "tree" 1 [0]).2
      (by norm_num [mixed, fresh])).trans (by decide +kernel)

/-- C33 -/
example : ∃ v, Viewer.transform ⟨mixed⟩ (fun t => .ok t) = .ok v ∧
    v.state.updates = v.state.defaults ∧ v.state.probabilities = mixed.probabilities :=
  appliedTo (by decide +kernel) fun _ h => ⟨(C33_updates_from_defaults h).1,
    (Except.ok.inj (C33_transform_partial h).2.2.1).symm⟩

theorem mixed_dicts : mixed.DictsWF where
  accumulators := ⟨by unfold Dict.WF; decide, fun _ _ h => by
    rcases get?_two h with ⟨-, rfl⟩ | ⟨-, rfl⟩ <;> simp [bare, pair, PyTree.WF, PyTree.WFL]⟩
  defaults := ⟨by unfold Dict.WF; decide, fun _ _ h => by
    rcases get?_two h with ⟨-, rfl⟩ | ⟨-, rfl⟩ <;> simp [bare, pair, PyTree.WF, PyTree.WFL]⟩
  updates := ⟨by unfold Dict.WF; decide, fun _ _ h => by
    rcases get?_two h with ⟨-, rfl⟩ | ⟨-, rfl⟩ <;> simp [PyTree.WF]⟩

/-- C34 -/
example := C34_state mixed mixed_dicts

/-- C39 -/
example : Utils.mergePytrees (fun x y : ℕ => .ok (x + y)) (.node .list [.leaf 1, .leaf 2])
      (.node .tuple [.leaf 10]) = .error .assertionError ∧
    ∃ t, Utils.mergePytrees (fun x y : ℕ => .ok (x + y)) (.node .list [.leaf 1, .leaf 2])
        (.node .tuple [.leaf 10, .leaf 20]) = .ok t ∧ t.treeLeaves = [11, 22] := by
  refine ⟨(C39_merge_assertion_iff _ (by rintro _ _ ⟨⟩) _ _).2 (by decide), ?_⟩
  obtain ⟨t, h, -, hl⟩ := C39_merge_pairs (fun x y : ℕ => x + y) (.node .list [.leaf 1, .leaf 2])
    (.node .tuple [.leaf 10, .leaf 20]) rfl
  exact ⟨t, h, hl⟩

/-- C42 -/
example : (∃ r, Tensor.binop (fun _ x y => x + y) (vec [1, 2, 3]) (col 4 5) = .ok r) ∧
    ¬ ∃ r, Tensor.binop (fun _ x y => x + y) (vec [1, 2, 3]) (vec [1, 2]) = .ok r :=
  ⟨(C42_iff_operation _ _ _).1 (by decide), fun h => absurd ((C42_iff_operation _ _ _).2 h) (by decide)⟩

/-- C43: one number for each row -/
example : ∃ t' r, Utils.setupLeftBroadcastT (vec [2, 3]) (some [2, 1]) = .ok t' ∧
    Tensor.binop (fun _ x y => x * y) t' (col 5 7) = .ok r ∧ r.at? [1, 0] = some 21 := by
  obtain ⟨t', r, h1, h2, -, hd, h⟩ := C43_pairs_left (fun _ x y => x * y) (vec [2, 3]) (col 5 7) ⟨[1], rfl⟩
  exact ⟨t', r, h1, h2, (h [1] [0] rfl 3 7 rfl rfl).trans (by rw [hd]; decide +kernel)⟩

/-- C47 -/
example : ∃ e, Editor.editSave mixed "silence" = .ok e ∧
    (Controller.load mixed).accumulators = e.accumulators :=
  appliedTo (by decide +kernel) fun _ h => (C47_shared_properties mixed "silence" _ h).2.2.2.1.2

/-- The same controller with half the depression constant and half the epsilon. -/
def slow : ACTStates ℚ := { simple with epsilon := 1/20, depression_constant := 1/2 }

/-- C48: element 1 has halted in the slow controller, so it has in the other one. -/
example : ∃ c, run ⟨slow⟩ (roundOps [sround [1/2, 1] 4 6, sround [1/2, 1] 4 6]) = .ok c ∧
    ∃ d, run ⟨simple⟩ (roundOps [sround [1/2, 1] 4 6, sround [1/2, 1] 4 6]) = .ok d ∧
    (c.haltedBatches.at? [1] = some true → d.haltedBatches.at? [1] = some true) :=
  applied (by decide +kernel) fun _ hc => applied (by decide +kernel) fun _ hd =>
    C48_monotone (s := slow) (t := simple) { simple_wf with } simple_wf (by norm_num [slow])
      (by norm_num [slow, simple, fresh]) (by norm_num [simple, fresh]) (by norm_num [slow])
      (by norm_num [slow, simple, fresh]) (by decide +kernel) (by decide +kernel) rfl (fun _ => 1)
      (by rintro (_ | _ | j) r h <;> cases h <;> decide +kernel)
      (by rintro (_ | _ | j) r h <;> cases h <;> decide +kernel) hc hd

/-- C48, depression constant zero -/
example : ∃ c, run ⟨{ smixed with depression_constant := 0 }⟩
      (roundOps [sround [1/2, 1] 4 6, sround [1/2, 1] 4 6]) = .ok c ∧
    c.probabilities.at? [1] = some (1/2) :=
  applied (by decide +kernel) fun _ h =>
    ((C48_zero_depression (s := { smixed with depression_constant := 0 }) { smixed_wf with } rfl _
      (rounds_notReset _) h (b := [1]) (by decide +kernel)).2.1).trans (by decide +kernel)

/-- C49: with updates 2 and 8 the entry of the running element 0 stays between 0 and 8, the entry of element 1,
which halts, ends between 2 and 8. -/
example : ∃ c, run ⟨fresh⟩ (roundOps [round [1/4, 1/2] 2 2, round [1/4, 1/2] 8 8]) = .ok c ∧
    (∃ a, entry? c.accumulators "out" 0 [0, 0] = some a ∧ 0 ≤ a ∧ a ≤ 8) ∧
    (c.haltedBatches.at? [1] = some true →
      ∃ a, entry? c.accumulators "out" 0 [1, 0] = some a ∧ 2 ≤ a ∧ a ≤ 8) :=
  applied (by decide +kernel) fun c h => by
    let u : ℕ → ℚ := fun t => if t = 0 then 2 else 8
    have hu : ∀ (i : List ℕ) (t : ℕ) (r : Round ℚ), i = [0, 0] ∨ i = [1, 0] →
        [round [1/4, 1/2] 2 2, round [1/4, 1/2] 8 8][t]? = some r →
        entry? r.updates "out" 0 i = some (u t) := by
      rintro i (_ | _ | t) r (rfl | rfl) h <;> cases h <;> decide +kernel
    refine ⟨C49_convex_bounds fresh_wf (by norm_num [fresh]) (by norm_num [fresh]) (by norm_num [fresh]) _ h
      u (fun _ => 1/4) le_rfl (by norm_num) (by decide +kernel) (by decide +kernel)
      (fun t r hr => ⟨hu _ t r (.inl rfl) hr, ?_⟩)
      (by rintro (_ | _ | t) r h <;> cases h <;> decide +kernel), fun hh => ?_⟩
    · simp only [u]; split <;> norm_num
    · obtain ⟨w, -, -, ha, hb⟩ := C49_weighted_mean fresh_wf (by norm_num [fresh]) (by norm_num [fresh])
        (by norm_num [fresh]) _ h (i := [1, 0]) u (fun _ => 1/2) (by decide +kernel) (by decide +kernel)
        (fun t r hr => hu _ t r (.inr rfl) hr) (by rintro (_ | _ | t) r h <;> cases h <;> decide +kernel) hh
      have := hb 2 8 fun t _ => by simp only [u]; split <;> norm_num
      exact ⟨_, ha, this.1, this.2⟩

end JaxAct.Applied
